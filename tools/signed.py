#!/usr/bin/env python3
"""Generate lean/Verif/Model/Signed/*.lean: the model read in the arithmetic with signed zeros (Model/Signed/Arith.lean)."""
import re
root = '/verif/lean/Verif/Model/'
for f in ['Utils', 'Point', 'Dipole', 'PrismUtils', 'PrismKernels', 'PrismGravity', 'PrismMagnetic']:
    s = open(root + f + '.lean').read()
    s = re.sub(r'import Verif\.Model\.(\w+)', r'import Verif.Model.Signed.\1', s)
    s = re.sub(r'\bnamespace Choclo\b', 'namespace Choclo.Signed', s)
    s = re.sub(r'\bend Choclo\b', 'end Choclo.Signed', s)
    s = re.sub(r'\bFl A\b', 'SFl A', s)
    s = re.sub(r'\bFl\.', 'SFl.', s)
    s = s.replace(' /. ', ' /± ')
    s = re.sub(r'/-! # (Model of [^\n]*?)( -/)?\n', r'/-! # \1, with signed zeros\2\n', s, count=1)
    s = s.replace('/-! #', '/-! Generated from `Verif/Model/%s.lean` by `tools/signed.py`. -/\n\n/-! #' % f, 1)
    open(root + 'Signed/' + f + '.lean', 'w').write(s)
