#!/usr/bin/env python3
"""Generate lean/Verif/Model/Typed/*.lean: the model read with int64 and float64 arguments (Model/Typed/Arith.lean)."""
import re
root = '/verif/lean/Verif/Model/'
for f in ['Utils', 'Point', 'Dipole', 'PrismUtils', 'PrismKernels', 'PrismGravity', 'PrismMagnetic']:
    s = open(root + f + '.lean').read()
    s = re.sub(r'import Verif\.Model\.(\w+)', r'import Verif.Model.Typed.\1', s)
    s = re.sub(r'\bnamespace Choclo\b', 'namespace Choclo.Typed', s)
    s = re.sub(r'\bend Choclo\b', 'end Choclo.Typed', s)
    s = re.sub(r'\bFl A := 0\n', 'TFl A := .flt 0\n', s)
    s = re.sub(r'\breturn 0\n', 'return .flt 0\n', s)
    s = re.sub(r'\bFl A\b', 'TFl A', s)
    s = re.sub(r'\bFl\.', 'TFl.', s)
    s = s.replace(' /. ', ' /ᵢ ')
    s = re.sub(r'/-! # (Model of [^\n]*?)( -/)?\n', r'/-! # \1, for int64 and float64 arguments\2\n', s, count=1)
    s = s.replace('/-! #', '/-! Generated from `Verif/Model/%s.lean` by `tools/typed.py`. -/\n\n/-! #' % f, 1)
    open(root + 'Typed/' + f + '.lean', 'w').write(s)
