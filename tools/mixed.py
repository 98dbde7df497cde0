#!/usr/bin/env python3
"""Generate lean/Verif/Model/Mixed/*.lean: the model read with float32 and float64 arguments (Model/Mixed/Arith.lean)."""
import re
root = '/verif/lean/Verif/Model/'
for f in ['Utils', 'Point', 'Dipole', 'PrismUtils', 'PrismKernels', 'PrismGravity', 'PrismMagnetic']:
    s = open(root + f + '.lean').read()
    s = re.sub(r'import Verif\.Model\.(\w+)', r'import Verif.Model.Mixed.\1', s)
    s = re.sub(r'\bnamespace Choclo\b', 'namespace Choclo.Mixed', s)
    s = re.sub(r'\bend Choclo\b', 'end Choclo.Mixed', s)
    s = re.sub(r'variable \{A : Arith\}', 'variable {S D : Arith}', s)
    s = re.sub(r'\bFl A\b', 'MFl S D', s)
    s = re.sub(r'Kernel \(A : Arith\)', 'Kernel (S D : Arith)', s)
    s = re.sub(r'\bKernel A\b', 'Kernel S D', s)
    s = re.sub(r'\bFl\.', 'MFl.', s)
    s = s.replace(' /. ', ' /ₘ ')
    if f == 'PrismKernels':
        s = re.sub(r'\breturn ([^\n]*)\n', r'return MFl.widen (\1)\n', s)
    s = re.sub(r'/-! # (Model of [^\n]*?)( -/)?\n', r'/-! # \1, for float32 and float64 arguments\2\n', s, count=1)
    s = s.replace('/-! #', '/-! Generated from `Verif/Model/%s.lean` by `tools/mixed.py`. -/\n\n/-! #' % f, 1)
    open(root + 'Mixed/' + f + '.lean', 'w').write(s)
