#!/usr/bin/env python3
"""Generate lean/Verif/Model/NpInt/*.lean: the model for int64 and float64 arguments read with NumPy's division
(Model/NpInt/Arith.lean), that is, the code run by the Python interpreter (NUMBA_DISABLE_JIT=1) on np.int64 and
np.float64 scalars."""
import re
root = '/verif/lean/Verif/Model/'
for f in ['Utils', 'Point', 'Dipole', 'PrismKernels', 'PrismGravity', 'PrismMagnetic']:
    s = open(root + 'Typed/' + f + '.lean').read()
    s = re.sub(r'import Verif\.Model\.Typed\.(Utils|PrismKernels|PrismGravity|Arith)\b', r'import Verif.Model.NpInt.\1', s)
    s = re.sub(r'\bnamespace Choclo\.Typed\b', 'namespace Choclo.NpInt', s)
    s = re.sub(r'\bend Choclo\.Typed\b', 'end Choclo.NpInt', s)
    s = re.sub(r'(?<![\w.`])(is_(?:point|interior)\w*)', r'Typed.prism.\1', s)
    s = re.sub(r'/-- `(?:GRAV|VACUUM)[^\n]*\nnoncomputable def [^\n]*\n\n', '', s)
    s = re.sub(r'\b(GRAVITATIONAL_CONST|VACUUM_MAGNETIC_PERMEABILITY)\b', r'Typed.\1', s)
    if f == 'Utils':
        s = s.replace('import Verif.Model.NpInt.Arith', 'import Verif.Model.NpInt.Arith\nimport Verif.Model.Typed.Utils')
    s = s.replace(' /ᵢ ', ' /ₙ ')
    s = s.replace('by `tools/typed.py`', 'by `tools/typed.py` and `tools/npint.py`')
    s = s.replace(', for int64 and float64 arguments', ', run by the interpreter on np.int64 and np.float64 scalars')
    open(root + 'NpInt/' + f + '.lean', 'w').write(s)
