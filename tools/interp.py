#!/usr/bin/env python3
"""Generate lean/Verif/Model/Interp/*.lean: the signed-zero model read with NumPy's division (Model/Interp/Arith.lean),
that is, the code run by the Python interpreter (NUMBA_DISABLE_JIT=1) on np.float64 scalars."""
import re
root = '/verif/lean/Verif/Model/'
for f in ['Utils', 'Point', 'Dipole', 'PrismKernels', 'PrismGravity', 'PrismMagnetic']:
    s = open(root + 'Signed/' + f + '.lean').read()
    s = re.sub(r'import Verif\.Model\.Signed\.PrismUtils', r'import Verif.Model.Signed.PrismUtils', s)
    s = re.sub(r'import Verif\.Model\.Signed\.(Utils|PrismKernels|PrismGravity|Arith)\b', r'import Verif.Model.Interp.\1', s)
    s = re.sub(r'\bnamespace Choclo\.Signed\b', 'namespace Choclo.Interp', s)
    s = re.sub(r'\bend Choclo\.Signed\b', 'end Choclo.Interp', s)
    s = re.sub(r'(?<![\w.`])(is_(?:point|interior)\w*)', r'Signed.prism.\1', s)
    s = re.sub(r'/-- `(?:GRAV|VACUUM)[^\n]*\nnoncomputable def [^\n]*\n\n', '', s)
    s = re.sub(r'\b(GRAVITATIONAL_CONST|VACUUM_MAGNETIC_PERMEABILITY)\b', r'Signed.\1', s)
    if f == 'Utils':
        s = s.replace('import Verif.Model.Interp.Arith', 'import Verif.Model.Interp.Arith\nimport Verif.Model.Signed.Utils')
    s = s.replace(' /± ', ' /∞ ')
    s = re.sub(r'by `tools/signed.py`', 'by `tools/signed.py` and `tools/interp.py`', s)
    s = s.replace(', with signed zeros', ', run by the interpreter')
    open(root + 'Interp/' + f + '.lean', 'w').write(s)
