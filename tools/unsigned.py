#!/usr/bin/env python3
"""Generate lean/Verif/Model/Unsigned/{Utils,Point,Dipole}.lean: the model read with int64, uint64 and float64 arguments
(Model/Unsigned/Arith.lean)."""
import re
root = '/verif/lean/Verif/Model/'
for f in ['Utils', 'Point', 'Dipole']:
    s = open(root + 'Typed/' + f + '.lean').read()
    s = re.sub(r'import Verif\.Model\.Typed\.(\w+)', r'import Verif.Model.Unsigned.\1', s)
    s = re.sub(r'\bChoclo\.Typed\b', 'Choclo.Unsigned', s)
    if f == 'Utils':
        i = s.index('/-- `/repo/src/choclo/utils.py:130-208`')
        s = s[:i] + 'end utils\n\nend Choclo.Unsigned\n'
    s = s.replace('TFl', 'UFl').replace(' /ᵢ ', ' /ᵤ ')
    s = s.replace('by `tools/typed.py`', 'by `tools/typed.py` and `tools/unsigned.py`')
    s = s.replace(', for int64 and float64 arguments', ', for int64, uint64 and float64 arguments')
    open(root + 'Unsigned/' + f + '.lean', 'w').write(s)
