#!/usr/bin/env python3
"""Generate lean/Verif/Model/Python/*.lean: the model read in the scalars of the Python interpreter (Model/Python/Arith.lean).
Powers may raise, so `x ^ n` becomes `(← x ^! n)`."""
import re
root = '/verif/lean/Verif/Model/'


def powers(s):
    out = ''
    i = 0
    for m in re.finditer(r' \^ (\d)', s):
        out += s[i:m.start()]
        i = m.end()
        # the base: an identifier or a parenthesised expression at the end of `out`
        if out.endswith(')'):
            depth, j = 0, len(out)
            while True:
                j -= 1
                depth += (out[j] == ')') - (out[j] == '(')
                if depth == 0:
                    break
        else:
            j = re.search(r'[\w.]+$', out).start()
        out = out[:j] + '(← ' + out[j:] + ' ^! ' + m.group(1) + ')'
    return out + s[i:]


for f in ['Utils', 'Point', 'Dipole', 'PrismUtils', 'PrismKernels', 'PrismGravity', 'PrismMagnetic']:
    s = open(root + f + '.lean').read()
    s = re.sub(r'import Verif\.Model\.(\w+)', r'import Verif.Model.Python.\1', s)
    s = re.sub(r'\bnamespace Choclo\b', 'namespace Choclo.Python', s)
    s = re.sub(r'\bend Choclo\b', 'end Choclo.Python', s)
    s = re.sub(r'\bFl A\b', 'PNum A', s)
    s = re.sub(r'\bFl\.', 'PNum.', s)
    s = re.sub(r'\bPy \(', 'PyX (', s)
    s = s.replace(' /. ', ' /! ')
    if f != 'PrismGravity':      # `result = 0` in `_gravity.py`, `0.0` in `_magnetic.py`
        s = re.sub(r'(let mut \w+ : PNum A := )0\n', r'\1PNum.fzero\n', s)
    if f == 'PrismKernels':      # `return 0.0` in `_kernel_iii`, `_kernel_iij`; the integer 0 elsewhere
        s = re.sub(r'(&& PNum\.eq x_k 0\) then\n    return )0\n', r'\1PNum.fzero\n', s)
        s = re.sub(r'(\n  else if PNum\.eq x_i 0 && PNum\.eq x_j 0 then\n    return )0\n', r'\1PNum.fzero\n', s)
    s = powers(s)
    s = re.sub(r'/-! # (Model of [^\n]*?)( -/)?\n', r'/-! # \1, run by the interpreter\2\n', s, count=1)
    s = s.replace('/-! #', '/-! Generated from `Verif/Model/%s.lean` by `tools/python.py`. -/\n\n/-! #' % f, 1)
    open(root + 'Python/' + f + '.lean', 'w').write(s)
