#!/usr/bin/env python3
"""Regenerate /verif/MANIFEST.json and lean/Verif.lean from the theorem names C<nn>_* under lean/Verif/Props."""
import re, json, glob, os
root = '/verif'
notes = json.load(open(root + '/tools/notes.json')) if os.path.exists(root + '/tools/notes.json') else {}
props = [json.loads(l) for l in open(root + '/properties.jsonl')]
thms = {}
for f in sorted(glob.glob(root + '/lean/Verif/Props/*.lean')):
    for m in re.finditer(r'^theorem (C(\d{2,3})_\w+)', open(f).read(), re.M):
        thms.setdefault('C' + m.group(2), []).append(m.group(1))
claims = []
for p in props:
    i = p['id']
    n = notes.get(i, {})
    t = thms.get(i, [])
    if not t and not n.get('status'):
        continue
    st = n.get('status') or ('partial' if any(x.endswith('_partial') for x in t) else 'proved')
    claims.append({'property': i, 'status': st, 'theorems': t, 'note': n.get('note', '')})
json.dump({'claims': claims}, open(root + '/MANIFEST.json', 'w'), indent=1)
mods = []
for d in ['Model', 'Model/Signed', 'Model/Typed', 'Model/Interp', 'Spec', 'Lemmas', 'Props']:
    for f in sorted(glob.glob(root + f'/lean/Verif/{d}/*.lean')):
        mods.append('import Verif.' + d.replace('/', '.') + '.' + os.path.basename(f)[:-5])
open(root + '/lean/Verif.lean', 'w').write('\n'.join(mods) + '\n')
print(len(claims), 'claims', sum(len(c['theorems']) for c in claims), 'theorems; missing:', [p['id'] for p in props if p['id'] not in thms])
