#!/usr/bin/env python3
"""Append properties (JSON list on stdin; extra key `row` = DESIGN.md table cells 3-5) to properties.jsonl and the table of DESIGN.md."""
import json, sys, re
ps = json.load(sys.stdin)
d = open('/verif/DESIGN.md').read().split('\n')
last = max(i for i, l in enumerate(d) if re.match(r'\| C\d{2,3} ', l))
with open('/verif/properties.jsonl', 'a') as f:
    for p in ps:
        short, th, kind, how = p.pop('row')
        f.write(json.dumps(p, ensure_ascii=False) + '\n')
        last += 1
        d.insert(last, f"| {p['id']} | {short} | {th} | {kind} | {how} |")
open('/verif/DESIGN.md', 'w').write('\n'.join(d))
