#!/usr/bin/env python3
"""Regenerates MANIFEST.json and lean/Verif/Audit.lean from tools/claims.txt.

claims.txt: one line per claim, `id | status | theorem theorem ... | note`.
"""
import json, os
root = os.path.dirname(os.path.dirname(os.path.abspath(__file__)))
claims, thms = [], []
for line in open(os.path.join(root, 'tools/claims.txt')):
    line = line.strip()
    if not line or line.startswith('#'):
        continue
    cid, status, ths, note = [x.strip() for x in line.split('|', 3)]
    ths = ths.split()
    claims.append({"property": cid, "status": status, "theorems": ths, "note": note})
    for t in ths:
        if t not in thms:
            thms.append(t)
with open(os.path.join(root, 'MANIFEST.json'), 'w') as f:
    json.dump({"claims": claims}, f, indent=1)
    f.write('\n')
props = sorted(p[:-5] for p in os.listdir(os.path.join(root, 'lean/Verif/Props')) if p.endswith('.lean'))
with open(os.path.join(root, 'lean/Verif/Audit.lean'), 'w') as f:
    for p in props:
        f.write(f'import Verif.Props.{p}\n')
    f.write('\n/-! Axioms of every theorem listed in MANIFEST.json (generated by tools/manifest.py). -/\n\n')
    for t in thms:
        f.write(f'#print axioms {t}\n')
mods = []
for d, _, fs in os.walk(os.path.join(root, 'lean/Verif')):
    for p in fs:
        if p.endswith('.lean'):
            mods.append(os.path.relpath(os.path.join(d, p), os.path.join(root, 'lean'))[:-5].replace('/', '.'))
with open(os.path.join(root, 'lean/Verif.lean'), 'w') as f:
    for m in sorted(mods):
        f.write(f'import {m}\n')
