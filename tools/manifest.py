#!/usr/bin/env python3
"""Write MANIFEST.json: theorem names are collected from lean/Verif/Props, status and notes from
tools/status.json. Properties without a theorem are left out."""
import json, re, pathlib
root = pathlib.Path(__file__).resolve().parent.parent
props = [json.loads(l) for l in open(root/'properties.jsonl')]
status = json.load(open(root/'tools/status.json'))
thms = {}
for f in sorted((root/'lean/Verif/Props').glob('**/*.lean')):
    for m in re.finditer(r"^theorem (C\d\d+)(_\w+)", f.read_text(), re.M):
        thms.setdefault(m.group(1), []).append('Lulua.Props.' + m.group(1) + m.group(2))
claims = []
for p in props:
    i = p['id']
    s = status.get(i, {})
    if i in thms:
        claims.append(dict(property=i, status=s.get('status', 'proved'), theorems=thms[i], note=s.get('note', '')))
    elif s.get('status') == 'not_applicable':
        claims.append(dict(property=i, status='not_applicable', theorems=[], note=s['note']))
    else:
        print('no theorem for', i)
json.dump(dict(claims=claims), open(root/'MANIFEST.json', 'w'), indent=1, ensure_ascii=False)
