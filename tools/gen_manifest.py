#!/usr/bin/env python3
"""Write MANIFEST.json: theorem names are collected from lean/Verif/Props, status and notes from status.json."""
import json, re, glob, os
root = os.path.dirname(os.path.dirname(os.path.abspath(__file__)))
thms = {}
for f in sorted(glob.glob(root + '/lean/Verif/Props/**/*.lean', recursive=True)):
    ns = []
    for line in open(f):
        m = re.match(r'(namespace|end|section|noncomputable section)\b\s*(\S*)', line)
        if m and m[1] == 'namespace':
            ns.append(m[2])
        elif m and m[1] == 'end' and ns and m[2] == ns[-1]:
            ns.pop()
        m = re.match(r'theorem ((?:\w+\.)?)(C\d\d)_(\S+)', line)
        if m:
            thms.setdefault(m[2], []).append(".".join(ns + [m[1] + m[2] + "_" + m[3]]))
status = json.load(open(root + '/tools/status.json'))
claims = []
for l in open(root + '/properties.jsonl'):
    c = json.loads(l)['id']
    if c in status:
        claims.append({'property': c, 'status': status[c][0], 'theorems': thms.get(c, []), 'note': status[c][1]})
json.dump({'claims': claims}, open(root + '/MANIFEST.json', 'w'), indent=1)
miss = [c for c in thms if c not in status]
print(len(claims), 'claims; theorems without status:', miss, '; claims without theorems:',
      [c['property'] for c in claims if not c['theorems']])
