#!/usr/bin/env python3
"""Writes MANIFEST.json. Theorems are collected from lean/Verif/Props by their Cnn_ prefix."""
import json, re, glob, os
root = os.path.dirname(os.path.dirname(os.path.abspath(__file__)))
props = [json.loads(l) for l in open(root + '/properties.jsonl') if l.strip()]
status = json.load(open(root + '/tools/status.json'))
thms = {}
for f in sorted(glob.glob(root + '/lean/Verif/Props/*.lean')):
    src = open(f).read()
    ns = re.search(r'^namespace (\S+)', src, re.M).group(1)
    for n in re.findall(r'^theorem (C\d\d\d?_\S+)', src, re.M):
        thms.setdefault(n.split('_')[0], []).append(ns + '.' + n)
claims = []
for p in props:
    i = p['id']
    st = status.get(i)
    if i in thms and st:
        claims.append({'property': i, 'status': st[0], 'theorems': thms[i], 'note': st[1]})
    elif st and st[0] == 'not_applicable':
        claims.append({'property': i, 'status': 'not_applicable', 'theorems': [], 'note': st[1]})
json.dump({'claims': claims}, open(root + '/MANIFEST.json', 'w'), indent=1, ensure_ascii=False)
print(len(claims), 'claims;', sorted(set(p['id'] for p in props) - {c['property'] for c in claims}), 'open')
