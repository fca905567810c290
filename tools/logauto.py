#!/usr/bin/env python3
"""Adds the attempts recorded by automutate.py to seeded/LOG.jsonl.
usage: logauto.py outfile [notes.json]   (the claim is the header of the module whose proof failed)
"""
import json, re, sys, os
root = os.path.dirname(os.path.dirname(os.path.abspath(__file__)))
notes = json.load(open(sys.argv[2])) if len(sys.argv) > 2 else {}
def header(path):
    try: s = open(os.path.join(root, 'lean', path)).read()
    except OSError: return path
    m = re.search(r'/-!?\s(.*?)-/', s, re.S)
    return ' '.join(m.group(1).split())[:200] if m else path
seen = {l.strip() for l in open(root + '/seeded/LOG.jsonl')}
n = 0
with open(root + '/seeded/LOG.jsonl', 'a') as g:
    for l in open(sys.argv[1]):
        d = json.loads(l)
        if d['in'] == '?': continue
        note = notes.get(d['definition'], 'survived: no theorem speaks about this')
        rec = {'definition': d['definition'], 'edit': d['edit'], 'claim': header(d['in']) if d['in'] else note,
               'failed': [d['failed']] if d['failed'] else [],
               'modules_with_errors': [d['in'].replace('Verif/', '').replace('.lean', '')] if d['in'] else [], 'tightened': []}
        t = json.dumps(rec, ensure_ascii=False)
        if t not in seen: g.write(t + '\n'); n += 1
print(n)
