#!/usr/bin/env python3
"""Writes section 4 of DESIGN.md: for each Go file, the functions cited by the model and those that are not."""
import re, glob, os
root = os.path.dirname(os.path.dirname(os.path.abspath(__file__)))
funcs = {}
for f in sorted(glob.glob('/repo/**/*.go', recursive=True)):
    rel = f[len('/repo/'):]
    if rel.endswith('_test.go'): continue
    L = open(f).read().split('\n')
    for i, l in enumerate(L):
        m = re.match(r'func (?:\((\w+ )?\*?(\w+)\) )?(\w+)\(', l)
        if m:
            j = i
            if not l.rstrip().endswith('}'):
                while j < len(L) and L[j] != '}': j += 1
            funcs.setdefault(rel, []).append((m.group(3), i + 1, j + 1))
base = {}
for rel in funcs: base.setdefault(os.path.basename(rel), []).append(rel)
cited = {}
for p in glob.glob(root + '/lean/Verif/Model/*.lean'):
    s = open(p).read()
    for m in re.finditer(r'([\w/]+\.go):((?:\d+(?:-\d+)?(?:, |,\n| and |\s+and\s+)?)+)', s):
        rel = m.group(1)
        if rel not in funcs:
            c = base.get(os.path.basename(rel), [])
            if len(c) != 1: continue
            rel = c[0]
        for a, b in re.findall(r'(\d+)(?:-(\d+))?', m.group(2)):
            cited.setdefault(rel, []).append((int(a), int(b or a)))
out = []
tot = mod = 0
for rel, fs in funcs.items():
    yes = [n for n, a, b in fs if any(x <= b and a <= y for x, y in cited.get(rel, []))]
    no = [n for n, a, b in fs if not any(x <= b and a <= y for x, y in cited.get(rel, []))]
    tot += len(fs); mod += len(yes)
    out.append('* `%s` (%d of %d functions).' % (rel, len(yes), len(fs)))
    if yes and no: out.append('  Not modelled: ' + ', '.join('`%s`' % n for n in no) + '.')
    elif no: out.append('  Not modelled.')
text = '\n'.join(out)
p = root + '/DESIGN.md'
s = open(p).read()
start, end = '<!-- coverage -->', '<!-- /coverage -->'
block = start + '\n%d of the %d functions outside tests have a definition that cites them.\n\n' % (mod, tot) + text + '\n' + end
if start in s:
    s = s[:s.index(start)] + block + s[s.index(end) + len(end):]
else:
    s += '\n' + block + '\n'
open(p, 'w').write(s)
print(mod, tot)
