#!/usr/bin/env python3
"""Checks that a citation `file.go:a-b `Func`` in a model comment covers that function; --fix rewrites it."""
import re, glob, os, sys
root = os.path.dirname(os.path.dirname(os.path.abspath(__file__)))
funcs = {}
for f in glob.glob('/repo/**/*.go', recursive=True):
    L = open(f).read().split('\n')
    for i, l in enumerate(L):
        m = re.match(r'(?:func (?:\([^)]*\) )?(\w+)\(|type (\w+) struct|const (\w+)|var (\w+))', l)
        if m:
            j = i
            if not (l.rstrip().endswith('}') or m.group(3)) :
                while j < len(L) and L[j] not in ('}', ')', '`'): j += 1
            funcs.setdefault((os.path.basename(f), next(g for g in m.groups() if g)), []).append((i + 1, j + 1))
bad = 0
for p in glob.glob(root + '/lean/Verif/Model/*.lean'):
    s = open(p).read()
    def rep(m):
        global bad
        key = (m.group(1), m.group(4))
        if key not in funcs: return m.group(0)
        spans = funcs[key]
        a, b = int(m.group(2)), int(m.group(3))
        if any(x <= a and b <= y + 1 for x, y in spans) and (len(m.group(5)) and True):
            if (a, b) in spans: return m.group(0)
        best = min(spans, key=lambda q: abs(q[0] - a))
        if (a, b) == best: return m.group(0)
        bad += 1
        print(os.path.basename(p), m.group(1), (a, b), '->', best, m.group(4))
        return '%s:%d-%d%s`%s`' % (m.group(1), best[0], best[1], m.group(5), m.group(4))
    t = re.sub(r'(\w+\.go):(\d+)-(\d+)(\s+)`(\w+)`', lambda m: rep(type('M', (), {'group': lambda self, k, m=m: (m.group(0), m.group(1), m.group(2), m.group(3), m.group(5), m.group(4))[k]})()), s)
    if '--fix' in sys.argv and t != s: open(p, 'w').write(t)
print(bad, 'citations differ')
