#!/usr/bin/env python3
"""Seeds random small bugs, one per definition of the model, in a scratch copy; reports those that no proof notices.
usage: automutate.py seed outfile [files...]     (stops each build at its first error;
with NEW=1 only definitions that seeded/LOG.jsonl does not mention yet)
"""
import json, re, subprocess, sys, os, random, shutil, signal
root = os.path.dirname(os.path.dirname(os.path.abspath(__file__)))
seed, out = int(sys.argv[1]), sys.argv[2]
scratch = os.environ.get('SCRATCH', '/tmp/scratch2')
rnd = random.Random(seed)
if shutil.which('rsync'):
    subprocess.run(['rsync', '-a', '--delete', root + '/lean/', scratch + '/'], check=True)
else:
    shutil.rmtree(scratch, ignore_errors=True); shutil.copytree(root + '/lean', scratch, symlinks=True)
files = sys.argv[3:] or sorted(f for f in os.listdir(scratch + '/Verif/Model'))
head = re.compile(r'^(?:mutual\s+)?(?:@\[.*?\]\s*)?(?:private )?def (\S+)')
decl = re.compile(r'^(?:@\[.*?\]\s*)?(?:private |noncomputable )*(theorem|example|def|instance|abbrev|inductive|structure)\b\s*(\S*)')

def defs(src):
    lines = src.split('\n'); i = 0; res = []
    while i < len(lines):
        m = head.match(lines[i])
        if m:
            j = i + 1
            while j < len(lines) and lines[j].strip() and not lines[j].startswith(('/--', 'def ', 'end', 'theorem', 'instance', 'structure', 'inductive')): j += 1
            res.append((m.group(1), i, j)); i = j
        else: i += 1
    return lines, res

def mutants(text):
    res = []
    def add(a, b, new, what):
        res.append((text[:a] + new + text[b:], what + ': ' + text[max(0, a - 30):b + 30].replace('\n', ' ')))
    body = text.find(':=')
    bar = re.search(r'^\s*\|', text, re.M)
    start = min(x for x in (body if body >= 0 else 10**9, bar.start() if bar else 10**9))
    def it(p):
        for m in re.finditer(p, text):
            if m.start() >= start:
                ln = text[text.rfind('\n', 0, m.start()) + 1:text.find('\n', m.end()) if text.find('\n', m.end()) >= 0 else None]
                yield m, ln
    for m, ln in it(r'\bif (?!let)([^\n]*?) then'): add(m.start(), m.end(), 'if ¬ (%s) then' % m.group(1) if ':' not in m.group(1) else m.group(0), 'negated condition')
    for m, ln in it(r'\btrue\b'): add(m.start(), m.end(), 'false', 'true to false')
    for m, ln in it(r'\bfalse\b'): add(m.start(), m.end(), 'true', 'false to true')
    for a, b in (('&&', '||'), ('||', '&&'), ('∧', '∨'), ('∨', '∧'), ('≤', '<'), (' < ', ' ≤ '), ('≠', '='), (' + ', ' - '), (' - ', ' + ')):
        for m, ln in it(re.escape(a)): add(m.start(), m.end(), b, '%s to %s' % (a.strip(), b.strip()))
    for m, ln in it(r'"([^"\n]*)"'):
        if not re.search(r'err|panic|fail|expected|msg', ln): add(m.start(), m.end(), '"%sx"' % m.group(1), 'text changed')
    for m, ln in it(r'\b(\d+)\b'): add(m.start(), m.end(), str(int(m.group(1)) + 1), 'number changed')
    for m, ln in it(r' \+\+ [\w.]+(?=[\s)\]},]|$)'): add(m.start(), m.end(), '', 'appended part dropped')
    for m, ln in it(r'[\w.]+ \+\+ (?=[\w(\["])'): add(m.start(), m.end(), '', 'first part dropped')
    for m, ln in it(r', \w+ := [\w.]+(?= *[,}])'): add(m.start(), m.end(), '', 'update dropped')
    for m, ln in it(r'\.some\b|\bsome (?=[\w(])'): pass
    lines = text.split('\n')
    for i, l in enumerate(lines):
        if re.match(r'\s*\| .*=>', l) and i > 0:
            res.append(('\n'.join(lines[:i] + lines[i + 1:]), 'case dropped: ' + l.strip()))
        if re.match(r'\s*else if .* then', l):
            res.append(('\n'.join(lines[:i] + lines[i + 1:]), 'branch dropped: ' + l.strip()))
    return res

def build():
    env = dict(os.environ, LEAN_NUM_THREADS=os.environ.get('NT', '2'))
    p = subprocess.Popen(['nice', 'lake', 'build'], cwd=scratch, stdout=subprocess.PIPE, stderr=subprocess.STDOUT, text=True, env=env, start_new_session=True)
    err = None
    for line in p.stdout:
        m = re.match(r'error: (\S+\.lean):(\d+):\d+', line)
        if m: err = (m.group(1), int(m.group(2))); break
        if line.startswith('error') and 'Lean exited' in line: err = ('?', 0); break
    if err: os.killpg(p.pid, signal.SIGKILL)
    p.wait()
    return err

def enclosing(path, line):
    name = '?'
    try:
        for i, l in enumerate(open(os.path.join(scratch, path)), 1):
            if i > line: break
            m = decl.match(l)
            if m: name = m.group(2) if m.group(1) != 'example' else 'example@%d' % i
    except OSError: pass
    return name

todo = []
logged = {json.loads(l)['definition'] for l in open(root + '/seeded/LOG.jsonl')} if os.environ.get('NEW') else set()
for f in files:
    p = scratch + '/Verif/Model/' + f
    lines, ds = defs(open(p).read())
    todo += [(f, d) for d in ds if d[0] not in logged]
rnd.shuffle(todo)
for f, (name, i, j) in todo:
    p = scratch + '/Verif/Model/' + f
    src = open(p).read()
    lines = src.split('\n')
    ms = mutants('\n'.join(lines[i:j]))
    rnd.shuffle(ms)
    for new, what in ms[:4]:
        open(p, 'w').write('\n'.join(lines[:i] + [new] + lines[j:]))
        e = build()
        open(p, 'w').write(src)
        if e and e[0].startswith('Verif/Model/'): continue   # not a program
        rec = {'definition': name, 'file': f, 'edit': what, 'failed': enclosing(*e) if e else None, 'in': e[0] if e else None}
        with open(out, 'a') as g: g.write(json.dumps(rec, ensure_ascii=False) + '\n')
        break
