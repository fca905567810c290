#!/usr/bin/env python3
"""Applies seeded bugs to a scratch copy of the model, rebuilds, and logs which theorems fail.
usage: mutate.py mutations.json    (a list of {file, def, old, new, edit, claim})
"""
import json, re, subprocess, sys, os, shutil, glob
root = os.path.dirname(os.path.dirname(os.path.abspath(__file__)))
scratch = os.environ.get('SCRATCH', '/tmp/scratch')
muts = json.load(open(sys.argv[1]))
subprocess.run(['rsync', '-a', '--delete', root + '/lean/', scratch + '/'], check=True) if shutil.which('rsync') else (
    shutil.rmtree(scratch, ignore_errors=True), shutil.copytree(root + '/lean', scratch, symlinks=True))
decl = re.compile(r'^(?:@\[.*?\]\s*)?(?:private |noncomputable )*(theorem|example|def|instance|abbrev|inductive|structure)\b\s*(\S*)')

def enclosing(path, line):
    name = '?'
    for i, l in enumerate(open(os.path.join(scratch, path)), 1):
        if i > line: break
        m = decl.match(l)
        if m: name = m.group(2) if m.group(1) != 'example' else 'example@%s:%d' % (os.path.basename(path), i)
    return name

for mu in muts:
    p = os.path.join(scratch, 'Verif', mu['file'])
    src = open(p).read()
    if src.count(mu['old']) < 1:
        print('NOT FOUND', mu['def'], mu['old']); continue
    open(p, 'w').write(src.replace(mu['old'], mu['new'], -1 if mu.get('all') else 1))
    out = subprocess.run(['lake', 'build'] + os.environ.get('TARGETS', '').split(), cwd=scratch, capture_output=True, text=True)
    text = out.stdout + out.stderr
    failed = []
    for f, l in re.findall(r'^error: (\S+\.lean):(\d+):\d+', text, re.M):
        n = enclosing(f, int(l))
        if n not in failed: failed.append(n)
    blocked = sorted(set(re.findall(r'Verif/(\S+)\.lean:\d+', ' '.join(re.findall(r'^error: \S+', text, re.M)))))
    rec = {'definition': mu['def'], 'edit': mu['edit'], 'claim': mu['claim'], 'failed': failed, 'modules_with_errors': blocked,
           'tightened': mu.get('tightened', [])}
    if not failed: rec['note'] = mu.get('note', 'SURVIVED' if out.returncode == 0 else 'build failed')
    print(json.dumps(rec, ensure_ascii=False), flush=True)
    with open(sys.argv[2] if len(sys.argv) > 2 else root + '/seeded/LOG.jsonl', 'a') as g:
        g.write(json.dumps(rec, ensure_ascii=False) + '\n')
    open(p, 'w').write(src)
