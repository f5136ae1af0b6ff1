#!/usr/bin/env python3
"""Mutation tests of the theorems.

usage: mutate.py SCRATCH MUTANTS.json [LOG.jsonl]

SCRATCH is a copy of the lean directory (with its build output) outside this repository, and SCRATCH.orig
another copy of its sources, from which every file is restored (also after an interrupted run).  Every
mutant {"def", "file", "old", "new", "edit", "breaks"} is applied to it in turn, the project is rebuilt, the
declarations in which errors are reported are collected, and the edit is undone."""
import json, os, re, subprocess, sys, time

scratch, mutants = sys.argv[1], json.load(open(sys.argv[2]))
log = sys.argv[3] if len(sys.argv) > 3 else None

def enclosing(path, line):
    name = '?'
    for k, l in enumerate(open(path), 1):
        if k > line: break
        m = re.match(r'(?:@\[[^\]]*\]\s*)?(?:private |protected |noncomputable )*(theorem|lemma|def|example|instance|abbrev|structure)\s*(\S*)', l)
        if m: name = m.group(2) if m.group(1) not in ('example',) and m.group(2) not in ('', ':') else 'example'
    return name

done = set()
if log and os.path.exists(log):
    for l in open(log):
        d = json.loads(l); done.add((d['definition'], d['edit']))

for mu in mutants:
    path = os.path.join(scratch, 'Verif', mu['file'])
    orig = open(os.path.join(scratch.rstrip('/') + '.orig', 'Verif', mu['file'])).read()
    if open(path).read() != orig: open(path, 'w').write(orig)

for mu in mutants:
    key = (mu['def'], mu['edit'])
    if key in done: continue
    path = os.path.join(scratch, 'Verif', mu['file'])
    src = open(os.path.join(scratch.rstrip('/') + '.orig', 'Verif', mu['file'])).read()
    if src.count(mu['old']) != 1:
        print('SKIP', mu['def'], 'occurrences:', src.count(mu['old'])); continue
    open(path, 'w').write(src.replace(mu['old'], mu['new']))
    t = time.time()
    try:
        p = subprocess.run(['lake', 'build'], cwd=scratch, capture_output=True, text=True, timeout=3000)
        out = p.stdout + p.stderr
        failed = []
        for m in re.finditer(r'error: (Verif/\S+?\.lean):(\d+):\d+', out):
            f, line = m.group(1), int(m.group(2))
            n = enclosing(os.path.join(scratch, f), line)
            s = f[6:-5].replace('/', '.') + ': ' + n
            if s not in failed: failed.append(s)
        if p.returncode != 0 and not failed: failed = ['build: ' + out[-300:]]
    except subprocess.TimeoutExpired:
        failed = ['timeout']
    open(path, 'w').write(src)
    rec = {'definition': mu['def'], 'edit': mu['edit'], 'breaks': mu['breaks'], 'failed': failed, 'tightened': []}
    print(round(time.time() - t), 's', 'KILLED' if failed else 'SURVIVED', mu['def'], '|', mu['edit'], '|', failed[:4], flush=True)
    if log:
        open(log, 'a').write(json.dumps(rec, ensure_ascii=False) + '\n')
