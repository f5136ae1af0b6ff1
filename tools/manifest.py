#!/usr/bin/env python3
"""Regenerates MANIFEST.json: property -> theorems named Cnn_* in lean/Verif/Props."""
import glob, json, os, re
root = os.path.dirname(os.path.dirname(os.path.abspath(__file__)))
notes = json.load(open(os.path.join(root, 'tools', 'manifest_notes.json')))
names = {}
for f in sorted(glob.glob(os.path.join(root, 'lean/Verif/Props/**/*.lean'), recursive=True)):
    ns = []
    for line in open(f):
        m = re.match(r'namespace (\S+)', line)
        if m: ns.append(m.group(1))
        m = re.match(r'end (\S+)', line)
        if m and ns and ns[-1] == m.group(1): ns.pop()
        m = re.match(r'theorem (C\d+)(_\S+)', line)
        if m: names.setdefault(m.group(1), []).append('.'.join(ns + [m.group(1) + m.group(2)]))
claims = []
for line in open(os.path.join(root, 'properties.jsonl')):
    p = json.loads(line)['id']
    if p not in notes: continue
    st, note = notes[p]
    claims.append({'property': p, 'status': st, 'theorems': names.get(p, []), 'note': note})
json.dump({'claims': claims}, open(os.path.join(root, 'MANIFEST.json'), 'w'), indent=1)
missing = [p for p in names if p not in notes]
if missing: print('no note for', missing)
