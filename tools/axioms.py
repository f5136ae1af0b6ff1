#!/usr/bin/env python3
"""Prints, for every theorem of MANIFEST.json, the axioms it depends on, grouped, as a Markdown list.
With --write, replaces the generated part of DESIGN.md."""
import collections, json, os, re, subprocess, sys, tempfile
root = os.path.dirname(os.path.dirname(os.path.abspath(__file__)))
claims = json.load(open(os.path.join(root, 'MANIFEST.json')))['claims']
names = [t for c in claims for t in c['theorems']]
src = 'import Verif\n' + ''.join(f'#print axioms {n}\n' for n in names)
with tempfile.NamedTemporaryFile('w', suffix='.lean', delete=False) as f: f.write(src)
out = subprocess.run(['lake', 'env', 'lean', f.name], cwd=os.path.join(root, 'lean'), capture_output=True, text=True).stdout
os.unlink(f.name)
found = {}
for m in re.finditer(r"'(\S+?)' (does not depend on any axioms|depends on axioms: \[([^\]]*)\])", out):
    found[m.group(1)] = tuple(sorted(a.strip() for a in (m.group(3) or '').split(',') if a.strip()))
missing = [n for n in names if n not in found]
assert not missing, (missing, out[:2000])
groups = collections.defaultdict(list)
for n in names: groups[found[n]].append(n.split('.')[-1])
lines = []
for ax in sorted(groups, key=len):
    lines.append(f"* {', '.join('`%s`' % a for a in ax) if ax else 'no axioms'} ({len(groups[ax])} theorems): "
                 + ', '.join(groups[ax]) + '.')
text = '\n'.join(lines) + '\n'
if '--write' in sys.argv:
    p = os.path.join(root, 'DESIGN.md')
    s = open(p).read()
    a, b = '<!-- axioms begin -->\n', '<!-- axioms end -->'
    i, j = s.index(a) + len(a), s.index(b)
    open(p, 'w').write(s[:i] + text + s[j:])
else:
    print(text)
