#!/usr/bin/env python3
"""Check the citations in the Lean files: citations.py REPO

Every citation `path:lines` must name a file of the repository and lines inside it.  When it directly follows a name in
backquotes, as in "`read_byte`, testvm.rs:48-50", then
- the last identifier of that name must occur in these lines, or they must lie inside a function or item of that name;
- if the lines contain the head of a function of that name, they must begin there or at its attributes, and end
  inside the function or on its last line."""
import os
import re
import sys

repo = sys.argv[1]
files = []
for d, _, fs in os.walk(repo):
    for f in fs:
        files.append(os.path.relpath(os.path.join(d, f), repo))

CITE = re.compile(r'(?:`([^`]*)`(?:\s*\([^)]*\))?,\s+)?([\w./-]+\.(?:rs|x|toml|md|py)):(\d+(?:-\d+)?(?:,\s*\d+(?:-\d+)?)*)')


def resolve(path, context):
    c = [f for f in files if f == path or f.endswith('/' + path)]
    if len(c) > 1:
        d = [f for f in c if any(w in f for w in context)]
        c = d or c
    return c


def items(src, ident):
    """Heads of functions and types called `ident`: (kind, first line with attributes, head, last line)."""
    for i, line in enumerate(src):
        m = re.match(r'(\s*)(?:pub(?:\([a-z]+\))?\s+)?(?:unsafe\s+)?(?:extern "C"\s+)?(?:const\s+)?(fn|struct|enum|impl)\b(.*)', line)
        if not m or not re.match(r'.*?\b%s\b' % re.escape(ident), m.group(3) if m.group(2) == 'impl' else
                                 re.match(r'\s*\w*', m.group(3)).group(0)):
            continue
        j = i
        while j < len(src) and not (src[j].startswith(m.group(1) + '}') and not src[j].startswith(m.group(1) + '})')):
            j += 1
        k = i
        while k > 0 and re.match(r'\s*(#\[|///)', src[k - 1]):
            k -= 1
        yield m.group(2), k + 1, i + 1, j + 1


def named_ok(src, ident, ranges):
    a, b = ranges[0]
    its = list(items(src, ident))
    for kind, first, head, last in its:
        if kind == 'fn' and first <= a <= head and b <= last:
            return True
    if any(kind == 'fn' and a <= head <= b and not (first <= a) for kind, first, head, last in its):
        return False
    if any(first <= a and b <= last for kind, first, head, last in its):
        return True
    return any(ident in '\n'.join(src[x - 1:y]) for x, y in ranges) and not any(
        kind == 'fn' and a <= head <= b for kind, first, head, last in its)


bad = total = named = 0
here = os.path.join(os.path.dirname(os.path.abspath(__file__)), '..', 'lean', 'Verif')
for d, _, fs in os.walk(here):
    for f in sorted(fs):
        text = open(os.path.join(d, f)).read()
        full = [m for m in re.findall(r'[\w./-]+/[\w.-]+\.(?:rs|x)', text)]
        for m in CITE.finditer(text):
            total += 1
            name, path, lines = m.groups()
            cands = resolve(path, [p for p in full if p.endswith('/' + path)])
            where = '%s:%d' % (f, text[:m.start()].count('\n') + 1)
            if not cands:
                bad += 1
                print(where, 'no such file', path)
                continue
            ranges = [tuple(int(x) for x in (r.split('-') * 2)[:2]) for r in re.split(r',\s*', lines)]
            ok_range = ok_name = False
            ident = re.findall(r'\w+', name)[-1] if name and re.findall(r'\w+', name) else None
            if ident == 'id':
                ident = re.findall(r'\w+', name)[0]
            for c in cands:
                src = open(os.path.join(repo, c), errors='replace').read().split('\n')
                if all(1 <= a <= b <= len(src) for a, b in ranges):
                    ok_range = True
                    if ident is None or named_ok(src, ident, ranges):
                        ok_name = True
            named += ident is not None
            if not ok_range:
                bad += 1
                print(where, 'lines outside the file:', path, lines)
            elif not ok_name:
                bad += 1
                print(where, '`%s` not in' % name, path, lines)
print(total, 'citations,', named, 'with a name,', bad, 'to look at')
