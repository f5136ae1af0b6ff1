#!/usr/bin/env python3
"""Writes lean/Verif/Lemmas/LinkVectors.lean and SelectVectors.lean: guests linked with compiler/linker-script/default.x by a
real lld, for the models in lean/Verif/Model/{Link,Segments,Select}.lean to reproduce.

usage: gen_link_vectors.py LD_LLD REPO [COUNT]

The objects are made here (32-bit RISC-V, sections of the names, sizes and alignments drawn, relocations where one section is
to refer to another), since no compiler for the target is needed for the layout.  With COUNT nothing is written: that many
guests are drawn and compared with the same computation in Python, which is how the models were found to agree (3000 guests
each)."""
import os
import random
import struct
import subprocess
import sys
import tempfile

LD, REPO = sys.argv[1], sys.argv[2]
PROGBITS, NOBITS = 1, 8
WRITE, ALLOC, EXEC = 1, 2, 4
PARTS = ['init', 'rust', 'text', 'inp', 'out', 'rodata', 'data', 'bss']
NAME = {'init': '.init', 'rust': '.init.rust', 'text': '.text.%d', 'inp': '.inpdata', 'out': '.outdata',
        'rodata': '.rodata.%d', 'data': '.data.%d', 'bss': '.bss.%d'}


def obj(path, sections, symbols, rela={}):
    """sections: (name, type, flags, align, bytes or size); symbols: (name, section or -1 for undefined[, value]); rela:
    relocations (offset, type, symbol) by section."""
    names = [''] + [s[0] for s in sections] + ['.symtab', '.strtab', '.shstrtab'] + ['.rela' + sections[i][0] for i in rela]
    shstr, offs = b'', []
    for n in names:
        offs.append(len(shstr))
        shstr += n.encode() + b'\0'
    strtab, syms = b'\0', [struct.pack('<IIIBBH', 0, 0, 0, 0, 0, 0)]
    for n, si, *v in symbols:
        o = len(strtab)
        strtab += n.encode() + b'\0'
        syms.append(struct.pack('<IIIBBH', o, v[0] if v else 0, 0, 1 << 4, 0, si + 1))
    body, sh = b'', [bytes(40)]

    def put(b, al):
        nonlocal body
        body += bytes(-(52 + len(body)) % al)
        o = 52 + len(body)
        body += b
        return o
    for i, (n, t, f, a, d) in enumerate(sections):
        if t == NOBITS:
            o, size = put(b'', 4), d
        else:
            data = d if isinstance(d, bytes) else bytes((7 * k + i + 1) & 255 for k in range(d))
            o, size = put(data, a), len(data)
        sh.append(struct.pack('<10I', offs[i + 1], t, f, 0, o, size, 0, 0, a, 0))
    k = len(sections)
    st = b''.join(syms)
    sh.append(struct.pack('<10I', offs[k + 1], 2, 0, 0, put(st, 4), len(st), k + 2, 1, 4, 16))
    sh.append(struct.pack('<10I', offs[k + 2], 3, 0, 0, put(strtab, 1), len(strtab), 0, 0, 1, 0))
    sh.append(struct.pack('<10I', offs[k + 3], 3, 0, 0, put(shstr, 1), len(shstr), 0, 0, 1, 0))
    num = len(sh)
    index = {n: i + 1 for i, (n, *_) in enumerate(symbols)}
    for j, (i, rs) in enumerate(rela.items()):
        d = b''.join(struct.pack('<IIi', o, index.get(n, 0) << 8 | t, 0) for o, t, n in rs)
        sh.append(struct.pack('<10I', offs[k + 4 + j], 4, 0x40, 0, put(d, 4), len(d), k + 1, i + 1, 4, 12))
    shoff = put(b''.join(sh), 4)
    eh = b'\x7fELF' + bytes([1, 1, 1, 0]) + bytes(8) + struct.pack(
        '<HHIIIIIHHHHHH', 1, 243, 1, 0, 0, shoff, 0, 52, 0, 0, 40, len(sh), num - 1)
    with open(path, 'wb') as f:
        f.write(eh + body)


def read(b):
    (_, _, _, _, phoff, shoff, _, _, _, phn, _, shn, shs) = struct.unpack('<HHIIIIIHHHHHH', b[16:52])
    ph = [struct.unpack('<8I', b[phoff + 32 * i:phoff + 32 * i + 32]) for i in range(phn)]
    sh = [struct.unpack('<10I', b[shoff + 40 * i:shoff + 40 * i + 40]) for i in range(shn)]
    so = sh[shs][4]
    secs = {b[so + s[0]:b.index(b'\0', so + s[0])].decode(): s for s in sh}
    syms = {}
    s = secs['.symtab']
    stro = sh[s[6]][4]
    for i in range(s[5] // 16):
        n, val = struct.unpack('<II', b[s[4] + 16 * i:s[4] + 16 * i + 8])
        syms[b[stro + n:b.index(b'\0', stro + n)].decode()] = val
    return ph, {n: (s[3], s[5]) for n, s in secs.items()}, syms


def lld(sections, symbols=(), rela={}, start=0, gc=False):
    with tempfile.TemporaryDirectory() as d:
        obj(d + '/a.o', sections, [('_start', start), ('__global_pointer$', -1)] + list(symbols), rela)
        r = subprocess.run([LD, d + '/a.o', '-o', d + '/a.elf', '-T' + REPO + '/compiler/linker-script/default.x',
                            '--eh-frame-hdr', '-znoexecstack', '--gc-sections' if gc else '--no-gc-sections', '-O1', '--strip-debug'],
                           capture_output=True, text=True)
        if r.returncode:
            assert any(x in r.stderr for x in ('will not fit in region', '.got section detected',
                                               'refers to a symbol in a discarded section')), r.stderr
            return None
        with open(d + '/a.elf', 'rb') as f:
            return f.read()


def sections_of(g):
    out = []
    for k in PARTS:
        for i, (s, a, w) in enumerate(g[k]):
            n = NAME[k] % i if '%' in NAME[k] else NAME[k]
            out.append((n, NOBITS if k == 'bss' else PROGBITS,
                        ALLOC | (EXEC if k in ('init', 'rust', 'text') else 0) | (WRITE if w else 0), a, s))
    if g.get('got'):
        out.append(('.got', PROGBITS, ALLOC | WRITE, 4, g['got']))
    return out


def draw(r, zero):
    lo = 0 if zero else 1

    def ps(n, w, most=60, least=0):
        return [(r.randint(lo, most), 2 ** r.choice([0, 0, 0, 1, 2, 2, 2, 3, 4, 5]), w) for _ in range(r.randint(least, n))]
    big = r.choice([60, 60, 60, 1500])
    return {'init': ps(2, False, 40, 1), 'rust': ps(1, False), 'text': ps(4, False, r.choice([300, 300, 100000])),
            'inp': ps(2, r.random() < .8, big), 'out': ps(2, r.random() < .8, big), 'rodata': ps(3, False, big),
            'data': ps(3, True, big), 'bss': ps(3, True, big)}


# ---- the same computation as in the Lean models, for the comparison with many guests

def up(d, a):
    return (d + a - 1) // a * a


def fill(d, ps):
    for (s, a, _) in ps:
        d = up(d, a) + s
    return d


def sect(d, ps, end=1):
    a = up(d, max([4] + [p[1] for p in ps]))
    return a, up(fill(a, ps), end) - a


def model(g):
    d = up(fill(0, g['init']), 4)
    text = (0, up(fill(fill(d, g['rust']), g['text']), 4))
    inp = sect(0x40000, g['inp'])
    out = sect(sum(inp), g['out'])
    ro = sect(sum(out), g['rodata'], 4)
    da = sect(sum(ro), g['data'])
    bs = sect(sum(da), g['bss'])
    if sum(text) > 0x40000 or sum(bs) > 0x41000:
        return None
    secs, prev = [], False
    for n, se in (('inp', inp), ('out', out), ('rodata', ro), ('data', da)):
        if g[n]:
            prev = any(x[2] for x in g[n])
        elif n in ('inp', 'out'):
            continue
        secs.append((se[0], se[1], prev, False))
    secs.append((bs[0], bs[1], True, True))
    groups = []
    for s in secs:
        if groups and groups[-1][0][2:] == s[2:]:
            groups[-1].append(s)
        else:
            groups.append([s])
    off = 0x1000 + text[1]
    res = [(1, 0x1000, 0, 0, text[1], text[1], 5)] if text[1] else []
    for gr in groups:
        mem = gr[-1][0] + gr[-1][1] - gr[0][0]
        if mem:
            o = off + (gr[0][0] - off) % 0x1000
            fs = 0 if gr[0][3] else mem
            off = o + fs
            res.append((1, o, gr[0][0], gr[0][0], fs, mem, 6 if gr[0][2] else 4))
    return [text, inp, out, ro, da, bs], da[0] + 0x800, sum(bs), res + [(0x6474e551, 0, 0, 0, 0, 0, 6)]


def compare(count):
    r, bad = random.Random(count), 0
    for _ in range(count):
        g = draw(r, r.random() < .3)
        m, b = model(g), lld(sections_of(g))
        if m is None or b is None:
            ok = m is None and b is None
        else:
            ph, secs, syms = read(b)
            names = ['.text', '.inpdata', '.outdata', '.rodata', '.data', '.bss']
            ok = all(secs.get(n) == s for n, s in zip(names, m[0]) if n in secs) and \
                ('.inpdata' in secs) == bool(g['inp']) and ('.outdata' in secs) == bool(g['out']) and \
                (syms['__global_pointer$'], syms['_end'], syms['_stack_start']) == (m[1], m[2], 0x41000) and \
                [p[:7] for p in ph] == m[3]
        if not ok:
            bad += 1
            print('differs', g)
    print(count, 'guests,', bad, 'differ')


# ---- sections by name, the collector

KNOWN = ['.init', '.init.rust', '.text', '.text.a', '.text.unlikely.b', '.text.c.d', '.inpdata', '.outdata', '.srodata',
         '.srodata.x', '.rodata', '.rodata.cst', '.rodata..L', '.sdata', '.sdata.q', '.sdata2', '.sdata2.z', '.data',
         '.data.rel.ro', '.data.v', '.sbss', '.sbss.1', '.bss', '.bss.w']
OTHER = ['.comment.a', '.debug.x', '.eh_frame.z', '.riscv.attributes.b', '.scratch']
RULES = [('init', 1, ['.init'], []), ('rust', 1, ['.init.rust'], []), ('text', 0, ['.text'], ['.text.']),
         ('inp', 1, ['.inpdata'], []), ('out', 1, ['.outdata'], []), ('srodata', 0, ['.srodata'], ['.srodata.']),
         ('rodata', 0, ['.rodata'], ['.rodata.']), ('sdata', 0, ['.sdata', '.sdata2'], ['.sdata.', '.sdata2.']),
         ('data', 0, ['.data'], ['.data.']), ('bss', 0, ['.sbss', '.bss'], ['.sbss.', '.bss.']),
         ('got', 1, ['.got'], ['.got.']),
         ('discard', 0, ['.comment', '.debug', '.eh_frame', '.riscv.attributes'],
          ['.comment.', '.debug.', '.eh_frame.', '.riscv.attributes.'])]


def draw_named(r):
    """(name, type, flags, alignment, size, sections referred to), and the section with the entry symbol"""
    n = r.randint(3, 14)
    pool = KNOWN + OTHER if r.random() < .3 else KNOWN
    names = ['.init'] + [r.choice(pool) for _ in range(n)]
    r.shuffle(names)
    out = []
    for nm in names:
        nobits = nm.startswith(('.bss', '.sbss', '.scratch'))
        refs = [] if nobits else [r.randrange(n + 1) for _ in range(r.choice([0, 0, 1, 1, 2, 3]))]
        flags = ALLOC | (EXEC if nm.startswith(('.init', '.text')) else 0) | (
            WRITE if nm.startswith(('.inp', '.out', '.sd', '.data', '.bss', '.sbss', '.scratch')) else 0)
        out.append((nm, NOBITS if nobits else PROGBITS, flags, 2 ** r.choice([0, 1, 2, 2, 3, 4]),
                    max(4 * len(refs), r.randint(0, 40)), refs))
    start = names.index('.init') if r.random() < .7 else r.choice([i for i in range(n + 1) if names[i] not in OTHER])
    return out, start


def lld_named(secs, start, gc):
    """Addresses of the sections that are in the program, and `_end`."""
    rela = {i: [(4 * j, 1, 's%d' % t) for j, t in enumerate(s[5])] for i, s in enumerate(secs) if s[5]}
    b = lld([s[:5] for s in secs], [('s%d' % i, i) for i in range(len(secs))], rela, start, gc)
    if b is None:
        return None
    syms = read(b)[2]
    return {i: syms['s%d' % i] for i in range(len(secs)) if 's%d' % i in syms}, syms['_end']


def model_named(secs, start, gc):
    rs = [next((x for x in RULES if s[0] in x[2] or any(s[0].startswith(p) for p in x[3])), (None, 0)) for s in secs]
    live = set(range(len(secs)))
    if gc:
        q, live = [i for i in range(len(secs)) if rs[i][1] or i == start], set()
        while q:
            i = q.pop()
            if i not in live:
                live.add(i)
                q += secs[i][5]
    if any(rs[i][0] != 'discard' and rs[j][0] == 'discard' for i in live for j in secs[i][5]):
        return None
    by = {n: [i for i in range(len(secs)) if i in live and rs[i][0] == n] for n in [x[0] for x in RULES] + [None]}
    addr = {}

    def place(d, *names):
        for i in [i for n in names for i in by[n]]:
            addr[i] = d = up(d, secs[i][3])
            d += secs[i][4]
        return d

    def out(d, *names, least=4):
        return place(up(d, max([least] + [secs[i][3] for n in names for i in by[n]])), *names)
    place(place(up(place(0, 'init'), 4), 'rust'), 'text')
    end = out(out(up(out(out(out(0x40000, 'inp'), 'out'), 'srodata', 'rodata'), 4), 'sdata', 'data'), 'bss')
    out(end, None, least=1)
    return addr, end


def compare_named(count):
    r, bad = random.Random(count), 0
    for _ in range(count):
        (s, e), gc = draw_named(r), r.random() < .7
        if model_named(s, e, gc) != lld_named(s, e, gc):
            bad += 1
            print('differs', gc, e, s)
    print(count, 'guests by name,', bad, 'differ')


def select_file():
    r = random.Random(84)
    good, bad, orph = [], [], []

    def named(s, e):
        return '[' + ', '.join('⟨"%s", ⟨%d, %d⟩, %s, %s⟩' % (n, z, a, refs, 'true' if i == e else 'false')
                               for i, (n, _, _, a, z, refs) in enumerate(s)) + ']'
    while len(good) < 40 or len(bad) < 8 or len(orph) < 6:
        (s, e), gc = draw_named(r), r.random() < .7
        b, flag = lld_named(s, e, gc), 'true' if gc else 'false'
        if b is None:
            if len(bad) < 8:
                bad.append('(%s, %s)' % (flag, named(s, e)))
            continue
        o = [i for i in b[0] if s[i][0] == '.scratch']
        row = '(%s, %s,\n   [%s], 0x%x' % (flag, named(s, e), ', '.join('(%d, 0x%x)' % x for x in sorted(b[0].items()) if x[0] not in o),
                                           b[1])
        if o and len(orph) < 6:
            orph.append(row + ', [%s])' % ', '.join('(%d, 0x%x)' % (i, b[0][i]) for i in o))
        elif not o and len(good) < 40:
            good.append(row + ')')
    return '''import Verif.Model.Select
/-
  Written by tools/gen_link_vectors.py: sections with names and references, linked with
  compiler/linker-script/default.x by lld 22.1.4.
-/
namespace Verif
open Model Model.Link

/-- Whether unused sections are collected; the input sections; the addresses of those in the program; `_end`. -/
def selectVectors : List (Bool × List InSec × List (Nat × Nat) × Nat) := [
  ''' + ',\n  '.join(good) + '''
]

/-- Inputs lld refuses. -/
def selectErrors : List (Bool × List InSec) := [
  ''' + ',\n  '.join(bad) + '''
]

/-- The same with sections of a name the script does not know, which are listed separately. -/
def orphanVectors : List (Bool × List InSec × List (Nat × Nat) × Nat × List (Nat × Nat)) := [
  ''' + ',\n  '.join(orph) + '''
]

/-- The model gives these addresses and no others. -/
def agrees (gc : Bool) (is : List InSec) (as : List (Nat × Nat)) (fin : Nat) : Bool :=
  (placements gc is).any fun (l, pl) =>
    decide (l.fin = fin ∧ pl.length = as.length) && (pl.all fun x => decide (x ∈ as)) && as.all fun x => decide (x ∈ pl)

theorem selectVectors_ok : selectVectors.all (fun v => agrees v.1 v.2.1 v.2.2.1 v.2.2.2) = true := by decide +kernel

theorem selectErrors_ok : selectErrors.all (fun v => (select v.1 v.2).isNone) = true := by decide +kernel

theorem orphanVectors_ok : orphanVectors.all (fun v => agrees v.1 v.2.1 v.2.2.1 v.2.2.2.1 &&
    (placements v.1 v.2.1).any fun (l, _) =>
      decide ((orphans v.1 v.2.1).zip (orphanAddrs l ((orphans v.1 v.2.1).filterMap fun k => v.2.1[k]?.map (·.piece))) =
        v.2.2.2.2)) = true := by decide +kernel

end Verif
'''


# ---- symbols

SYMS = ['main', 'a', 'b', 'c', 'd', 'e', 'f', '_start', '_start_rust', 'OUT']


def draw_symbols(r):
    """Objects, each a list of (name, type, flags, alignment, size, symbols defined, symbols referred to)."""
    objs, free, again = [], r.sample(SYMS, len(SYMS)), r.random() < .1
    for _ in range(r.randint(1, 3)):
        o, free = [], r.sample(SYMS, len(SYMS)) if again else free
        for _ in range(r.randint(1, 5)):
            nm = r.choice(['.init', '.init.rust', '.text.f', '.text.g', '.text', '.inpdata', '.rodata.x', '.data.y', '.bss.z', '.comment.q'])
            nobits = nm.startswith('.bss')
            refs = [] if nobits else [r.choice(SYMS + ['_end', '_stack_start', '__global_pointer$', 'nowhere'])
                                      for _ in range(r.choice([0, 0, 1, 1, 2]))]
            if nm == '.comment.q' and r.random() < .5:
                refs = ['nowhere']
            flags = ALLOC | (EXEC if nm.startswith(('.init', '.text')) else 0) | (
                WRITE if nm.startswith(('.inp', '.data', '.bss')) else 0)
            defs = [free.pop() for _ in range(r.choice([0, 1, 1, 2])) if free] if nm != '.comment.q' else []
            o.append((nm, NOBITS if nobits else PROGBITS, flags, 2 ** r.choice([0, 1, 2, 2, 3]), max(4 * len(refs), r.randint(0, 40)),
                      defs, refs))
        objs.append(o)
    return objs


def lld_symbols(objs, gc):
    """Addresses of the sections that are in the program, and `_end`."""
    with tempfile.TemporaryDirectory() as d:
        files, k = [], 0
        for j, o in enumerate(objs):
            syms = [('s%d' % (k + i), i) for i in range(len(o))] + [(n, i) for i, s in enumerate(o) for n in s[5]]
            have = {n for n, _ in syms}
            syms += [(n, -1) for n in sorted({n for s in o for n in s[6]} - have)]
            obj(d + '/%d.o' % j, [s[:5] for s in o], syms,
                {i: [(4 * x, 1, n) for x, n in enumerate(s[6])] for i, s in enumerate(o) if s[6]})
            files.append(d + '/%d.o' % j)
            k += len(o)
        r = subprocess.run([LD] + files + ['-o', d + '/a.elf', '-T' + REPO + '/compiler/linker-script/default.x', '--eh-frame-hdr',
                            '-znoexecstack', '--gc-sections' if gc else '--no-gc-sections', '-O1', '--strip-debug'],
                           capture_output=True, text=True)
        if r.returncode:
            assert any(x in r.stderr for x in ('undefined symbol', 'duplicate symbol')), r.stderr
            return None
        with open(d + '/a.elf', 'rb') as f:
            syms = read(f.read())[2]
        return {i: syms['s%d' % i] for i in range(k) if 's%d' % i in syms}, syms['_end']


def model_symbols(objs, gc):
    secs = [s for o in objs for s in o]
    defs = [n for s in secs for n in s[5]]
    if len(set(defs)) < len(defs):
        return None
    where = {n: i for i, s in enumerate(secs) for n in s[5]}
    num = [s[:5] + ([where[n] for n in s[6] if n in where],) for s in secs]
    live = set(range(len(secs)))
    if gc:
        q, live = [i for i, s in enumerate(secs) if s[0] in ('.init', '.init.rust', '.inpdata') or '_start' in s[5]], set()
        while q:
            i = q.pop()
            if i not in live:
                live.add(i)
                q += num[i][5]
    if any(n not in where and n not in ('_end', '_stack_start', '__global_pointer$') for i in live
           if secs[i][0] != '.comment.q' for n in secs[i][6]):
        return None
    return model_named(num, where.get('_start'), gc)


def compare_symbols(count):
    r, bad, none = random.Random(count), 0, 0
    for _ in range(count):
        o, gc = draw_symbols(r), r.random() < .8
        a, b = model_symbols(o, gc), lld_symbols(o, gc)
        none += b is None
        if a != b:
            bad += 1
            print('differs', gc, o, a, b)
    print(count, 'guests with symbols,', none, 'refused,', bad, 'differ')


def symbol_file():
    r = random.Random(85)
    good, bad = [], []

    def strs(ns):
        return '[' + ', '.join('"%s"' % n for n in ns) + ']'

    def shown(o):
        return '[' + ', '.join('⟨"%s", ⟨%d, %d⟩, %s, %s⟩' % (n, z, a, strs(ds), strs(rs)) for s in o for n, _, _, a, z, ds, rs in s) + ']'
    while len(good) < 30 or len(bad) < 20:
        o, gc = draw_symbols(r), r.random() < .8
        b, flag = lld_symbols(o, gc), 'true' if gc else 'false'
        if b is None:
            if len(bad) < 20:
                bad.append('(%s, %s)' % (flag, shown(o)))
        elif len(good) < 30:
            good.append('(%s, %s,\n   [%s], 0x%x)' % (flag, shown(o), ', '.join('(%d, 0x%x)' % x for x in sorted(b[0].items())), b[1]))
    return '''import Verif.Model.Symbols
import Verif.Lemmas.SelectVectors
/-
  Written by tools/gen_link_vectors.py: object files with symbols, linked with
  compiler/linker-script/default.x by lld 22.1.4.
-/
namespace Verif
open Model Model.Link

/-- Whether unused sections are collected; the input sections; the addresses of those in the program; `_end`. -/
def symbolVectors : List (Bool × List SymSec × List (Nat × Nat) × Nat) := [
  ''' + ',\n  '.join(good) + '''
]

/-- Inputs lld refuses, because of a symbol that is missing or defined twice. -/
def symbolErrors : List (Bool × List SymSec) := [
  ''' + ',\n  '.join(bad) + '''
]

theorem symbolVectors_ok : symbolVectors.all (fun v => (resolve v.1 v.2.1).any fun js => agrees v.1 js v.2.2.1 v.2.2.2) = true := by
  decide +kernel

theorem symbolErrors_ok : symbolErrors.all (fun v => (resolve v.1 v.2).isNone) = true := by decide +kernel

end Verif
'''


# ---- the Lean files

def pieces(ps):
    return '[' + ', '.join('⟨%d, %d⟩' % (s, a) for s, a, _ in ps) + ']'


def guest(g):
    got = '[⟨%d, 4⟩]' % g['got'] if g.get('got') else '[]'
    return '⟨' + ', '.join(pieces(g[k]) for k in PARTS) + ', ' + got + '⟩'


def kind(ps):
    return 'none' if not ps else 'some ' + ('true' if any(p[2] for p in ps) else 'false')


def phdr(p):
    return '⟨0x%x, %d, 0x%x, 0x%x, %d, %d⟩' % (p[0], p[6], p[1], p[2], p[4], p[5])


def rle(b):
    """Bytes, long runs of zeros as `List.replicate`."""
    out, i, cur = [], 0, []
    while i < len(b):
        j = i
        while j < len(b) and b[j] == 0:
            j += 1
        if j - i >= 24:
            if cur:
                out.append(cur)
                cur = []
            out.append(j - i)
            i = j
        else:
            cur.append(b[i])
            i += 1
    if cur:
        out.append(cur)
    parts = []
    for x in out:
        if isinstance(x, int):
            parts.append('List.replicate %d 0#8' % x)
        else:
            lines = [', '.join(str(v) for v in x[i:i + 32]) for i in range(0, len(x), 32)]
            parts.append('[' + ',\n   '.join(lines) + ']')
    return ' ++ (\n  '.join(parts) + ')' * (len(parts) - 1)


CODE = [0x00040137, 0x00012083, 0x00812183, 0x00C12203, 0x003080B3, 0x004080B3, 0x00112223, 0x0000006F]


def R4(r):
    return 4 * r.randint(1, 20)


# runtime/src/lib.rs:24-38 as an assembler leaves it: `la` is AUIPC/ADDI with relocations, the second one may be relaxed
BOOT = [0x00000197, 0x00018193, 0x00000117, 0x00010113, 0x00010413, 0x00a05063, 0xc0001073, 0x000000ef, 0xc0001073]
PCREL_HI20, PCREL_LO12_I, RELAX, BRANCH, JAL = 23, 24, 51, 16, 17


def boot(g):
    """The words of `_start` after linking."""
    code = b''.join(struct.pack('<I', w) for w in BOOT)
    secs = [('.init', PROGBITS, ALLOC | EXEC, 4, code)]
    secs += [x for x in sections_of(g) if x[0] != '.init']
    rust = [i for i, x in enumerate(secs) if x[0] == '.init.rust'][0]
    b = lld(secs, [('_stack_start', -1), ('_start_rust', rust), ('run', 0, 28), ('a', 0, 0), ('b', 0, 8)],
            {0: [(0, PCREL_HI20, '__global_pointer$'), (4, PCREL_LO12_I, 'a'), (8, PCREL_HI20, '_stack_start'), (8, RELAX, ''),
                 (12, PCREL_LO12_I, 'b'), (12, RELAX, ''), (20, BRANCH, 'run'), (28, JAL, '_start_rust')]})
    return None if b is None else struct.unpack('<9I', b[0x1000:0x1024])


def main():
    r = random.Random(82)
    good, bad = [], []
    while len(good) < 40 or len(bad) < 8:
        g = draw(r, r.random() < .3)
        b = lld(sections_of(g))
        if b is None:
            if len(bad) < 8:
                bad.append(g)
            continue
        if len(good) >= 40:
            continue
        ph, secs, syms = read(b)
        present = lambda n: 'some ⟨0x%x, %d⟩' % secs[n] if n in secs else 'none'
        good.append('(%s,\n   ⟨%s⟩,\n   [%s],\n   0x%x, 0x%x, 0x%x,\n   [%s])' % (
            guest(g), ', '.join(kind(g[k]) for k in ('inp', 'out', 'rodata', 'data')),
            ', '.join(present(n) for n in ['.text', '.inpdata', '.outdata', '.rodata', '.data', '.bss']),
            syms['_stack_start'], syms['__global_pointer$'], syms['_end'], ', '.join(phdr(p) for p in ph)))
    g = draw(r, False)
    while lld(sections_of(g)) is None:
        g = draw(r, False)
    g['got'] = 4
    assert lld(sections_of(g)) is None
    bad.append(g)
    boots = []
    while len(boots) < 12:
        g = draw(r, False)
        g['init'], g['rust'] = [(36, 4, False)], [(R4(r), 2 ** r.randrange(2, 5), False)]
        w = boot(g)
        if w:
            boots.append('(%s,\n   [%s])' % (guest(g), ', '.join('0x%08x#32' % x for x in w)))
    code = b''.join(struct.pack('<I', w) for w in CODE)
    elf = lld([('.init', PROGBITS, ALLOC | EXEC, 4, code), ('.inpdata', PROGBITS, ALLOC | WRITE, 4, bytes(4)),
               ('.outdata', PROGBITS, ALLOC | WRITE, 4, bytes(4)), ('.rodata', PROGBITS, ALLOC, 4, bytes([5, 0, 0, 0])),
               ('.data', PROGBITS, ALLOC | WRITE, 4, bytes([7, 0, 0, 0])), ('.bss', NOBITS, ALLOC | WRITE, 4, 8)])
    out = '''import Verif.Model.Segments
import Verif.Model.Boot
/-
  Written by tools/gen_link_vectors.py: guests linked with compiler/linker-script/default.x by lld 22.1.4.
-/
namespace Verif
open Model Model.Link

/-- Input sections; which are writable; address and size of .text, .inpdata, .outdata, .rodata, .data, .bss, if present;
_stack_start, __global_pointer$, _end; the segment table. -/
def linkVectors : List (Guest × Kinds × List (Option Sect) × Nat × Nat × Nat × List Phdr) := [
  ''' + ',\n  '.join(good) + '''
]

/-- Guests lld refuses. -/
def linkErrors : List Guest := [
  ''' + ',\n  '.join(guest(g) for g in bad) + '''
]

/-- The layout of the model as the vectors list it: a tape without input sections has no section. -/
def listed (k : Kinds) (l : Layout) : List (Option Sect) :=
  [some l.text, k.inp.map fun _ => l.inp, k.out.map fun _ => l.out, some l.rodata, some l.data, some l.bss]

theorem linkVectors_ok : linkVectors.all (fun v => (link v.1).any fun l =>
    decide ((listed v.2.1 l, l.stackStart, l.gp, l.fin, segments l v.2.1) = v.2.2)) = true := by decide +kernel

theorem linkErrors_ok : linkErrors.all (fun g => (link g).isNone) = true := by decide +kernel

/-- Input sections, the first one `_start`; the words of `_start` after linking (with relaxation allowed). -/
def bootVectors : List (Guest × List (BitVec 32)) := [
  ''' + ',\n  '.join(boots) + '''
]

theorem bootVectors_ok : bootVectors.all (fun v => (link v.1).any fun l => v.1.initRust.head?.any fun p =>
    decide (Boot.bootWords (BitVec.ofNat 32 l.gp) (BitVec.ofNat 32 l.stackStart) (BitVec.ofNat 32 (alignUp 36 p.align)) = v.2)) =
      true := by decide +kernel

/-- A file lld wrote: the code `lui x2,0x40; lw x1,0(x2); lw x3,8(x2); lw x4,12(x2); add x1,x1,x3; add x1,x1,x4; sw x1,4(x2);
jal x0,0`, tapes of four bytes, a constant 5, a variable 7 and eight bytes of `.bss`. -/
def lldFile : List (BitVec 8) :=
  ''' + rle(elf) + '''

end Verif
'''
    for name, text in (('LinkVectors', out), ('SelectVectors', select_file()), ('SymbolVectors', symbol_file())):
        with open(os.path.join(os.path.dirname(__file__), '..', 'lean', 'Verif', 'Lemmas', name + '.lean'), 'w') as f:
            f.write(text)


if len(sys.argv) > 3:
    compare(int(sys.argv[3]))
    compare_named(int(sys.argv[3]))
    compare_symbols(int(sys.argv[3]))
else:
    main()
