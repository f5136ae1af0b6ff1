#!/usr/bin/env python3
"""Writes lean/Verif/Lemmas/ObjectVectors.lean: object files with relocations of all kinds the model knows, linked with
compiler/linker-script/default.x by a real lld, for lean/Verif/Model/Reloc.lean to reproduce byte by byte.

usage: gen_object_vectors.py LD_LLD REPO [GOOD BAD SEED FILE]

With the further arguments that many programs and refused programs are written to FILE (with `#guard` in the place of theorems),
which is how the model was found to agree on many more."""
import os
import random
import struct
import subprocess
import sys
import tempfile

LD, REPO = sys.argv[1], sys.argv[2]
PROGBITS, NOBITS = 1, 8
WRITE, ALLOC, EXEC = 1, 2, 4
TYPES = {'abs32': 1, 'branch': 16, 'jal': 17, 'call': 19, 'pcrelHi': 23, 'pcrelLoI': 24, 'pcrelLoS': 25, 'hi': 26, 'loI': 27, 'loS': 28}
SCRIPT = ['_stack_start', '__global_pointer$', '_end']
REFUSED = ('undefined symbol', 'refers to a symbol in a discarded section', 'out of range', 'improper alignment',
           'without an associated R_RISCV_PCREL_HI20', 'will not fit in region')


def obj(path, secs):
    """secs: (name, align, bytes, {symbol: offset}, [(offset, kind, target, addend)]); a target is a name or an offset."""
    syms, index = [], {}

    def sym(n, si, v):
        index[n] = len(syms) + 1
        syms.append((n, si, v))
    for i, (_, _, _, defs, _) in enumerate(secs):
        sym('.sec%d' % i, i, 0)
        for n, o in defs.items():
            sym(n, i, o)
    for i, (_, _, _, _, rels) in enumerate(secs):
        for (_, _, t, _) in rels:
            n = t if isinstance(t, str) else '.L%d.%d' % (i, t)
            if n not in index:
                sym(n, -1 if isinstance(t, str) else i, 0 if isinstance(t, str) else t)
    names, shstr = {}, b'\0'
    for n in [s[0] for s in secs] + ['.symtab', '.strtab', '.shstrtab'] + ['.rela' + s[0] for s in secs]:
        if n not in names:
            names[n] = len(shstr)
            shstr += n.encode() + b'\0'
    strtab, table = b'\0', bytes(16)
    for n, si, v in syms:
        table += struct.pack('<IIIBBH', len(strtab), v, 0, 1 << 4, 0, si + 1)
        strtab += n.encode() + b'\0'
    body, sh = b'', [bytes(40)]

    def put(b, al):
        nonlocal body
        body += bytes(-(52 + len(body)) % al)
        o = 52 + len(body)
        body += b
        return o
    for n, a, d, _, _ in secs:
        flags = ALLOC | (EXEC if n.startswith(('.init', '.text')) else 0) | (
            WRITE if n.startswith(('.inp', '.out', '.data', '.sdata', '.bss')) else 0)
        t = NOBITS if n.startswith('.bss') else PROGBITS
        sh.append(struct.pack('<10I', names[n], t, flags, 0, put(b'' if t == NOBITS else d, a), len(d), 0, 0, a, 0))
    k = len(secs)
    sh.append(struct.pack('<10I', names['.symtab'], 2, 0, 0, put(table, 4), len(table), k + 2, 1, 4, 16))
    sh.append(struct.pack('<10I', names['.strtab'], 3, 0, 0, put(strtab, 1), len(strtab), 0, 0, 1, 0))
    sh.append(struct.pack('<10I', names['.shstrtab'], 3, 0, 0, put(shstr, 1), len(shstr), 0, 0, 1, 0))
    for i, s in enumerate(secs):
        if s[4]:
            d = b''.join(struct.pack('<IIi', o, index[t if isinstance(t, str) else '.L%d.%d' % (i, t)] << 8 | TYPES[kd], ad)
                         for o, kd, t, ad in s[4])
            sh.append(struct.pack('<10I', names['.rela' + s[0]], 4, 0x40, 0, put(d, 4), len(d), k + 1, i + 1, 4, 12))
    shoff = put(b''.join(sh), 4)
    with open(path, 'wb') as f:
        f.write(b'\x7fELF' + bytes([1, 1, 1, 0]) + bytes(8) + struct.pack(
            '<HHIIIIIHHHHHH', 1, 243, 1, 0, 0, shoff, 0, 52, 0, 0, 40, len(sh), k + 3) + body)


def link(secs, gc):
    """(section, address, bytes) of the sections in the program; or the error."""
    with tempfile.TemporaryDirectory() as d:
        obj(d + '/a.o', secs)
        r = subprocess.run([LD, d + '/a.o', '-o', d + '/a.elf', '-T' + REPO + '/compiler/linker-script/default.x', '--eh-frame-hdr',
                            '-znoexecstack', '--gc-sections' if gc else '--no-gc-sections', '-O1', '--strip-debug'],
                           capture_output=True, text=True)
        if r.returncode:
            why = [x for x in REFUSED if x in r.stderr]
            assert why, r.stderr
            return why[0]
        with open(d + '/a.elf', 'rb') as f:
            b = f.read()
    shoff, = struct.unpack('<I', b[32:36])
    shn, shs = struct.unpack('<HH', b[48:52])
    sh = [struct.unpack('<10I', b[shoff + 40 * i:shoff + 40 * i + 40]) for i in range(shn)]
    tab = next(s for s in sh if s[1] == 2)
    stro, out = sh[tab[6]][4], []
    for i in range(tab[5] // 16):
        n, val, _, _, _, si = struct.unpack('<IIIBBH', b[tab[4] + 16 * i:tab[4] + 16 * i + 16])
        name = b[stro + n:b.index(b'\0', stro + n)].decode()
        if name.startswith('.sec'):
            j = int(name[4:])
            size = len(secs[j][2])
            s = sh[si]
            data = bytes(size) if s[1] == NOBITS else b[s[4] + val - s[3]:s[4] + val - s[3] + size]
            assert len(data) == size
            out.append((j, val, data))
    return sorted(out)


def draw(r):
    n = r.randint(2, 6)
    names = ['.init'] + [r.choice(['.init.rust', '.text.a', '.text.b', '.text', '.inpdata', '.outdata', '.rodata.c', '.rodata', '.data.d',
                                   '.sdata', '.bss.e'] + ['.comment.f'] * (r.random() < .1)) for _ in range(n)]
    secs, syms = [], []
    rare = r.random() < .35
    for i, nm in enumerate(names):
        size = r.choice([4, 8, 12, 20, 28, 40, 40, 56]) + r.choice([0, 0, 0, 1, 2, 3])
        defs = {'_start': 0} if i == 0 else {}
        for _ in range(r.choice([1, 1, 2])):
            s = 'f%d' % len(syms)
            syms.append(s)
            defs[s] = r.choice([0, 0, 4, 8, r.randrange(size)])
        data = bytes(size) if nm.startswith('.bss') else bytes(r.randrange(256) for _ in range(size))
        secs.append([nm, 2 ** r.choice([0, 1, 2, 2, 2, 3]), data, defs, []])
    near = r.sample(syms, len(syms))
    for nm, _, data, defs, rels in secs:
        if nm.startswith('.bss'):
            continue
        code = nm.startswith(('.init', '.text'))
        o, todo = r.choice([0, 0, 0, 1, 2]), []
        while o + 4 <= len(data):
            kinds = ['branch', 'jal', 'call', 'pcrelHi', 'hi', 'loI', 'loS', 'abs32'] if code else ['abs32', 'abs32', 'hi', 'pcrelHi']
            kd = r.choice(kinds)
            if todo and r.random() < .6:
                rels.append((o, r.choice(['pcrelLoI', 'pcrelLoS']), r.choice(todo), 0))
            elif r.random() < .6:
                if kd == 'call' and o + 8 > len(data):
                    kd = 'jal'
                ts = [s for t in secs for s in t[3] if s in near and t[0].startswith(('.init', '.text'))] if kd == 'branch' and r.random() < .95 else near + SCRIPT
                t = r.choice(ts) if r.random() < .85 else r.randrange(len(data))
                if rare and r.random() < .04:
                    t = 'nowhere'
                ad = r.choice([0, 0, 0, 4, 8, -4, 0x800, 0x7ff, -0x801, 0x12345678, -0x7fffffff, 0x200000]) if kd not in ('branch', 'jal') \
                    else 0 if not rare else r.choice([0, 0, 0, 2, 1, 0x1000, -0x1000, 0x100000, -0x100000])
                if kd in ('branch', 'jal') and not rare and (isinstance(t, int) and t % 2 or t in syms and next(x[3][t] for x in secs if t in x[3]) % 2):
                    t = o
                rels.append((o, kd, t, ad))
                if kd == 'pcrelHi':
                    todo.append(o)
                if kd == 'call':
                    o += 4
            elif rare and r.random() < .1:
                rels.append((o, 'pcrelLoI', r.choice([0, 4]), 0))
            o += 4
        if r.random() < .2:
            r.shuffle(rels)
    return [tuple(s) for s in secs]


def nums(b):
    return '[' + ', '.join(str(x) for x in b) + ']'


def shown(secs):
    def rel(x):
        o, k, t, ad = x
        return '⟨%d, .%s, %s, %s⟩' % (o, k, '.sym "%s"' % t if isinstance(t, str) else '.label %d' % t,
                                      '0x%x' % (ad & 0xffffffff) if ad else '0')
    return '[' + ',\n    '.join('⟨"%s", %d, %s, [%s], [%s]⟩' % (
        n, a, nums(d), ', '.join('("%s", %d)' % x for x in defs.items()), ', '.join(rel(x) for x in rels)) for n, a, d, defs, rels in secs) + ']'


def main(ngood=12, nbad=12, seed=91, path=None):
    r, good, bad, why = random.Random(seed), [], [], {}
    while len(good) < ngood or len(bad) < nbad:
        s, gc = draw(r), r.random() < .5
        b, flag = link(s, gc), 'true' if gc else 'false'
        if isinstance(b, str):
            if len(bad) < nbad and why.get(b, 0) * 4 < nbad:
                why[b] = why.get(b, 0) + 1
                bad.append('(%s, %s)' % (flag, shown(s)))
        elif len(good) < ngood and sum(len(x[4]) for x in s) > 3:
            good.append('(%s, %s,\n   [%s])' % (flag, shown(s), ',\n    '.join('(%d, 0x%x, %s)' % (j, a, nums(d)) for j, a, d in b)))
    print(why)
    text = '''import Verif.Model.Reloc
/-
  Written by tools/gen_object_vectors.py: object files with relocations, linked with compiler/linker-script/default.x by lld 22.1.4.
-/
namespace Verif
open Model Model.Link

/-- Whether unused sections are collected; the sections; address and bytes of those in the program. -/
abbrev ObjectVector := Bool × List ObjSec × List (Nat × Nat × List (BitVec 8))

''' + '\n\n'.join('private def good%d : ObjectVector := %s' % x for x in enumerate(good)) + '''

/-- Programs as lld links them. -/
def objectVectors : List ObjectVector := [''' + ', '.join('good%d' % i for i in range(len(good))) + ''']

''' + '\n\n'.join('private def bad%d : Bool × List ObjSec := %s' % x for x in enumerate(bad)) + '''

/-- Inputs lld refuses: jumps too far or to odd addresses, second halves without a first, symbols missing or discarded. -/
def objectErrors : List (Bool × List ObjSec) := [''' + ', '.join('bad%d' % i for i in range(len(bad))) + ''']

/-- The model gives these addresses and bytes, and no others. -/
def yields (gc : Bool) (objs : List ObjSec) (xs : List (Nat × Nat × List (BitVec 8))) : Bool :=
  (linkObjs gc objs).any fun r => decide (r.places.length = xs.length) &&
    xs.all fun x => decide ((x.1, x.2.1) ∈ r.places) && decide (r.bytes x.1 = x.2.2)

'''
    if path:
        text += '''#guard objectVectors.all (fun v => yields v.1 v.2.1 v.2.2)

#guard objectErrors.all (fun v => (linkObjs v.1 v.2).isNone)

'''
    else:
        text += '''theorem objectVectors_ok : objectVectors.all (fun v => yields v.1 v.2.1 v.2.2) = true := by decide +kernel

theorem objectErrors_ok : objectErrors.all (fun v => (linkObjs v.1 v.2).isNone) = true := by decide +kernel

'''
    path = path or os.path.join(os.path.dirname(os.path.abspath(__file__)), '..', 'lean', 'Verif', 'Lemmas', 'ObjectVectors.lean')
    with open(path, 'w') as f:
        f.write(text + 'end Verif\n')


if len(sys.argv) > 3:
    main(int(sys.argv[3]), int(sys.argv[4]), int(sys.argv[5]), sys.argv[6])
else:
    main()
