#!/usr/bin/env python3
"""Writes lean/Verif/Lemmas/RelocVectors.lean: immediates as a real lld writes them into instruction words (relocations BRANCH,
JAL, HI20, LO12_I, LO12_S of RISC-V), for the encodings of lean/Verif/Spec/Isa.lean to reproduce.

usage: gen_reloc_vectors.py LD_LLD"""
import os
import random
import struct
import subprocess
import sys
import tempfile

LD = sys.argv[1]
BASE = 0x200000
R = random.Random(32)
BRANCH, JAL, HI20, LO12_I, LO12_S = 16, 17, 26, 27, 28


def reg():
    return R.randrange(32)


def branch():
    name, f3 = R.choice([('beq', 0), ('bne', 1), ('blt', 4), ('bge', 5), ('bltu', 6), ('bgeu', 7)])
    a, b = reg(), reg()
    off = R.choice([-4096, 4094, 2, -2, 2048, -2048, 1 << R.randrange(1, 12), 2 * R.randrange(-2048, 2048)])
    return BRANCH, b << 20 | a << 15 | f3 << 12 | 0b1100011, off, '.branch .%s %d %d (BitVec.ofInt 12 (%d))' % (
        name, a, b, off // 2)


def jal():
    a = reg()
    off = R.choice([-1 << 20, (1 << 20) - 2, 2, -2, 2048, -2048, 1 << R.randrange(1, 20), 2 * R.randrange(-1 << 19, 1 << 19)])
    return JAL, a << 7 | 0b1101111, off, '.jal %d (BitVec.ofInt 20 (%d))' % (a, off // 2)


def upper():
    name, op = R.choice([('lui', 0b0110111), ('auipc', 0b0010111)])
    a, v = reg(), R.choice([1 << R.randrange(12, 31), R.randrange(1 << 20) << 12])
    return HI20, a << 7 | op, v, '.%s %d 0x%x' % (name, a, v >> 12)


def imm12():
    return R.choice([-2048, 2047, -1, 1, 1 << R.randrange(11), R.randrange(-2048, 2048)])


def itype():
    k = R.randrange(3)
    a, b, v = reg(), reg(), imm12()
    if k == 0:
        name, f3 = R.choice([('addi', 0), ('slti', 2), ('sltiu', 3), ('xori', 4), ('ori', 6), ('andi', 7)])
        op, s = 0b0010011, '.opImm .' + name
    elif k == 1:
        name, f3 = R.choice([('lb', 0), ('lh', 1), ('lw', 2), ('lbu', 4), ('lhu', 5)])
        op, s = 0b0000011, '.load .' + name
    else:
        f3, op, s = 0, 0b1100111, '.jalr'
    return LO12_I, b << 15 | f3 << 12 | a << 7 | op, v, '%s %d %d (BitVec.ofInt 12 (%d))' % (s, a, b, v)


def stype():
    name, f3 = R.choice([('sb', 0), ('sh', 1), ('sw', 2)])
    a, b, v = reg(), reg(), imm12()
    return LO12_S, b << 20 | a << 15 | f3 << 12 | 0b0100011, v, '.store .%s %d %d (BitVec.ofInt 12 (%d))' % (name, a, b, v)


def link(cases):
    """Each case at its own word; the symbol it refers to is absolute (relative to the word for branches)."""
    text = b''.join(struct.pack('<I', c[1]) for c in cases)
    syms = [struct.pack('<IIIBBH', 0, 0, 0, 0, 0, 0)]
    strtab, rela = b'\0', b''
    for i, c in enumerate(cases):
        v = c[2] + (BASE + 4 * i if c[0] in (BRANCH, JAL) else 0)
        syms.append(struct.pack('<IIIBBH', len(strtab), v & 0xffffffff, 0, 1 << 4, 0, 0xfff1))
        strtab += b's%d\0' % i
        rela += struct.pack('<IIi', 4 * i, (i + 1) << 8 | c[0], 0)
    names = b'\0.text\0.rela.text\0.symtab\0.strtab\0.shstrtab\0'
    parts = [(b'.text', 1, 6, text, 0, 0, 4, 0), (b'.rela.text', 4, 0x40, rela, 3, 1, 4, 12),
             (b'.symtab', 2, 0, b''.join(syms), 4, 1, 4, 16), (b'.strtab', 3, 0, strtab, 0, 0, 1, 0),
             (b'.shstrtab', 3, 0, names, 0, 0, 1, 0)]
    body, sh = b'', bytes(40)
    for n, t, f, d, l, inf, al, es in parts:
        body += bytes(-(52 + len(body)) % 4)
        sh += struct.pack('<10I', names.index(b'\0' + n + b'\0') + 1, t, f, 0, 52 + len(body), len(d), l, inf, al, es)
        body += d
    body += bytes(-(52 + len(body)) % 4)
    eh = b'\x7fELF' + bytes([1, 1, 1, 0]) + bytes(8) + struct.pack(
        '<HHIIIIIHHHHHH', 1, 243, 1, 0, 0, 52 + len(body), 0, 52, 0, 0, 40, 6, 5)
    with tempfile.TemporaryDirectory() as d:
        with open(d + '/a.o', 'wb') as f:
            f.write(eh + body + sh)
        subprocess.run([LD, d + '/a.o', '-o', d + '/a.bin', '--oformat=binary', '-Ttext=0x%x' % BASE, '-e', '0', '--no-relax'],
                       check=True)
        with open(d + '/a.bin', 'rb') as f:
            b = f.read()
    assert len(b) == len(text), (len(b), len(text))
    return [struct.unpack('<I', b[4 * i:4 * i + 4])[0] for i in range(len(cases))]


cases = [f() for f in (branch, jal, upper, itype, stype) for _ in range(40)]
words = link(cases)
out = '''import Verif.Spec.Isa
/-
  Written by tools/gen_reloc_vectors.py: instructions whose immediates lld 22.1.4 has filled in.
-/
namespace Verif
open Spec

def relocVectors : List (Instr × Word) := [
  ''' + ',\n  '.join('(%s, 0x%08x#32)' % (c[3], w) for c, w in zip(cases, words)) + '''
]

/-- Words familiar from disassembled programs: nop, ret, `j .`, a stack frame, `li`, and register operations on a0 and a1. -/
def knownWords : List (Instr × Word) := [
  (.opImm .addi 0 0 0, 0x00000013#32), (.jalr 0 1 0, 0x00008067#32), (.jal 0 0, 0x0000006f#32),
  (.opImm .addi 2 2 (BitVec.ofInt 12 (-32)), 0xfe010113#32), (.store .sw 2 1 28, 0x00112e23#32), (.load .lw 1 2 28, 0x01c12083#32),
  (.opImm .addi 10 0 10, 0x00a00513#32), (.opImm .addi 10 0 (BitVec.ofInt 12 (-1)), 0xfff00513#32),
  (.opImm .andi 10 10 255, 0x0ff57513#32), (.load .lbu 10 10 0, 0x00054503#32),
  (.shImm .slli 10 10 2, 0x00251513#32), (.shImm .srli 10 10 2, 0x00255513#32), (.shImm .srai 10 10 2, 0x40255513#32),
  (.op .add 10 10 11, 0x00b50533#32), (.op .sub 10 10 11, 0x40b50533#32), (.op .sll 10 10 11, 0x00b51533#32),
  (.op .slt 10 10 11, 0x00b52533#32), (.op .sltu 10 10 11, 0x00b53533#32), (.op .xor 10 10 11, 0x00b54533#32),
  (.op .srl 10 10 11, 0x00b55533#32), (.op .sra 10 10 11, 0x40b55533#32), (.op .or 10 10 11, 0x00b56533#32),
  (.op .and 10 10 11, 0x00b57533#32), (.mul .mul 10 10 11, 0x02b50533#32), (.mul .mulh 10 10 11, 0x02b51533#32),
  (.mul .mulhsu 10 10 11, 0x02b52533#32), (.mul .mulhu 10 10 11, 0x02b53533#32), (.mul .div 10 10 11, 0x02b54533#32),
  (.mul .divu 10 10 11, 0x02b55533#32), (.mul .rem 10 10 11, 0x02b56533#32), (.mul .remu 10 10 11, 0x02b57533#32)
]

theorem knownWords_ok : knownWords.all (fun v => encode v.1 == v.2) = true := by decide +kernel

theorem relocVectors_ok : relocVectors.all (fun v => encode v.1 == v.2) = true := by decide +kernel

end Verif
'''
with open(os.path.join(os.path.dirname(os.path.abspath(__file__)), '..', 'lean', 'Verif', 'Lemmas', 'RelocVectors.lean'), 'w') as f:
    f.write(out)
