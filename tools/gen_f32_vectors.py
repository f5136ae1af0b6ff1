#!/usr/bin/env python3
"""Writes lean/Verif/Lemmas/F32Vectors.lean: sample operations on binary32, computed with the floating-point unit of this
machine, for the model in lean/Verif/Model/F32.lean to reproduce.  Products, quotients, sums and differences are
computed in binary64 and rounded once more (so are square roots), which for these operations gives the correctly rounded binary32 result."""
import math
import os
import random
import struct

random.seed(20240229)


def f(w):
    return struct.unpack('<f', struct.pack('<I', w))[0]


def w(x):
    if x != x:
        return 0x7fc00000
    try:
        return struct.unpack('<I', struct.pack('<f', x))[0]
    except OverflowError:
        return 0x7f800000 if x > 0 else 0xff800000


def div(a, b):
    if b != 0:
        return a / b
    if a != a or a == 0:
        return float('nan')
    neg = (w(a) >> 31) ^ (w(b) >> 31)
    return float('-inf') if neg else float('inf')


special = [0, 0x80000000, 1, 0x80000001, 0x7fffff, 0x800000, 0x7f7fffff, 0xff7fffff, 0x7f800000, 0xff800000, 0x7fc00000,
           0x3f800000, 0xbf800000, 0x3f7fffff, 0x3f800001, 0x4b800000, 0x4b7fffff]


def pick():
    k = random.randrange(4)
    if k == 0:
        return random.choice(special)
    if k == 1:
        return random.getrandbits(32)
    if k == 2:  # near one
        return (random.getrandbits(1) << 31) | ((120 + random.randrange(16)) << 23) | random.getrandbits(23)
    return (random.getrandbits(1) << 31) | (random.choice([0, 1, 2, 63, 64, 65, 190, 191, 254]) << 23) | random.getrandbits(23)


rows = []
for i in range(256):
    a, b = pick(), pick()
    if i % 5 == 0:  # cancellation
        b = a ^ 0x80000000 ^ random.choice([0, 1, 2, 3])
    x, y = f(a), f(b)
    rows.append((a, b, w(x * y), w(div(x, y)), w(x + y), w(x - y), x <= y, x > y))

random.seed(7)
roots = []
for i in range(256):
    a = pick()
    if i % 2 == 0:
        a &= 0x7fffffff
    x = f(a)
    roots.append((a, w(math.sqrt(x)) if x >= 0 else 0x7fc00000))
roots = [(a, 0x80000000 if a == 0x80000000 else r) for a, r in roots]

out = ["import Verif.Model.F32Sqrt", "/-", "  Written by tools/gen_f32_vectors.py: operations on binary32 as hardware performs them.", "-/",
       "namespace Verif", "open Model", "",
       "/-- Operands, product, quotient, sum, difference, `<=`, `>`. -/",
       "def f32Vectors : List (BitVec 32 × BitVec 32 × BitVec 32 × BitVec 32 × BitVec 32 × BitVec 32 × Bool × Bool) := ["]
for i, (a, b, m, d, s, t, le, gt) in enumerate(rows):
    out.append("  (" + ", ".join(f"0x{v:08x}#32" for v in (a, b, m, d, s, t)) + f", {str(le).lower()}, {str(gt).lower()})"
               + ("," if i + 1 < len(rows) else "]"))
out += ["", "/-- The model reproduces them. -/",
        "theorem f32_vectors : ∀ t ∈ f32Vectors,",
        "    let (a, b, m, q, s, d, l, g) := t",
        "    (F32.ofBits a).mul (.ofBits b) = .ofBits m ∧ (F32.ofBits a).div (.ofBits b) = .ofBits q ∧",
        "      (F32.ofBits a).add (.ofBits b) = .ofBits s ∧ (F32.ofBits a).sub (.ofBits b) = .ofBits d ∧",
        "      (F32.ofBits a).le (.ofBits b) = l ∧ (F32.ofBits a).gt (.ofBits b) = g := by decide +kernel",
        "", "/-- Operands and square roots. -/", "def f32Roots : List (BitVec 32 × BitVec 32) := ["]
out += [f"  (0x{a:08x}#32, 0x{r:08x}#32)" + ("," if i + 1 < len(roots) else "]") for i, (a, r) in enumerate(roots)]
out += ["", "/-- The model reproduces them. -/",
        "theorem f32_roots : ∀ t ∈ f32Roots, (F32.ofBits t.1).sqrt = .ofBits t.2 := by decide +kernel",
        "", "end Verif", ""]
here = os.path.dirname(os.path.abspath(__file__))
with open(os.path.join(here, "..", "lean", "Verif", "Lemmas", "F32Vectors.lean"), "w") as fh:
    fh.write("\n".join(out))
