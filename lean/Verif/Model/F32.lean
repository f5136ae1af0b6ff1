import Mathlib.Data.Rat.Floor
import Mathlib.Data.Int.Log
import Mathlib.Order.WithBot
/-
  `f32`: IEEE 754 binary32 with rounding to nearest, ties to even, which is what Rust prescribes for the operators
  on `f32`, whether they are compiled to instructions (host) or to calls of software routines (guest, riscv32i).
  Simplification: there is one NaN (Rust leaves the payload of a computed NaN unspecified).
-/
namespace Verif.Model

/-- A value of type `f32`; `neg` is the sign bit, `mag` the magnitude of a finite number. -/
inductive F32
  | nan
  | inf (neg : Bool)
  | fin (neg : Bool) (mag : ℚ)
  deriving DecidableEq

namespace F32

/-- Nearest integer, ties to even. -/
def roundInt (x : ℚ) : ℤ :=
  if x - ⌊x⌋ < 1 / 2 then ⌊x⌋ else if 1 / 2 < x - ⌊x⌋ then ⌊x⌋ + 1 else if ⌊x⌋ % 2 = 0 then ⌊x⌋ else ⌊x⌋ + 1

/-- Exponent of the unit in the last place of a magnitude: 24 significant bits, not below that of the subnormal
numbers. -/
def ulpExp (x : ℚ) : ℤ := max (Int.log 2 x - 23) (-149)

/-- Rounding of a magnitude, exponent unbounded above. -/
def roundMag (x : ℚ) : ℚ := roundInt (x / 2 ^ ulpExp x) * 2 ^ ulpExp x

/-- Rounding of a magnitude with a sign; from `2^128` on it overflows. -/
def round (neg : Bool) (x : ℚ) : F32 := if roundMag x < 2 ^ (128 : ℕ) then .fin neg (roundMag x) else .inf neg

/-- Value of a bit pattern. -/
def ofBits (w : BitVec 32) : F32 :=
  let e : ℕ := w.toNat / 2 ^ 23 % 256
  let m : ℕ := w.toNat % 2 ^ 23
  if e = 255 then (if m = 0 then .inf w.msb else .nan)
  else if e = 0 then .fin w.msb (m * 2 ^ (-149 : ℤ))
  else .fin w.msb (((2 ^ 23 + m : ℕ) : ℚ) * 2 ^ ((e : ℤ) - 150))

/-- Number denoted: none for NaN, infinities as bounds; the two zeros denote the same. -/
def val : F32 → Option (WithBot (WithTop ℚ))
  | nan => none
  | inf true => some ⊥
  | inf false => some (⊤ : WithTop ℚ)
  | fin true m => some ((-m : ℚ) : WithTop ℚ)
  | fin false m => some ((m : ℚ) : WithTop ℚ)

/-- `*` -/
def mul : F32 → F32 → F32
  | fin s a, fin t b => round (s ^^ t) (a * b)
  | inf s, inf t => inf (s ^^ t)
  | inf s, fin t b => if b = 0 then nan else inf (s ^^ t)
  | fin s a, inf t => if a = 0 then nan else inf (s ^^ t)
  | nan, _ => nan
  | _, nan => nan

/-- `/` -/
def div : F32 → F32 → F32
  | fin s a, fin t b => if b = 0 then (if a = 0 then nan else inf (s ^^ t)) else round (s ^^ t) (a / b)
  | inf _, inf _ => nan
  | inf s, fin t _ => inf (s ^^ t)
  | fin s _, inf t => fin (s ^^ t) 0
  | nan, _ => nan
  | _, nan => nan

def neg : F32 → F32
  | nan => nan
  | inf s => inf (!s)
  | fin s a => fin (!s) a

/-- The signed number of a finite value. -/
def signed (s : Bool) (a : ℚ) : ℚ := if s then -a else a

/-- `+`; an exact zero is positive unless both operands are negative. -/
def add : F32 → F32 → F32
  | fin s a, fin t b =>
    let v := signed s a + signed t b
    if v = 0 then fin (s && t) 0 else round (decide (v < 0)) |v|
  | inf s, inf t => if s = t then inf s else nan
  | inf s, fin _ _ => inf s
  | fin _ _, inf t => inf t
  | nan, _ => nan
  | _, nan => nan

/-- `-` -/
def sub (a b : F32) : F32 := add a (neg b)

/-- `<=`; false if an operand is NaN. -/
def le (a b : F32) : Bool := match a.val, b.val with
  | some x, some y => decide (x ≤ y)
  | _, _ => false

/-- `>` -/
def gt (a b : F32) : Bool := match a.val, b.val with
  | some x, some y => decide (y < x)
  | _, _ => false

/-- A decimal literal of the source: the nearest value. -/
def lit (q : ℚ) : F32 := round false q

end F32

end Verif.Model
