import Verif.Spec.Isa
/-
  Specification: settings given as text.
-/
namespace Verif.Spec

/-- The number written with the digits `ds`, most significant first. -/
def decimal : List Nat → Nat
  | [] => 0
  | d :: ds => d * 10 ^ ds.length + decimal ds

/-- The ASCII character of a digit. -/
def digitChar (d : Nat) : Byte := BitVec.ofNat 8 (0x30 + d)

/-- `v` writes the number `n`: decimal digits, at least one, leading zeros and one `+` allowed. -/
def IsDecimal (v : List Byte) (n : Nat) : Prop :=
  ∃ ds : List Nat, ds ≠ [] ∧ (∀ d ∈ ds, d < 10) ∧ n = decimal ds ∧
    (v = ds.map digitChar ∨ v = 0x2B#8 :: ds.map digitChar)

/-- `v` says yes: `1`, or the word `true` in upper and lower case letters. -/
def IsYes (v : List Byte) : Prop :=
  v = [0x31#8] ∨ ∃ t r u e : Byte, v = [t, r, u, e] ∧ (t = 0x54#8 ∨ t = 0x74#8) ∧ (r = 0x52#8 ∨ r = 0x72#8) ∧
    (u = 0x55#8 ∨ u = 0x75#8) ∧ (e = 0x45#8 ∨ e = 0x65#8)

end Verif.Spec
