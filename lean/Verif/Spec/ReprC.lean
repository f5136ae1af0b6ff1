import Verif.Model.ReprC
/-
  Specification: which values a type has, which types look the same on host and guest, and where the fields of a structure are.
-/
namespace Verif.Spec
open Verif.Model.ReprC

mutual
/-- The types of the language: integers of 1, 2, 4 or 8 bytes, enums of at most 2^31 variants. -/
def Real : CTy → Prop
  | .num b => b = 1 ∨ b = 2 ∨ b = 4 ∨ b = 8
  | .enum k => k ≤ 2 ^ 31
  | .bool | .usize => True
  | .array _ t => Real t
  | .struct fs => RealAll fs
def RealAll : List CTy → Prop
  | [] => True
  | t :: ts => Real t ∧ RealAll ts
end

mutual
/-- No `usize` in it. -/
def Portable : CTy → Prop
  | .num _ | .enum _ | .bool => True
  | .usize => False
  | .array _ t => Portable t
  | .struct fs => PortableAll fs
def PortableAll : List CTy → Prop
  | [] => True
  | t :: ts => Portable t ∧ PortableAll ts
end

mutual
/-- The value is one of the type. -/
def IsVal (w : Nat) : CTy → Val → Prop
  | .num b, .num n => n < 256 ^ b
  | .bool, .num n => n < 2
  | .enum k, .num n => n < k
  | .usize, .num n => n < 256 ^ w
  | .array n t, .list vs => vs.length = n ∧ ∀ i, i < n → IsVal w t (vs.getD i default)
  | .struct fs, .list vs => AreVals w fs vs
  | _, _ => False
def AreVals (w : Nat) : List CTy → List Val → Prop
  | [], [] => True
  | t :: ts, v :: vs => IsVal w t v ∧ AreVals w ts vs
  | _, _ => False
end

/-- `c` is the first multiple of `a` from `o` on. -/
def Next (a o c : Nat) : Prop := o ≤ c ∧ a ∣ c ∧ ∀ d, o ≤ d → a ∣ d → c ≤ d

end Verif.Spec
