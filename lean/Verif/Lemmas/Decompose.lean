import Verif.Lemmas.ImmRoundTrip
/-
  Helper lemmas: every word is an instance of each of the manual's formats.
-/
namespace Verif
open Spec Model

theorem r_decomp (w : U32) : w = rType (w.extractLsb' 25 7) (w.extractLsb' 20 5)
    (w.extractLsb' 15 5) (w.extractLsb' 12 3) (w.extractLsb' 7 5) (w.extractLsb' 0 7) := by fld

theorem i_decomp (w : U32) : w = iType (w.extractLsb' 20 12)
    (w.extractLsb' 15 5) (w.extractLsb' 12 3) (w.extractLsb' 7 5) (w.extractLsb' 0 7) := by fld

theorem s_decomp (w : U32) : w = sType
    ((w.extractLsb' 25 7).setWidth 12 <<< 5 ||| (w.extractLsb' 7 5).setWidth 12)
    (w.extractLsb' 20 5) (w.extractLsb' 15 5) (w.extractLsb' 12 3) (w.extractLsb' 0 7) := by fld

theorem b_decomp (w : U32) : w = bType
    ((w.extractLsb' 31 1).setWidth 12 <<< 11 ||| (w.extractLsb' 7 1).setWidth 12 <<< 10
      ||| (w.extractLsb' 25 6).setWidth 12 <<< 4 ||| (w.extractLsb' 8 4).setWidth 12)
    (w.extractLsb' 20 5) (w.extractLsb' 15 5) (w.extractLsb' 12 3) (w.extractLsb' 0 7) := by fld

theorem u_decomp (w : U32) : w = uType (w.extractLsb' 12 20) (w.extractLsb' 7 5)
    (w.extractLsb' 0 7) := by fld

theorem j_decomp (w : U32) : w = jType
    ((w.extractLsb' 31 1).setWidth 20 <<< 19 ||| (w.extractLsb' 12 8).setWidth 20 <<< 11
      ||| (w.extractLsb' 20 1).setWidth 20 <<< 10 ||| (w.extractLsb' 21 10).setWidth 20)
    (w.extractLsb' 7 5) (w.extractLsb' 0 7) := by fld

theorem getOpcode_eq (w : U32) : getOpcode w = (w.extractLsb' 0 7).setWidth 32 := by fld
theorem funct3_eq (w : U32) : getField FUNCT3MASK FUNCT3SHIFT w = (w.extractLsb' 12 3).setWidth 32 := by
  fld
theorem funct7_eq (w : U32) : getField FUNCT7MASK FUNCT7SHIFT w = (w.extractLsb' 25 7).setWidth 32 := by
  fld

theorem setWidth7_inj (c d : BitVec 7) : c.setWidth 32 = d.setWidth 32 ↔ c = d := by
  constructor
  · intro h
    have := congrArg (BitVec.setWidth 7) h
    simpa using this
  · rintro rfl; rfl
theorem setWidth3_inj (c d : BitVec 3) : c.setWidth 32 = d.setWidth 32 ↔ c = d := by
  revert c d; decide
theorem setWidth5_inj (c d : BitVec 5) : c.setWidth 32 = d.setWidth 32 ↔ c = d := by
  constructor
  · intro h
    have := congrArg (BitVec.setWidth 5) h
    simpa using this
  · rintro rfl; rfl

/-- `get_type` in terms of the 7-bit opcode. -/
theorem getType_some_iff (w : U32) (t : Ty) : getType w = some t ↔
    match t with
    | .U => w.extractLsb' 0 7 = 0b0110111#7 ∨ w.extractLsb' 0 7 = 0b0010111#7
    | .I => w.extractLsb' 0 7 = 0b0010011#7 ∨ w.extractLsb' 0 7 = 0b0000011#7
        ∨ w.extractLsb' 0 7 = 0b1100111#7
    | .R => w.extractLsb' 0 7 = 0b0110011#7
    | .S => w.extractLsb' 0 7 = 0b0100011#7
    | .J => w.extractLsb' 0 7 = 0b1101111#7
    | .B => w.extractLsb' 0 7 = 0b1100011#7
    | .NONE => w.extractLsb' 0 7 = 0b1110011#7 := by
  have h := getOpcode_eq w
  generalize w.extractLsb' 0 7 = o at h
  unfold getType
  rw [h]
  clear h
  cases t <;> revert o <;> decide +kernel

end Verif
