import Verif.Lemmas.Decode
/-
  Helper lemmas for C02/C03: immediate setters followed by getters.
-/
namespace Verif
open Spec Model

theorem i_get_set (w imm : U32) :
    IType.getImmediate (IType.setImmediate w imm) = (imm.setWidth 12).signExtend 32 := by
  simp only [IType.getImmediate, IType.setImmediate, signmask]; bits32
theorem s_get_set (w imm : U32) :
    SType.getImmediate (SType.setImmediate w imm) = (imm.setWidth 12).signExtend 32 := by
  simp only [SType.getImmediate, SType.setImmediate, signmask]; bits32
theorem b_get_set (w imm : U32) :
    BType.getImmediate (BType.setImmediate w imm)
      = (imm.setWidth 13).signExtend 32 &&& 0xFFFFFFFE#32 := by
  simp only [BType.getImmediate, BType.setImmediate, signmask]; bits32
theorem j_get_set (w imm : U32) :
    JType.getImmediate (JType.setImmediate w imm)
      = (imm.setWidth 21).signExtend 32 &&& 0xFFFFFFFE#32 := by
  simp only [JType.getImmediate, JType.setImmediate, signmask]; bits32
theorem u_get_set (w imm : U32) :
    UType.getImmediate (UType.setImmediate w imm) = (imm.setWidth 20).setWidth 32 := by
  simp only [UType.getImmediate, UType.setImmediate]; bits32
theorem shamt_get_set (w imm : U32) :
    getField SHAMTMASK SHAMTSHIFT (setField SHAMTMASK SHAMTSHIFT w imm)
      = (imm.setWidth 5).setWidth 32 := by fld

/-! opcode and funct3 are not touched by the immediate setters -/
theorem opcode_setI (w imm : U32) : getOpcode (IType.setImmediate w imm) = getOpcode w := by
  simp only [IType.setImmediate]; fld
theorem opcode_setS (w imm : U32) : getOpcode (SType.setImmediate w imm) = getOpcode w := by
  simp only [SType.setImmediate]; fld
theorem opcode_setB (w imm : U32) : getOpcode (BType.setImmediate w imm) = getOpcode w := by
  simp only [BType.setImmediate]; fld
theorem opcode_setJ (w imm : U32) : getOpcode (JType.setImmediate w imm) = getOpcode w := by
  simp only [JType.setImmediate]; fld
theorem opcode_setU (w imm : U32) : getOpcode (UType.setImmediate w imm) = getOpcode w := by
  simp only [UType.setImmediate]; fld
theorem opcode_setSh (w imm : U32) :
    getOpcode (setField SHAMTMASK SHAMTSHIFT w imm) = getOpcode w := by fld
theorem funct3_setI (w imm : U32) : getField FUNCT3MASK FUNCT3SHIFT (IType.setImmediate w imm)
    = getField FUNCT3MASK FUNCT3SHIFT w := by
  simp only [IType.setImmediate]; fld
theorem funct3_setSh (w imm : U32) :
    getField FUNCT3MASK FUNCT3SHIFT (setField SHAMTMASK SHAMTSHIFT w imm)
    = getField FUNCT3MASK FUNCT3SHIFT w := by fld

theorem getType_congr {w w' : U32} (h : getOpcode w' = getOpcode w) : getType w' = getType w := by
  simp only [getType, h]

theorem guardTy_of {dbg : Bool} {ok : Ty → Bool} {w : U32} {t : Ty} (h : getType w = some t)
    (hok : ok t = true) : guardTy dbg ok w = some () := by
  simp [guardTy, h, hok]

/-- sign extension from `n` bits is the identity exactly on the `n`-bit signed range. -/
theorem signExtend_fix (x : U32) (n : Nat) (hn0 : 0 < n) (hn : n ≤ 32) :
    (x.setWidth n).signExtend 32 = x ↔ -2 ^ (n - 1) ≤ x.toInt ∧ x.toInt < 2 ^ (n - 1) := by
  rw [← BitVec.toInt_inj, BitVec.toInt_signExtend_of_le hn, BitVec.toInt_setWidth]
  have hp : (2 : Int) ^ n = 2 * 2 ^ (n - 1) := by
    obtain ⟨m, rfl⟩ : ∃ m, n = m + 1 := ⟨n - 1, by omega⟩
    simp [Int.pow_succ]; omega
  have hpos : (0 : Int) < 2 ^ (n - 1) := Int.pow_pos (by decide)
  have hcast : ((2 ^ n : Nat) : Int) = 2 * 2 ^ (n - 1) := by rw [← hp]; simp
  have hx : x.toInt.bmod (2 ^ n) = Int.bmod (x.toNat) (2 ^ n) := by
    have : x.toInt = (x.toNat : Int).bmod (2 ^ 32) := by exact BitVec.toInt_eq_toNat_bmod x
    rw [this]
    have hd : (2 ^ n : Nat) ∣ 2 ^ 32 := Nat.pow_dvd_pow 2 hn
    exact Int.bmod_bmod_of_dvd hd
  rw [← hx]
  constructor
  · intro h
    have h1 := Int.le_bmod (x := x.toInt) (m := 2 ^ n) (Nat.pow_pos (by decide))
    have h2 := Int.bmod_lt (x := x.toInt) (m := 2 ^ n) (Nat.pow_pos (by decide))
    rw [h] at h1 h2
    rw [hcast] at h1 h2
    omega
  · intro ⟨h1, h2⟩
    apply Int.bmod_eq_of_le
    · rw [hcast]; omega
    · rw [hcast]; omega

/-- Clearing bit 0 after sign extension fixes exactly the even representable values. -/
theorem signExtend_even_fix (x : U32) (n : Nat) (hn0 : 1 < n) (hn : n ≤ 32) :
    (x.setWidth n).signExtend 32 &&& 0xFFFFFFFE#32 = x ↔
      x.getLsbD 0 = false ∧ -2 ^ (n - 1) ≤ x.toInt ∧ x.toInt < 2 ^ (n - 1) := by
  rw [← signExtend_fix x n (by omega) hn]
  have hmask : ∀ i, i < 32 → (0xFFFFFFFE#32).getLsbD i = !decide (i = 0) := by
    apply all32 <;> decide
  constructor
  · intro h
    have h0 : x.getLsbD 0 = false := by
      rw [← h]; simp
    refine ⟨h0, ?_⟩
    apply BitVec.eq_of_getLsbD_eq
    intro i hi
    by_cases h' : i = 0
    · subst h'
      rw [h0]
      simp [-BitVec.getLsbD_eq_getElem, BitVec.getLsbD_signExtend, show 0 < n by omega, h0]
    · have := congrArg (fun y => y.getLsbD i) h
      simp only [BitVec.getLsbD_and, hmask i hi, h'] at this
      simpa using this
  · rintro ⟨h0, h⟩
    rw [h]
    apply BitVec.eq_of_getLsbD_eq
    intro i hi
    rw [BitVec.getLsbD_and, hmask i hi]
    by_cases h' : i = 0
    · subst h'; rw [h0]; rfl
    · simp [h']

theorem zeroExtend_fix (x : U32) (n : Nat) (_hn : n ≤ 32) :
    (x.setWidth n).setWidth 32 = x ↔ x.toNat < 2 ^ n := by
  rw [← BitVec.toNat_inj]
  simp only [BitVec.toNat_setWidth]
  have hx := x.isLt
  have h2 : x.toNat % 2 ^ n < 2 ^ 32 :=
    Nat.lt_of_le_of_lt (Nat.mod_le _ _) hx
  rw [Nat.mod_eq_of_lt h2]
  constructor
  · intro h; rw [← h]; exact Nat.mod_lt _ (Nat.pow_pos (by decide))
  · exact Nat.mod_eq_of_lt
end Verif
