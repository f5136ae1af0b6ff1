import Verif.Model.TestVM
import Verif.Lemmas.Decompose
/-
  Helper lemmas about the decoder of the test VM.
-/
namespace Verif
open Spec Model

theorem extractBits_toNat (v : U32) (n : Nat) (hn : n < 32) : (extractBits v n).toNat = v.toNat % 2 ^ n := by
  have h1 : (1#32 <<< n).toNat = 2 ^ n := by
    rw [BitVec.toNat_shiftLeft, Nat.shiftLeft_eq]
    simp only [BitVec.toNat_ofNat, Nat.one_mul, show 1 % 2 ^ 32 = 1 from rfl]
    exact Nat.mod_eq_of_lt (Nat.pow_lt_pow_of_lt (by omega) hn)
  have h2 : ((1#32 <<< n) - 1#32).toNat = 2 ^ n - 1 := by
    have : 0 < 2 ^ n := Nat.two_pow_pos n
    rw [BitVec.toNat_sub_of_le (by simp only [BitVec.le_def, h1]; simp; omega), h1]; simp
  rw [extractBits, BitVec.toNat_and, h2, Nat.and_two_pow_sub_one_eq_mod]

theorem extractBits_shift (w : U32) (k n : Nat) (hn : n < 32) :
    extractBits (w >>> k) n = (w.extractLsb' k n).setWidth 32 := by
  apply BitVec.eq_of_toNat_eq
  rw [extractBits_toNat _ _ hn]
  simp only [BitVec.toNat_ushiftRight, BitVec.toNat_setWidth, BitVec.extractLsb'_toNat]
  rw [Nat.mod_eq_of_lt (a := _ % _) (b := 2 ^ 32)]
  calc _ < 2 ^ n := Nat.mod_lt _ (Nat.two_pow_pos n)
    _ ≤ 2 ^ 32 := Nat.pow_le_pow_right (by omega) (by omega)

theorem extractBits_zero (w : U32) (n : Nat) (hn : n < 32) :
    extractBits w n = (w.setWidth n).setWidth 32 := by
  apply BitVec.eq_of_toNat_eq
  rw [extractBits_toNat _ _ hn]
  simp only [BitVec.toNat_setWidth]
  rw [Nat.mod_eq_of_lt (a := _ % _) (b := 2 ^ 32)]
  calc _ < 2 ^ n := Nat.mod_lt _ (Nat.two_pow_pos n)
    _ ≤ 2 ^ 32 := Nat.pow_le_pow_right (by omega) (by omega)

theorem regFrom_extract (w : U32) (k : Nat) :
    regFrom (extractBits (w >>> k) 5) = some ((w.extractLsb' k 5).setWidth 32) := by
  rw [extractBits_shift w k 5 (by omega), regFrom, if_pos]
  simp only [BitVec.toNat_setWidth]
  have := (w.extractLsb' k 5).isLt
  omega

theorem fold_zero (l : List Nat) (v : U32) : l.foldl (fun out i => out + (0#32 <<< i)) v = v := by
  induction l with
  | nil => rfl
  | cons a l ih => simpa using ih

theorem fold_add (l : List Nat) (m v : U32) :
    l.foldl (fun out i => out + (m <<< i)) v = v + l.foldl (fun out i => out + (m <<< i)) 0#32 := by
  induction l generalizing v with
  | nil => simp
  | cons a l ih =>
    simp only [List.foldl_cons]
    rw [ih (v + _), ih (0#32 + _)]
    simp [BitVec.add_assoc]

theorem tsext_aux (n : Nat) (h0 : 0 < n) (h : n < 32) (v : BitVec n) (C : U32)
    (hC : (List.range' n (32 - n)).foldl (fun out i => out + (1#32 <<< i)) 0#32 = C)
    (hbits : ∀ i, i < 32 → C.getLsbD i = decide (n ≤ i)) :
    tSignExtend (v.setWidth 32) n = some (v.signExtend 32) := by
  have hv : (v.setWidth 32).toNat = v.toNat := by
    rw [BitVec.toNat_setWidth, Nat.mod_eq_of_lt]
    exact Nat.lt_of_lt_of_le v.isLt (Nat.pow_le_pow_right (by omega) (by omega))
  have hz : (v.setWidth 32) >>> n = 0#32 := by
    apply BitVec.eq_of_toNat_eq
    rw [BitVec.toNat_ushiftRight, hv, Nat.shiftRight_eq_div_pow, Nat.div_eq_of_lt v.isLt]; rfl
  have hm : ((v.setWidth 32) >>> (n - 1)) &&& 1#32 = if v.getLsbD (n - 1) then 1#32 else 0#32 := by
    apply BitVec.eq_of_getLsbD_eq
    intro i hi
    by_cases h1 : i = 0
    · subst h1
      have : n - 1 < 32 := by omega
      cases hb : v.getLsbD (n - 1) <;> simp [-BitVec.getLsbD_eq_getElem, hb, this]
    · cases hb : v.getLsbD (n - 1) <;> simp [-BitVec.getLsbD_eq_getElem, h1]
  rw [tSignExtend, if_pos hz, hm]
  refine congrArg some ?_
  cases hb : v.getLsbD (n - 1)
  · simp only [Bool.false_eq_true, if_false, fold_zero]
    apply BitVec.eq_of_getLsbD_eq
    intro i hi
    rw [BitVec.getLsbD_signExtend, BitVec.getLsbD_setWidth, BitVec.msb_eq_getLsbD_last, hb]
    by_cases hin : i < n
    · simp [hin]
    · simp [hin, BitVec.getLsbD_of_ge v i (by omega)]
  · simp only [if_true]
    rw [fold_add, hC, BitVec.add_eq_or_of_and_eq_zero]
    · apply BitVec.eq_of_getLsbD_eq
      intro i hi
      rw [BitVec.getLsbD_signExtend, BitVec.getLsbD_or, BitVec.getLsbD_setWidth,
        BitVec.msb_eq_getLsbD_last, hb, hbits i hi]
      by_cases hin : i < n
      · have : ¬ n ≤ i := by omega
        simp [hin, hi, this]
      · have : n ≤ i := by omega
        simp [hin, hi, this]
    · apply BitVec.eq_of_getLsbD_eq
      intro i hi
      rw [BitVec.getLsbD_and, BitVec.getLsbD_setWidth, hbits i hi]
      by_cases hin : i < n
      · have : ¬ n ≤ i := by omega
        simp [this]
      · simp [BitVec.getLsbD_of_ge v i (by omega)]

theorem tsext8 (v : BitVec 8) : tSignExtend (v.setWidth 32) 8 = some (v.signExtend 32) :=
  tsext_aux 8 (by omega) (by omega) v _ rfl (by decide +kernel)
theorem tsext12 (v : BitVec 12) : tSignExtend (v.setWidth 32) 12 = some (v.signExtend 32) :=
  tsext_aux 12 (by omega) (by omega) v _ rfl (by decide +kernel)
theorem tsext13 (v : BitVec 13) : tSignExtend (v.setWidth 32) 13 = some (v.signExtend 32) :=
  tsext_aux 13 (by omega) (by omega) v _ rfl (by decide +kernel)
theorem tsext16 (v : BitVec 16) : tSignExtend (v.setWidth 32) 16 = some (v.signExtend 32) :=
  tsext_aux 16 (by omega) (by omega) v _ rfl (by decide +kernel)
theorem tsext21 (v : BitVec 21) : tSignExtend (v.setWidth 32) 21 = some (v.signExtend 32) :=
  tsext_aux 21 (by omega) (by omega) v _ rfl (by decide +kernel)

/-- I format. -/
theorem t_imm_i (w : U32) :
    tSignExtend (extractBits (w >>> 20) 12) 12 = some (immI (w.extractLsb' 20 12)) := by
  rw [extractBits_shift _ _ _ (by omega), tsext12]; rfl

/-- S format. -/
theorem t_imm_s (w : U32) :
    tSignExtend (extractBits (w >>> 7) 5 + (extractBits (w >>> 25) 7 <<< 5)) 12
      = some (immI ((w.extractLsb' 25 7).setWidth 12 <<< 5 ||| (w.extractLsb' 7 5).setWidth 12)) := by
  rw [extractBits_shift _ _ _ (by omega), extractBits_shift _ _ _ (by omega)]
  have : (w.extractLsb' 7 5).setWidth 32 + ((w.extractLsb' 25 7).setWidth 32 <<< 5)
      = BitVec.setWidth 32 ((w.extractLsb' 25 7).setWidth 12 <<< 5 ||| (w.extractLsb' 7 5).setWidth 12) := by
    rw [BitVec.add_eq_or_of_and_eq_zero] <;> bits32
  rw [this, tsext12]; rfl

/-- B format. -/
theorem t_imm_b (w : U32) :
    tSignExtend ((extractBits (w >>> 8) 4 <<< 1) + (extractBits (w >>> 25) 6 <<< 5)
      + (extractBits (w >>> 7) 1 <<< 11) + (extractBits (w >>> 31) 1 <<< 12)) 13
    = some (immB ((w.extractLsb' 31 1).setWidth 12 <<< 11 ||| (w.extractLsb' 7 1).setWidth 12 <<< 10
      ||| (w.extractLsb' 25 6).setWidth 12 <<< 4 ||| (w.extractLsb' 8 4).setWidth 12)) := by
  simp only [extractBits_shift w _ _ (show 4 < 32 by omega), extractBits_shift w _ _ (show 6 < 32 by omega),
    extractBits_shift w _ _ (show 1 < 32 by omega)]
  generalize himm : ((w.extractLsb' 31 1).setWidth 12 <<< 11 ||| (w.extractLsb' 7 1).setWidth 12 <<< 10
      ||| (w.extractLsb' 25 6).setWidth 12 <<< 4 ||| (w.extractLsb' 8 4).setWidth 12) = imm
  have : ((w.extractLsb' 8 4).setWidth 32 <<< 1) + ((w.extractLsb' 25 6).setWidth 32 <<< 5)
      + ((w.extractLsb' 7 1).setWidth 32 <<< 11) + ((w.extractLsb' 31 1).setWidth 32 <<< 12)
      = BitVec.setWidth 32 (imm.setWidth 13 <<< 1) := by
    subst himm
    rw [BitVec.add_eq_or_of_and_eq_zero, BitVec.add_eq_or_of_and_eq_zero,
      BitVec.add_eq_or_of_and_eq_zero]
    · bits32
    · bits32
    · rw [BitVec.add_eq_or_of_and_eq_zero] <;> bits32
    · rw [BitVec.add_eq_or_of_and_eq_zero, BitVec.add_eq_or_of_and_eq_zero]
      · bits32
      · bits32
      · rw [BitVec.add_eq_or_of_and_eq_zero] <;> bits32
  rw [this, tsext13]
  refine congrArg some ?_
  rw [immB]; bits32

/-- J format. -/
theorem t_imm_j (w : U32) :
    tSignExtend ((extractBits (w >>> 21) 10 <<< 1) + (extractBits (w >>> 20) 1 <<< 11)
      + (extractBits (w >>> 12) 8 <<< 12) + (extractBits (w >>> 31) 1 <<< 20)) 21
    = some (immJ ((w.extractLsb' 31 1).setWidth 20 <<< 19 ||| (w.extractLsb' 12 8).setWidth 20 <<< 11
      ||| (w.extractLsb' 20 1).setWidth 20 <<< 10 ||| (w.extractLsb' 21 10).setWidth 20)) := by
  simp only [extractBits_shift w _ _ (show 10 < 32 by omega), extractBits_shift w _ _ (show 8 < 32 by omega),
    extractBits_shift w _ _ (show 1 < 32 by omega)]
  generalize himm : ((w.extractLsb' 31 1).setWidth 20 <<< 19 ||| (w.extractLsb' 12 8).setWidth 20 <<< 11
      ||| (w.extractLsb' 20 1).setWidth 20 <<< 10 ||| (w.extractLsb' 21 10).setWidth 20) = imm
  have : ((w.extractLsb' 21 10).setWidth 32 <<< 1) + ((w.extractLsb' 20 1).setWidth 32 <<< 11)
      + ((w.extractLsb' 12 8).setWidth 32 <<< 12) + ((w.extractLsb' 31 1).setWidth 32 <<< 20)
      = BitVec.setWidth 32 (imm.setWidth 21 <<< 1) := by
    subst himm
    rw [BitVec.add_eq_or_of_and_eq_zero, BitVec.add_eq_or_of_and_eq_zero,
      BitVec.add_eq_or_of_and_eq_zero]
    · bits32
    · bits32
    · rw [BitVec.add_eq_or_of_and_eq_zero] <;> bits32
    · rw [BitVec.add_eq_or_of_and_eq_zero, BitVec.add_eq_or_of_and_eq_zero]
      · bits32
      · bits32
      · rw [BitVec.add_eq_or_of_and_eq_zero] <;> bits32
  rw [this, tsext21]
  refine congrArg some ?_
  rw [immJ]; bits32

/-- U format. -/
theorem t_imm_u (w : U32) : extractBits (w >>> 12) 20 <<< 12 = immU (w.extractLsb' 12 20) := by
  rw [extractBits_shift _ _ _ (by omega)]; rfl

theorem t_bit (w : U32) (k : Nat) (hk : k < 32) : ((w >>> k) &&& 1#32 = 0#32) ↔ w.getLsbD k = false := by
  constructor
  · intro h
    have := congrArg (fun x => x.getLsbD 0) h
    simpa [-BitVec.getLsbD_eq_getElem] using this
  · intro h
    apply BitVec.eq_of_getLsbD_eq
    intro i hi
    by_cases h0 : i = 0
    · subst h0; simpa [-BitVec.getLsbD_eq_getElem] using h
    · simp [-BitVec.getLsbD_eq_getElem, h0]

/-! The fields and immediates of the two decoders are the same functions of the word. -/

theorem x_opcode (w : U32) : extractBits w 7 = getOpcode w := by
  rw [extractBits_zero _ _ (by omega), getOpcode_eq]; bits32
theorem x_funct3 (w : U32) : extractBits (w >>> 12) 3 = getField FUNCT3MASK FUNCT3SHIFT w := by
  rw [extractBits_shift _ _ _ (by omega), funct3_eq]
theorem x_rd (w : U32) : regFrom (extractBits (w >>> 7) 5) = some (getField RDMASK RDSHIFT w) := by
  rw [regFrom_extract]; refine congrArg some ?_; fld
theorem x_rs1 (w : U32) : regFrom (extractBits (w >>> 15) 5) = some (getField RS1MASK RS1SHIFT w) := by
  rw [regFrom_extract]; refine congrArg some ?_; fld
theorem x_rs2 (w : U32) : regFrom (extractBits (w >>> 20) 5) = some (getField RS2MASK RS2SHIFT w) := by
  rw [regFrom_extract]; refine congrArg some ?_; fld
theorem x_shamt (w : U32) : extractBits (w >>> 20) 5 = getField SHAMTMASK SHAMTSHIFT w := by
  rw [extractBits_shift _ _ _ (by omega)]; fld
theorem x_imm_i (w : U32) :
    tSignExtend (extractBits (w >>> 20) 12) 12 = some (IType.getImmediate w) := by
  rw [t_imm_i]; conv => rhs; rw [i_decomp w, imm_i]
theorem x_imm_s (w : U32) :
    tSignExtend (extractBits (w >>> 7) 5 + (extractBits (w >>> 25) 7 <<< 5)) 12
      = some (SType.getImmediate w) := by
  rw [t_imm_s]; conv => rhs; rw [s_decomp w, imm_s]
theorem x_imm_b (w : U32) :
    tSignExtend ((extractBits (w >>> 8) 4 <<< 1) + (extractBits (w >>> 25) 6 <<< 5)
      + (extractBits (w >>> 7) 1 <<< 11) + (extractBits (w >>> 31) 1 <<< 12)) 13
    = some (BType.getImmediate w) := by
  rw [t_imm_b]; conv => rhs; rw [b_decomp w, imm_b]
theorem x_imm_j (w : U32) :
    tSignExtend ((extractBits (w >>> 21) 10 <<< 1) + (extractBits (w >>> 20) 1 <<< 11)
      + (extractBits (w >>> 12) 8 <<< 12) + (extractBits (w >>> 31) 1 <<< 20)) 21
    = some (JType.getImmediate w) := by
  rw [t_imm_j]; conv => rhs; rw [j_decomp w, imm_j]
theorem x_imm_u (w : U32) : extractBits (w >>> 12) 20 <<< 12 = UType.getImmediate w <<< 12 := by
  rw [t_imm_u]; conv => rhs; rw [u_decomp w, imm_u]
  rfl

theorem bit25_r (f7 op : BitVec 7) (rs2 rs1 rd : Reg) (f3 : BitVec 3) :
    ((rType f7 rs2 rs1 f3 rd op >>> 25) &&& 1#32 = 0#32) ↔ f7.getLsbD 0 = false := by
  rw [t_bit _ _ (by omega)]
  simp [-BitVec.getLsbD_eq_getElem, rType, place]
theorem bit30_r (f7 op : BitVec 7) (rs2 rs1 rd : Reg) (f3 : BitVec 3) :
    ((rType f7 rs2 rs1 f3 rd op >>> 30) &&& 1#32 = 0#32) ↔ f7.getLsbD 5 = false := by
  rw [t_bit _ _ (by omega)]
  simp [-BitVec.getLsbD_eq_getElem, rType, place]

end Verif
