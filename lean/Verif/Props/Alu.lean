import Verif.Props.Decode
/-
  Properties C10-C14: the plaintext semantics of `eval_plain` against the RISC-V manual.
-/
namespace Verif.Props
open Spec Model

/-! ## Value lemmas -/

theorem add_eq (x y : Word) : x + y = BitVec.ofNat 32 (x.toNat + y.toNat) := by
  apply BitVec.eq_of_toNat_eq; simp
theorem sub_eq (x y : Word) : x - y = BitVec.ofInt 32 ((x.toNat : Int) - y.toNat) := by
  apply BitVec.eq_of_toInt_eq
  rw [BitVec.toInt_ofInt, BitVec.toInt_sub, Int.sub_bmod, BitVec.toInt_eq_toNat_bmod,
    BitVec.toInt_eq_toNat_bmod]
  simp
theorem and31 (y : Word) : (y &&& 0x1F#32).toNat = y.toNat % 32 := by
  rw [BitVec.toNat_and]; exact Nat.and_two_pow_sub_one_eq_mod y.toNat 5
theorem and31_idem (y : Word) : (y &&& 0x1F#32) &&& 31#32 = y &&& 0x1F#32 := by
  rw [BitVec.and_assoc]; rfl
theorem sll_eq (x : Word) (n : Nat) : x <<< n = ShiftOp.eval .slli x n := by
  apply BitVec.eq_of_toNat_eq; simp [ShiftOp.eval, Nat.shiftLeft_eq]
theorem srl_eq (x : Word) (n : Nat) : x >>> n = ShiftOp.eval .srli x n := by
  apply BitVec.eq_of_toNat_eq
  have : x.toNat / 2 ^ n < 2 ^ 32 := Nat.lt_of_le_of_lt (Nat.div_le_self _ _) x.isLt
  simp [ShiftOp.eval, Nat.shiftRight_eq_div_pow, Nat.mod_eq_of_lt this]
theorem sra_eq (x : Word) (n : Nat) : x.sshiftRight n = ShiftOp.eval .srai x n := by
  rw [BitVec.sshiftRight]; simp [ShiftOp.eval, Int.shiftRight_eq_div_pow]
theorem shl_amount (x y : Word) : x <<< y = x <<< y.toNat := rfl
theorem shr_amount (x y : Word) : x >>> y = x >>> y.toNat := rfl

theorem slt_eq (x y : Word) : (if x.slt y then 1#32 else 0#32) = bool01 (x.toInt < y.toInt) := by
  simp [BitVec.slt, bool01]
theorem ult_eq (x y : Word) : (if x.ult y then 1#32 else 0#32) = bool01 (x.toNat < y.toNat) := by
  simp [BitVec.ult, bool01]

theorem wshl12 (imm : BitVec 20) : wrappingShl (imm.setWidth 32) 12#32 = immU imm := rfl

/-! ## C10 -/

/-- The plaintext VM's `rd` value of a non-load RV32I instruction is the one the manual's one-step
semantics leaves in `rd`; `rs1`, `rs2`, the immediate and the operation are those of the
instruction, `ram` (the word read from memory) is arbitrary. -/
theorem C10_rd_value (i : Instr) (s : Arch) (ram : Word)
    (hrd : (operands i).2.2 ≠ 0#5)
    (hload : ∀ o rd rs1 imm, i ≠ .load o rd rs1 imm)
    (hmul : ∀ o rd rs1 rs2, i ≠ .mul o rd rs1 rs2) :
    (expectedRd i).evalPlain (romImm i) (s.x (operands i).2.1) (s.x (operands i).1) s.pc ram =
      some ((exec i s).reg (operands i).2.2) := by
  cases i with
  | lui rd imm =>
    simp only [operands] at hrd
    simp [expectedRd, RdUpdate.evalPlain, operands, romImm, exec, Arch.next, Arch.setX, hrd, wshl12]
  | auipc rd imm =>
    simp only [operands] at hrd
    simp [expectedRd, RdUpdate.evalPlain, operands, romImm, exec, Arch.next, Arch.setX, hrd, wshl12]
  | jal rd imm =>
    simp only [operands] at hrd
    simp [expectedRd, RdUpdate.evalPlain, operands, exec, Arch.setX, hrd]
  | jalr rd rs1 imm =>
    simp only [operands] at hrd
    simp [expectedRd, RdUpdate.evalPlain, operands, exec, Arch.setX, hrd]
  | branch o rs1 rs2 imm => simp [operands] at hrd
  | load o rd rs1 imm => exact absurd rfl (hload o rd rs1 imm)
  | store o rs1 rs2 imm => simp [operands] at hrd
  | opImm o rd rs1 imm =>
    simp only [operands] at hrd
    cases o <;> simp only [expectedRd, RdUpdate.evalPlain, operands, romImm, exec, Arch.next,
      Arch.setX, ImmOp.eval, hrd, ne_eq, not_false_eq_true, and_self, if_true, add_eq]
    · exact congrArg some (slt_eq _ _)
    · exact congrArg some (ult_eq _ _)
  | shImm o rd rs1 sh =>
    simp only [operands] at hrd
    have hs : ((sh.setWidth 32) &&& 0x1F#32).toNat = sh.toNat := by
      rw [and31]; have := sh.isLt; simp; omega
    cases o <;> simp only [expectedRd, RdUpdate.evalPlain, operands, romImm, exec, Arch.next,
      Arch.setX, hrd, ne_eq, not_false_eq_true, and_self, if_true, wrappingShl, wrappingShr,
      wrappingSar, and31_idem, shl_amount, shr_amount, hs, sll_eq, srl_eq, sra_eq]
  | op o rd rs1 rs2 =>
    simp only [operands] at hrd
    cases o <;> simp only [expectedRd, RdUpdate.evalPlain, operands, exec, Arch.next,
      Arch.setX, hrd, ne_eq, not_false_eq_true, and_self, if_true, wrappingShl, and31_idem,
      shl_amount, shr_amount, and31, sll_eq, srl_eq, sra_eq, RegOp.eval, add_eq, sub_eq]
    · exact congrArg some (slt_eq _ _)
    · exact congrArg some (ult_eq _ _)
  | mul o rd rs1 rs2 => exact absurd rfl (hmul o rd rs1 rs2)

/-- Instructions without destination (branches and stores) select the operation `NONE` and write
register 0. -/
theorem C10_no_destination (i : Instr)
    (h : (∃ o a b m, i = .branch o a b m) ∨ (∃ o a b m, i = .store o a b m)) :
    expectedRd i = .NONE ∧ (operands i).2.2 = 0#5 := by
  rcases h with ⟨o, a, b, m, rfl⟩ | ⟨o, a, b, m, rfl⟩ <;> exact ⟨rfl, rfl⟩

example : RdUpdate.evalPlain .SRA 0#32 0x80000000#32 0xFFFFFFE1#32 0#32 0#32 = some 0xC0000000#32 := by
  decide
example : RdUpdate.evalPlain .SLTI 0xFFFFFFFF#32 0x80000000#32 0#32 0#32 0#32 = some 1#32 := by decide
example : (exec (.opImm .slti 1#5 2#5 0xFFF#12) ⟨0, fun _ => 0x80000000#32, fun _ => 0⟩).reg 1#5 =
    1#32 := by decide

/-! ## C11 -/

/-- The full claim for the M extension. -/
def RV32MCorrect (o : MulOp) : Prop :=
  ∀ (rd rs1 rs2 : Reg) (x y pc ram : Word),
    (expectedRd (.mul o rd rs1 rs2)).evalPlain 0#32 x y pc ram = some (o.eval x y)

theorem toInt_signExtend64 (x : Word) : (x.signExtend 64).toInt = x.toInt :=
  BitVec.toInt_signExtend_of_le (by omega)
theorem toInt_setWidth64 (x : Word) : (x.setWidth 64).toInt = x.toNat := by
  have := x.isLt
  rw [BitVec.toInt_eq_toNat_cond]
  simp; omega

/-- `(a *wrap b) >> 32` truncated to 32 bits is the high word of the exact product, when the exact
product fits 64 signed bits. -/
theorem mulhi (a b : BitVec 64) (h1 : -2 ^ 63 ≤ a.toInt * b.toInt) (h2 : a.toInt * b.toInt < 2 ^ 63) :
    ((a * b).sshiftRight 32).setWidth 32 = BitVec.ofInt 32 (a.toInt * b.toInt / 2 ^ 32) := by
  have hm : (a * b).toInt = a.toInt * b.toInt := by
    rw [BitVec.toInt_mul]; apply Int.bmod_eq_of_le <;> omega
  have : (a * b).sshiftRight 32 = BitVec.ofInt 64 (a.toInt * b.toInt / 2 ^ 32) := by
    rw [BitVec.sshiftRight, hm, Int.shiftRight_eq_div_pow]; rfl
  rw [this]
  apply BitVec.eq_of_toInt_eq
  rw [BitVec.toInt_setWidth, BitVec.toInt_ofInt]
  generalize a.toInt * b.toInt / 2 ^ 32 = q
  have e : ((BitVec.ofInt 64 q).toNat : Int) = q % 2 ^ 64 := by
    simp [BitVec.toNat_ofInt]; omega
  rw [e]
  have h := Int.emod_emod_of_dvd q (show ((2 : Int) ^ 32) ∣ 2 ^ 64 by decide)
  have h2 : q % 2 ^ 64 = q - 2 ^ 32 * (2 ^ 32 * (q / 2 ^ 64)) := by omega
  rw [h2]
  exact Int.sub_mul_bmod_self_left ..

theorem toInt_bounds (x : Word) : -2 ^ 31 ≤ x.toInt ∧ x.toInt < 2 ^ 31 := by
  have h1 := BitVec.le_toInt x; have h2 := BitVec.toInt_lt (x := x); simp at h1 h2; omega

theorem prod_bounds {a b A B : Int} (ha : -A ≤ a) (ha' : a ≤ A) (hb : -B ≤ b) (hb' : b ≤ B)
    (hA : 0 ≤ A) : -(A * B) ≤ a * b ∧ a * b ≤ A * B := by
  have hB : 0 ≤ B := by omega
  constructor <;> by_cases h : 0 ≤ b
  · have h1 : -A * b ≤ a * b := Int.mul_le_mul_of_nonneg_right ha h
    have h2 : A * b ≤ A * B := Int.mul_le_mul_of_nonneg_left hb' hA
    have h3 : -A * b = -(A * b) := Int.neg_mul _ _
    omega
  · have h1 : A * b ≤ a * b := Int.mul_le_mul_of_nonpos_right ha' (by omega)
    have h2 : A * -B ≤ A * b := Int.mul_le_mul_of_nonneg_left hb hA
    have h3 : A * -B = -(A * B) := Int.mul_neg _ _
    omega
  · have h1 : a * b ≤ A * b := Int.mul_le_mul_of_nonneg_right ha' h
    have h2 : A * b ≤ A * B := Int.mul_le_mul_of_nonneg_left hb' hA
    omega
  · have h1 : a * b ≤ -A * b := Int.mul_le_mul_of_nonpos_right ha (by omega)
    have h2 : A * -b ≤ A * B := Int.mul_le_mul_of_nonneg_left (by omega) hA
    have h3 : -A * b = A * -b := by rw [Int.neg_mul, Int.mul_neg]
    omega

theorem C11_mul : RV32MCorrect .mul := by
  intro rd rs1 rs2 x y pc ram
  simp only [expectedRd, RdUpdate.evalPlain, MulOp.eval]
  rfl

theorem C11_mulh : RV32MCorrect .mulh := by
  intro rd rs1 rs2 x y pc ram
  simp only [expectedRd, RdUpdate.evalPlain, MulOp.eval]
  have hx := toInt_bounds x; have hy := toInt_bounds y
  have hb := prod_bounds (a := x.toInt) (b := y.toInt) (A := 2 ^ 31) (B := 2 ^ 31) (by omega)
    (by omega) (by omega) (by omega) (by omega)
  rw [mulhi] <;> rw [toInt_signExtend64, toInt_signExtend64] <;> omega

theorem C11_mulhsu : RV32MCorrect .mulhsu := by
  intro rd rs1 rs2 x y pc ram
  simp only [expectedRd, RdUpdate.evalPlain, MulOp.eval]
  have hx := toInt_bounds x; have hy := y.isLt
  have hb := prod_bounds (a := x.toInt) (b := y.toNat) (A := 2 ^ 31) (B := 2 ^ 32 - 1) (by omega)
    (by omega) (by omega) (by omega) (by omega)
  rw [mulhi] <;> rw [toInt_signExtend64, toInt_setWidth64] <;> omega

/-- `rs1 as i64 * rs2 as i64` may exceed `i64::MAX`, so the product wraps, but the truncation to 32
bits after the shift still gives the unsigned high word. -/
theorem C11_mulhu : RV32MCorrect .mulhu := by
  intro rd rs1 rs2 x y pc ram
  simp only [expectedRd, RdUpdate.evalPlain, MulOp.eval]
  congr 1
  have h1 : ((x.setWidth 64 * y.setWidth 64 : BitVec 64).sshiftRight 32).setWidth 32 =
      ((x.setWidth 64 * y.setWidth 64 : BitVec 64) >>> 32).setWidth 32 := by
    apply BitVec.eq_of_getLsbD_eq; intro k hk
    simp only [BitVec.getLsbD_setWidth, BitVec.getLsbD_sshiftRight, BitVec.getLsbD_ushiftRight]
    have h : 32 + k < 64 := by omega
    simp [h, hk]
    intro h2; omega
  rw [h1]
  apply BitVec.eq_of_toNat_eq
  have hx := x.isLt; have hy := y.isLt
  have hp : x.toNat * y.toNat < 2 ^ 64 := by
    have := Nat.mul_lt_mul'' hx hy
    simpa [← Nat.pow_add] using this
  rw [BitVec.toNat_setWidth, BitVec.toNat_ushiftRight, BitVec.toNat_mul, BitVec.toNat_setWidth,
    BitVec.toNat_setWidth, BitVec.toNat_ofNat, Nat.shiftRight_eq_div_pow,
    Nat.mod_eq_of_lt (show x.toNat < 2 ^ 64 by omega),
    Nat.mod_eq_of_lt (show y.toNat < 2 ^ 64 by omega), Nat.mod_eq_of_lt hp]

theorem C11_remu : RV32MCorrect .remu := by
  intro rd rs1 rs2 x y pc ram
  simp only [expectedRd, RdUpdate.evalPlain, MulOp.eval]
  split
  · rfl
  · congr 1; apply BitVec.eq_of_toNat_eq
    have : x.toNat % y.toNat < 2 ^ 32 := Nat.lt_of_le_of_lt (Nat.mod_le _ _) x.isLt
    simp [Nat.mod_eq_of_lt this]

/-- DIVU agrees with the manual for every non-zero divisor.  Missing: divisor 0, where the code
returns the dividend instead of all ones (`C11_divu_fails`). -/
theorem C11_divu_partial (x y pc ram imm : Word) (hy : y ≠ 0#32) :
    RdUpdate.evalPlain .DIVU imm x y pc ram = some (MulOp.eval .divu x y) := by
  simp only [RdUpdate.evalPlain, MulOp.eval, hy, if_false]
  congr 1; apply BitVec.eq_of_toNat_eq
  have : x.toNat / y.toNat < 2 ^ 32 := Nat.lt_of_le_of_lt (Nat.div_le_self _ _) x.isLt
  simp [Nat.mod_eq_of_lt this]

/-- DIV agrees with the manual for every non-zero divisor, including overflow.  Missing: divisor 0,
where the code returns `i32::MAX` instead of -1 (`C11_div_fails`). -/
theorem C11_div_partial (x y pc ram imm : Word) (hy : y ≠ 0#32) :
    RdUpdate.evalPlain .DIV imm x y pc ram = some (MulOp.eval .div x y) := by
  simp only [RdUpdate.evalPlain, MulOp.eval, hy, if_false]
  split
  · next h => obtain ⟨rfl, rfl⟩ := h; decide
  · congr 1
    apply BitVec.eq_of_toInt_eq
    rw [BitVec.toInt_sdiv, BitVec.toInt_ofInt]

/-- REM agrees with the manual for every non-zero divisor, including overflow.  Missing: divisor 0
with a non-zero dividend, where the code divides by zero and panics (`C11_rem_fails`). -/
theorem C11_rem_partial (x y pc ram imm : Word) (hy : y ≠ 0#32) :
    RdUpdate.evalPlain .REM imm x y pc ram = some (MulOp.eval .rem x y) := by
  simp only [RdUpdate.evalPlain, MulOp.eval, hy, if_false]
  split
  · next h => subst h; simp
  · split
    · next h => obtain ⟨rfl, rfl⟩ := h; decide
    · congr 1
      apply BitVec.eq_of_toInt_eq
      rw [BitVec.toInt_srem, BitVec.toInt_ofInt]
      symm
      apply Int.bmod_eq_of_le
      · have hx := toInt_bounds x
        have h1 : (x.toInt.tmod y.toInt).natAbs ≤ x.toInt.natAbs := by
          rw [Int.natAbs_tmod]; exact Nat.mod_le _ _
        omega
      · have hx := toInt_bounds x
        have h1 : (x.toInt.tmod y.toInt).natAbs ≤ x.toInt.natAbs := by
          rw [Int.natAbs_tmod]; exact Nat.mod_le _ _
        have h2 : 0 ≤ x.toInt → 0 ≤ x.toInt.tmod y.toInt := fun h => Int.tmod_nonneg _ h
        have h3 : x.toInt ≤ 0 → x.toInt.tmod y.toInt ≤ 0 := by
          intro h
          have := Int.tmod_nonneg y.toInt (show 0 ≤ -x.toInt by omega)
          rw [Int.neg_tmod] at this; omega
        omega

/-- Division by zero deviates from the manual for every dividend (DIV) … -/
theorem C11_div_fails (x imm pc ram : Word) :
    RdUpdate.evalPlain .DIV imm x 0#32 pc ram = some 0x7FFFFFFF#32 ∧
      MulOp.eval .div x 0#32 = 0xFFFFFFFF#32 := ⟨rfl, rfl⟩
/-- … for every dividend other than all ones (DIVU) … -/
theorem C11_divu_fails (x imm pc ram : Word) (hx : x ≠ 0xFFFFFFFF#32) :
    RdUpdate.evalPlain .DIVU imm x 0#32 pc ram ≠ some (MulOp.eval .divu x 0#32) := by
  simpa [RdUpdate.evalPlain, MulOp.eval] using hx
/-- … and REM panics for every non-zero dividend. -/
theorem C11_rem_fails (x imm pc ram : Word) (hx : x ≠ 0#32) :
    RdUpdate.evalPlain .REM imm x 0#32 pc ram = none ∧ MulOp.eval .rem x 0#32 = x := by
  constructor
  · simp only [RdUpdate.evalPlain, hx, if_false, if_true]
    split
    · next h => exact absurd h.2 (by decide)
    · rfl
  · simp [MulOp.eval]

theorem C11_not_correct : ¬ RV32MCorrect .div ∧ ¬ RV32MCorrect .divu ∧ ¬ RV32MCorrect .rem := by
  refine ⟨fun h => ?_, fun h => ?_, fun h => ?_⟩
  · exact absurd (h 1 1 1 5#32 0#32 0 0) (by decide)
  · exact absurd (h 1 1 1 5#32 0#32 0 0) (by decide)
  · exact absurd (h 1 1 1 5#32 0#32 0 0) (by decide)

/-- Exactly where the three operations agree with the manual. -/
theorem C11_div_iff (x y imm pc ram : Word) :
    RdUpdate.evalPlain .DIV imm x y pc ram = some (MulOp.eval .div x y) ↔ y ≠ 0#32 := by
  refine ⟨?_, C11_div_partial x y pc ram imm⟩
  rintro h rfl
  rw [(C11_div_fails x imm pc ram).1, (C11_div_fails x imm pc ram).2] at h
  exact absurd h (by decide)
theorem C11_divu_iff (x y imm pc ram : Word) :
    RdUpdate.evalPlain .DIVU imm x y pc ram = some (MulOp.eval .divu x y) ↔ y ≠ 0#32 ∨ x = 0xFFFFFFFF#32 := by
  constructor
  · intro h
    by_cases hy : y = 0#32
    · subst hy
      exact Or.inr (Decidable.byContradiction fun hx => C11_divu_fails x imm pc ram hx h)
    · exact Or.inl hy
  · intro h
    by_cases hy : y = 0#32
    · subst hy
      have hx := h.resolve_left (fun h => h rfl)
      subst hx; rfl
    · exact C11_divu_partial x y pc ram imm hy
theorem C11_rem_iff (x y imm pc ram : Word) :
    RdUpdate.evalPlain .REM imm x y pc ram = some (MulOp.eval .rem x y) ↔ y ≠ 0#32 ∨ x = 0#32 := by
  constructor
  · intro h
    by_cases hy : y = 0#32
    · subst hy
      refine Or.inr (Decidable.byContradiction fun hx => ?_)
      rw [(C11_rem_fails x imm pc ram hx).1] at h
      cases h
    · exact Or.inl hy
  · intro h
    by_cases hy : y = 0#32
    · subst hy
      have hx := h.resolve_left (fun h => h rfl)
      subst hx; rfl
    · exact C11_rem_partial x y pc ram imm hy

example : RdUpdate.evalPlain .MULHSU 0#32 0xFFFFFFFF#32 0xFFFFFFFF#32 0#32 0#32 = some 0xFFFFFFFF#32 := by
  decide
example : RdUpdate.evalPlain .MULHU 0#32 0xFFFFFFFF#32 0xFFFFFFFF#32 0#32 0#32 = some 0xFFFFFFFE#32 := by
  decide

/-! ## C12 -/

/-- `ram` is the little-endian word of the four bytes at `a`. -/
def WordAt (mem : Word → Byte) (a ram : Word) : Prop :=
  mem a = ram.extractLsb' 0 8 ∧ mem (a + 1#32) = ram.extractLsb' 8 8 ∧
  mem (a + 2#32) = ram.extractLsb' 16 8 ∧ mem (a + 3#32) = ram.extractLsb' 24 8

theorem le1 (mem : Word → Byte) (a : Word) : leValue mem a 1 = (mem a).toNat := by simp [leValue]
theorem le2 (mem : Word → Byte) (a : Word) :
    leValue mem a 2 = (mem a).toNat + 256 * (mem (a + 1#32)).toNat := by simp [leValue]
theorem le4 (mem : Word → Byte) (a : Word) :
    leValue mem a 4 = (mem a).toNat + 256 * (mem (a + 1#32)).toNat
      + 65536 * (mem (a + 2#32)).toNat + 16777216 * (mem (a + 3#32)).toNat := by
  simp only [leValue, BitVec.add_assoc]
  simp only [show (1#32 + 1#32) = 2#32 by decide, show (1#32 + 2#32) = 3#32 by decide]
  omega

theorem byte_toNat (ram : Word) (k : Nat) : (ram.extractLsb' k 8).toNat = ram.toNat / 2 ^ k % 256 := by
  simp [BitVec.extractLsb'_toNat, Nat.shiftRight_eq_div_pow]

theorem word_le4 {mem : Word → Byte} {a ram : Word} (h : WordAt mem a ram) :
    leValue mem a 4 = ram.toNat := by
  obtain ⟨h0, h1, h2, h3⟩ := h
  have := ram.isLt
  rw [le4, h0, h1, h2, h3, byte_toNat, byte_toNat, byte_toNat, byte_toNat]; omega
theorem word_le2 {mem : Word → Byte} {a ram : Word} (h : WordAt mem a ram) :
    leValue mem a 2 = ram.toNat % 65536 := by
  obtain ⟨h0, h1, h2, h3⟩ := h
  rw [le2, h0, h1, byte_toNat, byte_toNat]; omega
theorem word_le1 {mem : Word → Byte} {a ram : Word} (h : WordAt mem a ram) :
    leValue mem a 1 = ram.toNat % 256 := by
  rw [le1, h.1, byte_toNat]; simp

theorem sext7 (ram : Word) : sext (ram &&& 0xFF#32) 7 = some ((ram.setWidth 8).signExtend 32) := by
  rw [C09_sext _ 7 (by omega) (by omega)]
  congr 1
  bits32
theorem sext15 (ram : Word) : sext (ram &&& 0xFFFF#32) 15 = some ((ram.setWidth 16).signExtend 32) := by
  rw [C09_sext _ 15 (by omega) (by omega)]
  congr 1
  bits32

/-- A load whose address is the address of the RAM word returns the manual's value, for every load
kind.  Missing from the full claim: byte offsets 1-3 (LB/LBU) and 2 (LH/LHU) inside the word, where
the code ignores the two low address bits (`C12_offset_fails`). -/
theorem C12_loads_partial (o : LoadOp) (rd rs1 : Reg) (i : BitVec 12) (mem : Word → Byte)
    (a ram imm x y pc : Word) (h : WordAt mem a ram) :
    (expectedRd (.load o rd rs1 i)).evalPlain imm x y pc ram = some (o.eval mem a) := by
  cases o <;> simp only [expectedRd, RdUpdate.evalPlain, LoadOp.eval, word_le1 h, word_le2 h, word_le4 h]
  · rw [sext7]; congr 2; apply BitVec.eq_of_toNat_eq; simp
  · rw [sext15]; congr 2; apply BitVec.eq_of_toNat_eq; simp
  · simp
  · congr 1; apply BitVec.eq_of_toNat_eq
    rw [BitVec.toNat_and]
    have : ram.toNat &&& (0xFF#32).toNat = ram.toNat % 256 := Nat.and_two_pow_sub_one_eq_mod _ 8
    rw [this, BitVec.toNat_ofNat]; omega
  · congr 1; apply BitVec.eq_of_toNat_eq
    rw [BitVec.toNat_and]
    have : ram.toNat &&& (0xFFFF#32).toNat = ram.toNat % 65536 := Nat.and_two_pow_sub_one_eq_mod _ 16
    rw [this, BitVec.toNat_ofNat]; omega

/-- The full claim is false: the value returned does not depend on the byte offset, e.g. LBU of the
second byte of the word `0x0000BBAA` returns `0xAA`. -/
theorem C12_offset_fails :
    ∃ (mem : Word → Byte) (a ram : Word), WordAt mem a ram ∧
      RdUpdate.evalPlain .LBU 0 0 0 0 ram ≠ some (LoadOp.eval .lbu mem (a + 1#32)) := by
  refine ⟨fun b => if b = 0x40000#32 then 0xAA#8 else if b = 0x40001#32 then 0xBB#8 else 0#8,
    0x40000#32, 0x0000BBAA#32, by unfold WordAt; decide, by decide⟩

/-- Exactly when a load at offset `k` of the RAM word at `a` returns the right value: when the word happens to hold
the same value at offset 0. -/
theorem C12_exact (o : LoadOp) (rd rs1 : Reg) (i : BitVec 12) (mem : Word → Byte) (a k ram imm x y pc : Word)
    (h : WordAt mem a ram) :
    (expectedRd (.load o rd rs1 i)).evalPlain imm x y pc ram = some (o.eval mem (a + k)) ↔
      o.eval mem a = o.eval mem (a + k) := by
  rw [C12_loads_partial o rd rs1 i mem a ram imm x y pc h]
  exact Option.some_inj

example : RdUpdate.evalPlain .LH 0 0 0 0 0x1234FFFE#32 = some 0xFFFFFFFE#32 := by decide

/-! ## C13 -/

/-- The plaintext VM's next pc is the manual's, for every instruction and state. -/
theorem C13_next_pc (i : Instr) (s : Arch) :
    (expectedPc i).evalPlain (romImm i) (s.x (operands i).2.1) (s.x (operands i).1) s.pc =
      (exec i s).pc := by
  cases i with
  | branch o rs1 rs2 imm =>
    by_cases h : o.taken (s.x rs1) (s.x rs2)
    · rw [show (exec (.branch o rs1 rs2 imm) s).pc = s.pc + immB imm by simp [exec, h]]
      cases o <;> simp only [BranchOp.taken] at h <;>
        simp [expectedPc, PcUpdate.evalPlain, romImm, operands, BitVec.sle, BitVec.slt,
          BitVec.ule, BitVec.ult, h]
    · rw [show (exec (.branch o rs1 rs2 imm) s).pc = s.pc + 4#32 by simp [exec, h, Arch.next]]
      cases o <;> simp only [BranchOp.taken] at h <;>
        simp [expectedPc, PcUpdate.evalPlain, romImm, operands, BitVec.sle, BitVec.slt,
          BitVec.ule, BitVec.ult, h]
  | jal rd imm => simp [expectedPc, PcUpdate.evalPlain, romImm, exec]
  | jalr rd rs1 imm =>
    simp only [expectedPc, PcUpdate.evalPlain, romImm, operands, exec]; rfl
  | lui rd imm => rfl
  | auipc rd imm => rfl
  | load o rd rs1 imm => cases o <;> rfl
  | store o rs1 rs2 imm => cases o <;> rfl
  | opImm o rd rs1 imm => cases o <;> rfl
  | shImm o rd rs1 sh => cases o <;> rfl
  | op o rd rs1 rs2 => cases o <;> rfl
  | mul o rd rs1 rs2 => cases o <;> rfl

example : PcUpdate.evalPlain .BLT 0xFFFFFFF0#32 0xFFFFFFFF#32 0#32 0x100#32 = 0xF0#32 := by decide
example : PcUpdate.evalPlain .BLTU 0xFFFFFFF0#32 0xFFFFFFFF#32 0#32 0x100#32 = 0x104#32 := by decide

/-! ## C14 -/

/-- Byte `k` of a word. -/
def byteOf (w : Word) (k : Nat) : Byte := w.extractLsb' (8 * k) 8

theorem all4 {p : Nat → Prop} (h0 : p 0) (h1 : p 1) (h2 : p 2) (h3 : p 3) : ∀ k, k < 4 → p k := by
  intro k hk
  match k, hk with
  | 0, _ => exact h0
  | 1, _ => exact h1
  | 2, _ => exact h2
  | 3, _ => exact h3

theorem all8 {p : Nat → Prop} (h0 : p 0) (h1 : p 1) (h2 : p 2) (h3 : p 3) (h4 : p 4) (h5 : p 5)
    (h6 : p 6) (h7 : p 7) : ∀ k, k < 8 → p k := by
  intro k hk
  match k, hk with
  | 0, _ => exact h0
  | 1, _ => exact h1
  | 2, _ => exact h2
  | 3, _ => exact h3
  | 4, _ => exact h4
  | 5, _ => exact h5
  | 6, _ => exact h6
  | 7, _ => exact h7

/-- A naturally aligned store changes exactly the addressed bytes of the RAM word. -/
theorem C14_store_bytes (o : StoreOp) (rs1 rs2 : Reg) (imm : BitVec 12) (v ram : Word) (off : Nat)
    (hoff : off < 4) (hal : off % o.size = 0) (k : Nat) (hk : k < 4) :
    byteOf ((expectedRam (.store o rs1 rs2 imm)).evalPlain v ram (BitVec.ofNat 32 off)) k =
      if off ≤ k ∧ k < off + o.size then byteOf v (k - off) else byteOf ram k := by
  revert k
  have hc : off = 0 ∨ off = 1 ∨ off = 2 ∨ off = 3 := by omega
  rcases hc with rfl | rfl | rfl | rfl <;> cases o <;> simp [StoreOp.size] at hal <;>
    apply all4 <;>
    simp [expectedRam, RamUpdate.evalPlain, StoreOp.size, byteOf] <;>
    (apply BitVec.eq_of_getLsbD_eq; apply all8 <;>
      simp [-BitVec.getLsbD_eq_getElem, BitVec.getLsbD_extractLsb'])

/-- Instructions other than stores leave the RAM word unchanged. -/
theorem C14_nonstore (i : Instr) (h : ∀ o a b m, i ≠ .store o a b m) (v ram off : Word) :
    (expectedRam i).evalPlain v ram off = ram := by
  cases i with
  | store o a b m => exact absurd rfl (h o a b m)
  | _ => rfl

/-- A misaligned SH (odd offset) destroys the whole word, a behaviour outside the claim. -/
theorem C14_misaligned_sh (v ram : Word) :
    RamUpdate.evalPlain .SH v ram 1#32 = 0#32 ∧ RamUpdate.evalPlain .SH v ram 3#32 = 0#32 :=
  ⟨rfl, rfl⟩

example : RamUpdate.evalPlain .SB 0x123456EE#32 0xAABBCCDD#32 2#32 = 0xAAEECCDD#32 := by decide

end Verif.Props
