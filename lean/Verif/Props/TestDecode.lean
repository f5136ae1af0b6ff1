import Verif.Lemmas.TestDecode
import Verif.Props.Accept
/-
  C07: the decoder of the test VM, against the manual and against the decoder of the encrypted VM.
-/
namespace Verif.Props
open Spec Model

def wide (r : Reg) : U32 := r.setWidth 32

/-- How the test VM represents an instruction: its name, register numbers and immediate value. -/
def tInst : Instr → TInst
  | .lui rd imm => .LUI (wide rd) (immU imm)
  | .auipc rd imm => .AUIPC (wide rd) (immU imm)
  | .jal rd imm => .JAL (wide rd) (immJ imm)
  | .jalr rd rs1 imm => .JALR (wide rs1) (wide rd) (immI imm)
  | .branch .beq rs1 rs2 imm => .BEQ (wide rs1) (wide rs2) (immB imm)
  | .branch .bne rs1 rs2 imm => .BNE (wide rs1) (wide rs2) (immB imm)
  | .branch .blt rs1 rs2 imm => .BLT (wide rs1) (wide rs2) (immB imm)
  | .branch .bge rs1 rs2 imm => .BGE (wide rs1) (wide rs2) (immB imm)
  | .branch .bltu rs1 rs2 imm => .BLTU (wide rs1) (wide rs2) (immB imm)
  | .branch .bgeu rs1 rs2 imm => .BGEU (wide rs1) (wide rs2) (immB imm)
  | .load .lb rd rs1 imm => .LB (wide rs1) (wide rd) (immI imm)
  | .load .lh rd rs1 imm => .LH (wide rs1) (wide rd) (immI imm)
  | .load .lw rd rs1 imm => .LW (wide rs1) (wide rd) (immI imm)
  | .load .lbu rd rs1 imm => .LBU (wide rs1) (wide rd) (immI imm)
  | .load .lhu rd rs1 imm => .LHU (wide rs1) (wide rd) (immI imm)
  | .store .sb rs1 rs2 imm => .SB (wide rs1) (wide rs2) (immI imm)
  | .store .sh rs1 rs2 imm => .SH (wide rs1) (wide rs2) (immI imm)
  | .store .sw rs1 rs2 imm => .SW (wide rs1) (wide rs2) (immI imm)
  | .opImm .addi rd rs1 imm => .ADDI (wide rs1) (wide rd) (immI imm)
  | .opImm .slti rd rs1 imm => .SLTI (wide rs1) (wide rd) (immI imm)
  | .opImm .sltiu rd rs1 imm => .SLTIU (wide rs1) (wide rd) (immI imm)
  | .opImm .xori rd rs1 imm => .XORI (wide rs1) (wide rd) (immI imm)
  | .opImm .ori rd rs1 imm => .ORI (wide rs1) (wide rd) (immI imm)
  | .opImm .andi rd rs1 imm => .ANDI (wide rs1) (wide rd) (immI imm)
  | .shImm .slli rd rs1 sh => .SLLI (wide rs1) (wide rd) (sh.setWidth 32)
  | .shImm .srli rd rs1 sh => .SRLI (wide rs1) (wide rd) (sh.setWidth 32)
  | .shImm .srai rd rs1 sh => .SRAI (wide rs1) (wide rd) (sh.setWidth 32)
  | .op .add rd rs1 rs2 => .ADD (wide rs1) (wide rs2) (wide rd)
  | .op .sub rd rs1 rs2 => .SUB (wide rs1) (wide rs2) (wide rd)
  | .op .sll rd rs1 rs2 => .SLL (wide rs1) (wide rs2) (wide rd)
  | .op .slt rd rs1 rs2 => .SLT (wide rs1) (wide rs2) (wide rd)
  | .op .sltu rd rs1 rs2 => .SLTU (wide rs1) (wide rs2) (wide rd)
  | .op .xor rd rs1 rs2 => .XOR (wide rs1) (wide rs2) (wide rd)
  | .op .srl rd rs1 rs2 => .SRL (wide rs1) (wide rs2) (wide rd)
  | .op .sra rd rs1 rs2 => .SRA (wide rs1) (wide rs2) (wide rd)
  | .op .or rd rs1 rs2 => .OR (wide rs1) (wide rs2) (wide rd)
  | .op .and rd rs1 rs2 => .AND (wide rs1) (wide rs2) (wide rd)
  | .mul .mul rd rs1 rs2 => .MUL (wide rs1) (wide rs2) (wide rd)
  | .mul .mulh rd rs1 rs2 => .MULH (wide rs1) (wide rs2) (wide rd)
  | .mul .mulhsu rd rs1 rs2 => .MULHSU (wide rs1) (wide rs2) (wide rd)
  | .mul .mulhu rd rs1 rs2 => .MULHU (wide rs1) (wide rs2) (wide rd)
  | .mul .div rd rs1 rs2 => .DIV (wide rs1) (wide rs2) (wide rd)
  | .mul .divu rd rs1 rs2 => .DIVU (wide rs1) (wide rs2) (wide rd)
  | .mul .rem rd rs1 rs2 => .REM (wide rs1) (wide rs2) (wide rd)
  | .mul .remu rd rs1 rs2 => .REMU (wide rs1) (wide rs2) (wide rd)

/-- The test VM decodes every RV32IM instruction as the manual says. -/
theorem C07_testvm_legal (i : Instr) : decodeInst (encode i) = some (tInst i) := by
  cases i with
  | lui rd imm =>
    simp [decodeInst, encode, x_opcode, x_rd, x_imm_u, opcode_u, rd_u, imm_u, tInst, wide, immU]
  | auipc rd imm =>
    simp [decodeInst, encode, x_opcode, x_rd, x_imm_u, opcode_u, rd_u, imm_u, tInst, wide, immU]
  | jal rd imm => simp [decodeInst, encode, x_opcode, x_rd, x_imm_j, opcode_j, rd_j, imm_j, tInst, wide]
  | jalr rd rs1 imm =>
    simp [decodeInst, encode, x_opcode, x_rd, x_rs1, x_imm_i, x_funct3, opcode_i, rd_i, rs1_i, funct3_i,
      imm_i, tInst, wide]
  | branch o rs1 rs2 imm =>
    cases o <;>
    simp [decodeInst, encode, x_opcode, x_rs1, x_rs2, x_imm_b, x_funct3, opcode_b, rs1_b, rs2_b, funct3_b,
      imm_b, tInst, wide, BranchOp.funct3]
  | load o rd rs1 imm =>
    cases o <;>
    simp [decodeInst, encode, x_opcode, x_rs1, x_rd, x_imm_i, x_funct3, opcode_i, rs1_i, rd_i, funct3_i,
      imm_i, tInst, wide, LoadOp.funct3]
  | store o rs1 rs2 imm =>
    cases o <;> unfold decodeInst <;> simp only [x_imm_s] <;>
    simp [encode, x_opcode, x_rs1, x_rs2, x_funct3, opcode_s, rs1_s, rs2_s, funct3_s,
      imm_s, tInst, wide, StoreOp.funct3]
  | opImm o rd rs1 imm =>
    cases o <;>
    simp [decodeInst, encode, x_opcode, x_rs1, x_rd, x_imm_i, x_funct3, opcode_i, rs1_i, rd_i, funct3_i,
      imm_i, tInst, wide, ImmOp.funct3]
  | shImm o rd rs1 sh =>
    cases o <;>
    simp [decodeInst, encode, x_opcode, x_rs1, x_rd, x_imm_i, x_funct3, x_shamt, opcode_r, rs1_r, rd_r,
      funct3_r, shamt_r, bit30_r, tInst, wide, ShiftOp.funct3, ShiftOp.funct7]
  | op o rd rs1 rs2 =>
    cases o <;>
    simp [decodeInst, encode, x_opcode, x_rs1, x_rs2, x_rd, x_funct3, opcode_r, rs1_r, rs2_r, rd_r,
      funct3_r, bit30_r, bit25_r, tInst, wide, RegOp.funct3, RegOp.funct7]
  | mul o rd rs1 rs2 =>
    cases o <;>
    simp [decodeInst, encode, x_opcode, x_rs1, x_rs2, x_rd, x_funct3, opcode_r, rs1_r, rs2_r, rd_r,
      funct3_r, bit30_r, bit25_r, tInst, wide, MulOp.funct3]

/-- SLLI is accepted with any funct7, by both decoders, with the same meaning. -/
theorem t_slli (f7 : BitVec 7) (sh rs1 rd : Reg) :
    decodeInst (rType f7 sh rs1 0b001#3 rd 0b0010011#7) = some (tInst (.shImm .slli rd rs1 sh)) := by
  simp [decodeInst, x_opcode, x_rs1, x_rd, x_imm_i, x_funct3, x_shamt, opcode_r, rs1_r, rd_r,
      funct3_r, shamt_r, tInst, wide]

/-- The test VM rejects the other two families which the encrypted VM accepts. -/
theorem t_jalr (imm : BitVec 12) (rs1 rd : Reg) (f3 : BitVec 3) (h : f3 ≠ 0#3) :
    decodeInst (iType imm rs1 f3 rd 0b1100111#7) = none := by
  have : f3.setWidth 32 ≠ 0#32 := by revert f3; decide
  simp [decodeInst, x_opcode, x_funct3, opcode_i, funct3_i, this]

theorem t_system (w : Word) (h : w.extractLsb' 0 7 = 0b1110011#7) : decodeInst w = none := by
  have : getOpcode w = 0b1110011#32 := by rw [getOpcode_eq, h]; rfl
  simp [decodeInst, x_opcode, this]

/-- The two decoders agree: on every word which both accept, the components kept by the encrypted VM
(read back as an instruction by `rebuild`) and the instruction the test VM will execute are the same
RISC-V instruction. -/
theorem C07_decoders_agree (dbg : Bool) (w : Word) (r : RdUpdate) (m : RamUpdate) (p : PcUpdate)
    (a b d imm : Word) (t : TInst) (ho : getOpid dbg w = some (r, m, p))
    (hr : getRegisters dbg w = some (a, b, d)) (hi : getImm dbg w = some imm)
    (ht : decodeInst w = some t) : t = tInst (rebuild r m p a b d imm) := by
  have legal : ∀ i, w = encode i → t = tInst (rebuild r m p a b d imm) := by
    rintro i rfl
    have hd := C05_components_determine dbg i
    rw [ho, hr, hi] at hd
    have e : rebuild r m p a b d imm = i := Option.some.inj hd
    rw [C07_testvm_legal] at ht
    rw [e]; exact (Option.some.inj ht).symm
  rcases (C06_accept_exact dbg w).mp (by rw [ho]; rfl) with ⟨i, h⟩ | ⟨f7, sh, rs1, rd, h⟩ |
    ⟨im, rs1, f3, rd, h⟩ | h
  · exact legal i h
  · subst h
    rw [C06_slli_ignores_funct7] at ho
    rw [t_slli] at ht
    rw [C01_imm_shift _ _ _ _ _ _ (Or.inl rfl)] at hi
    have hreg : getRegisters dbg (rType f7 sh rs1 0b001#3 rd 0b0010011#7)
        = some (0#32, rs1.setWidth 32, rd.setWidth 32) := by
      cases dbg <;> simp [getRegisters, getType, opcode_r, getRs1, getRd, guardTy, okRs1, okRd, rs1_r, rd_r]
    rw [hreg] at hr
    have e1 := Option.some.inj ho
    have e2 := Option.some.inj hr
    have e3 := Option.some.inj hi
    simp only [Prod.mk.injEq] at e1 e2
    obtain ⟨rfl, rfl, rfl⟩ := e1
    obtain ⟨rfl, rfl, rfl⟩ := e2
    subst e3
    rw [← Option.some.inj ht]
    simp [rebuild]
  · by_cases h0 : f3 = 0#3
    · exact legal (.jalr rd rs1 im) (by rw [h, h0]; rfl)
    · rw [h, t_jalr _ _ _ _ h0] at ht
      exact absurd ht (by simp)
  · rw [t_system w h] at ht
    exact absurd ht (by simp)

example : decodeInst 0x00C58533#32 = some (.ADD 11 12 10) ∧
    getOpid true 0x00C58533#32 = some (.ADD, .NONE, .NONE) := by decide +kernel

/-! ### What the test VM's decoder accepts -/

/-- Bits of a word that the test VM's decoder looks at: the others are cleared. -/
def canon (w : Word) : Word :=
  if w.extractLsb' 0 7 = 0b0110011#7 then
    if w.getLsbD 25 = false ∧ (w.extractLsb' 12 3 = 0b000#3 ∨ w.extractLsb' 12 3 = 0b101#3) then
      w &&& 0x43FFFFFF#32
    else w &&& 0x03FFFFFF#32
  else if w.extractLsb' 0 7 = 0b0010011#7 ∧ w.extractLsb' 12 3 = 0b001#3 then w &&& 0x01FFFFFF#32
  else if w.extractLsb' 0 7 = 0b0010011#7 ∧ w.extractLsb' 12 3 = 0b101#3 then w &&& 0x41FFFFFF#32
  else w


section
variable (f7 op : BitVec 7) (rs2 rs1 rd : Reg) (f3 : BitVec 3)

theorem mask43 : rType f7 rs2 rs1 f3 rd op &&& 0x43FFFFFF#32 = rType (f7 &&& 0b0100001#7) rs2 rs1 f3 rd op := by
  fld
theorem mask03 : rType f7 rs2 rs1 f3 rd op &&& 0x03FFFFFF#32 = rType (f7 &&& 0b0000001#7) rs2 rs1 f3 rd op := by
  fld
theorem mask01 : rType f7 rs2 rs1 f3 rd op &&& 0x01FFFFFF#32 = rType 0#7 rs2 rs1 f3 rd op := by
  fld
theorem mask41 : rType f7 rs2 rs1 f3 rd op &&& 0x41FFFFFF#32 = rType (f7 &&& 0b0100000#7) rs2 rs1 f3 rd op := by
  fld

theorem op_r : (rType f7 rs2 rs1 f3 rd op).extractLsb' 0 7 = op := by
  apply (setWidth7_inj _ _).mp; rw [← getOpcode_eq, opcode_r]
theorem f3_r : (rType f7 rs2 rs1 f3 rd op).extractLsb' 12 3 = f3 := by
  apply (setWidth3_inj _ _).mp; rw [← funct3_eq, funct3_r]
theorem b25_r : (rType f7 rs2 rs1 f3 rd op).getLsbD 25 = f7.getLsbD 0 := by
  simp [-BitVec.getLsbD_eq_getElem, rType, place]
end

theorem f3_cases (f3 : BitVec 3) : f3 = 0#3 ∨ f3 = 1#3 ∨ f3 = 2#3 ∨ f3 = 3#3 ∨ f3 = 4#3 ∨ f3 = 5#3 ∨ f3 = 6#3
    ∨ f3 = 7#3 := by revert f3; decide

macro "r_canon_tac" : term => `(by simp [-BitVec.getLsbD_eq_getElem, canon, op_r, f3_r, b25_r, mask43, mask03, *]; rfl)
macro "r_decode_tac" : term => `(by simp [-BitVec.getLsbD_eq_getElem, decodeInst, x_opcode, x_rs1, x_rs2, x_rd,
  x_funct3, opcode_r, rs1_r, rs2_r, rd_r, funct3_r, bit30_r, bit25_r, tInst, wide, *])

theorem t_r_canon (f7 : BitVec 7) (rs2 rs1 rd : Reg) (f3 : BitVec 3) :
    ∃ i, canon (rType f7 rs2 rs1 f3 rd 0b0110011#7) = encode i ∧
      decodeInst (rType f7 rs2 rs1 f3 rd 0b0110011#7) = some (tInst i) := by
  have m0 : f7.getLsbD 0 = false → f7 &&& 0b0000001#7 = 0#7 := by revert f7; decide +kernel
  have m1 : f7.getLsbD 0 = true → f7 &&& 0b0000001#7 = 1#7 := by revert f7; decide +kernel
  have m2 : f7.getLsbD 0 = false → f7.getLsbD 5 = false → f7 &&& 0b0100001#7 = 0#7 := by
    revert f7; decide +kernel
  have m3 : f7.getLsbD 0 = false → f7.getLsbD 5 = true → f7 &&& 0b0100001#7 = 0b0100000#7 := by
    revert f7; decide +kernel
  cases h0 : f7.getLsbD 0 <;> cases h5 : f7.getLsbD 5 <;>
  rcases f3_cases f3 with rfl | rfl | rfl | rfl | rfl | rfl | rfl | rfl
  · exact ⟨.op .add rd rs1 rs2, r_canon_tac, r_decode_tac⟩
  · exact ⟨.op .sll rd rs1 rs2, r_canon_tac, r_decode_tac⟩
  · exact ⟨.op .slt rd rs1 rs2, r_canon_tac, r_decode_tac⟩
  · exact ⟨.op .sltu rd rs1 rs2, r_canon_tac, r_decode_tac⟩
  · exact ⟨.op .xor rd rs1 rs2, r_canon_tac, r_decode_tac⟩
  · exact ⟨.op .srl rd rs1 rs2, r_canon_tac, r_decode_tac⟩
  · exact ⟨.op .or rd rs1 rs2, r_canon_tac, r_decode_tac⟩
  · exact ⟨.op .and rd rs1 rs2, r_canon_tac, r_decode_tac⟩
  · exact ⟨.op .sub rd rs1 rs2, r_canon_tac, r_decode_tac⟩
  · exact ⟨.op .sll rd rs1 rs2, r_canon_tac, r_decode_tac⟩
  · exact ⟨.op .slt rd rs1 rs2, r_canon_tac, r_decode_tac⟩
  · exact ⟨.op .sltu rd rs1 rs2, r_canon_tac, r_decode_tac⟩
  · exact ⟨.op .xor rd rs1 rs2, r_canon_tac, r_decode_tac⟩
  · exact ⟨.op .sra rd rs1 rs2, r_canon_tac, r_decode_tac⟩
  · exact ⟨.op .or rd rs1 rs2, r_canon_tac, r_decode_tac⟩
  · exact ⟨.op .and rd rs1 rs2, r_canon_tac, r_decode_tac⟩
  · exact ⟨.mul .mul rd rs1 rs2, r_canon_tac, r_decode_tac⟩
  · exact ⟨.mul .mulh rd rs1 rs2, r_canon_tac, r_decode_tac⟩
  · exact ⟨.mul .mulhsu rd rs1 rs2, r_canon_tac, r_decode_tac⟩
  · exact ⟨.mul .mulhu rd rs1 rs2, r_canon_tac, r_decode_tac⟩
  · exact ⟨.mul .div rd rs1 rs2, r_canon_tac, r_decode_tac⟩
  · exact ⟨.mul .divu rd rs1 rs2, r_canon_tac, r_decode_tac⟩
  · exact ⟨.mul .rem rd rs1 rs2, r_canon_tac, r_decode_tac⟩
  · exact ⟨.mul .remu rd rs1 rs2, r_canon_tac, r_decode_tac⟩
  · exact ⟨.mul .mul rd rs1 rs2, r_canon_tac, r_decode_tac⟩
  · exact ⟨.mul .mulh rd rs1 rs2, r_canon_tac, r_decode_tac⟩
  · exact ⟨.mul .mulhsu rd rs1 rs2, r_canon_tac, r_decode_tac⟩
  · exact ⟨.mul .mulhu rd rs1 rs2, r_canon_tac, r_decode_tac⟩
  · exact ⟨.mul .div rd rs1 rs2, r_canon_tac, r_decode_tac⟩
  · exact ⟨.mul .divu rd rs1 rs2, r_canon_tac, r_decode_tac⟩
  · exact ⟨.mul .rem rd rs1 rs2, r_canon_tac, r_decode_tac⟩
  · exact ⟨.mul .remu rd rs1 rs2, r_canon_tac, r_decode_tac⟩

/-- Every word the test VM accepts is, on the bits it looks at, an RV32IM instruction, and is
executed as that instruction. -/
theorem C53_accept_exact (w : Word) (t : TInst) :
    decodeInst w = some t ↔ ∃ i, canon w = encode i ∧ t = tInst i := by
  suffices h : (decodeInst w = none ∧ ∀ i, canon w ≠ encode i) ∨
      ∃ i, canon w = encode i ∧ decodeInst w = some (tInst i) by
    rcases h with ⟨h1, h2⟩ | ⟨i, h1, h2⟩
    · rw [h1]
      constructor
      · intro h; cases h
      · rintro ⟨i, h, -⟩; exact absurd h (h2 i)
    · rw [h2]
      constructor
      · intro h; exact ⟨i, h1, (Option.some.inj h).symm⟩
      · rintro ⟨j, hj, rfl⟩
        rw [encode_injective i j (h1.symm.trans hj)]
  -- words which do not change under `canon` and are no instruction are rejected
  have step : (∃ i, w = encode i) ∨ decodeInst w = none → canon w = w →
      (decodeInst w = none ∧ ∀ i, canon w ≠ encode i) ∨
      ∃ i, canon w = encode i ∧ decodeInst w = some (tInst i) := by
    rintro (⟨i, rfl⟩ | h) hc
    · exact Or.inr ⟨i, hc, C07_testvm_legal i⟩
    · refine Or.inl ⟨h, fun i hi => ?_⟩
      rw [hc] at hi
      rw [hi, C07_testvm_legal] at h
      cases h
  have ho := getOpcode_eq w
  have hf := funct3_eq w
  by_cases hR : w.extractLsb' 0 7 = 0b0110011#7
  · right
    rw [r_decomp w, hR]
    exact t_r_canon _ _ _ _ _
  by_cases hI : w.extractLsb' 0 7 = 0b0010011#7
  · by_cases h1 : w.extractLsb' 12 3 = 0b001#3
    · right
      refine ⟨.shImm .slli _ _ _, ?_, by rw [r_decomp w, hI, h1]; exact t_slli _ _ _ _⟩
      conv => lhs; rw [r_decomp w, hI, h1]
      simp only [canon, op_r, f3_r, mask01, hI, h1]
      rfl
    · by_cases h5 : w.extractLsb' 12 3 = 0b101#3
      · right
        rw [r_decomp w, hI, h5]
        generalize w.extractLsb' 25 7 = f7
        generalize w.extractLsb' 20 5 = sh
        generalize w.extractLsb' 15 5 = rs1
        generalize w.extractLsb' 7 5 = rd
        have m0 : f7.getLsbD 5 = false → f7 &&& 0b0100000#7 = 0#7 := by revert f7; decide +kernel
        have m1 : f7.getLsbD 5 = true → f7 &&& 0b0100000#7 = 0b0100000#7 := by revert f7; decide +kernel
        cases h5 : f7.getLsbD 5
        · exact ⟨.shImm .srli rd rs1 sh, by
            simp [-BitVec.getLsbD_eq_getElem, canon, op_r, f3_r, mask41, m0 h5]; rfl, by
            simp [-BitVec.getLsbD_eq_getElem, decodeInst, x_opcode, x_rs1, x_rd, x_imm_i, x_funct3, x_shamt,
              opcode_r, rs1_r, rd_r, funct3_r, shamt_r, bit30_r, tInst, wide, h5]⟩
        · exact ⟨.shImm .srai rd rs1 sh, by
            simp [-BitVec.getLsbD_eq_getElem, canon, op_r, f3_r, mask41, m1 h5]; rfl, by
            simp [-BitVec.getLsbD_eq_getElem, decodeInst, x_opcode, x_rs1, x_rd, x_imm_i, x_funct3, x_shamt,
              opcode_r, rs1_r, rd_r, funct3_r, shamt_r, bit30_r, tInst, wide, h5]⟩
      · refine step (Or.inl ?_) (by simp [canon, hI, h1, h5])
        have hf : ∀ f : BitVec 3, f ≠ 1#3 → f ≠ 5#3 → f = ImmOp.addi.funct3 ∨
            f = ImmOp.slti.funct3 ∨ f = ImmOp.sltiu.funct3 ∨ f = ImmOp.xori.funct3 ∨
            f = ImmOp.ori.funct3 ∨ f = ImmOp.andi.funct3 := by decide
        have : ∃ o : ImmOp, w.extractLsb' 12 3 = o.funct3 := by
          rcases hf _ h1 h5 with h | h | h | h | h | h <;> exact ⟨_, h⟩
        obtain ⟨o, h3⟩ := this
        exact ⟨.opImm o _ _ _, by rw [i_decomp w, hI, h3]; rfl⟩
  refine step ?_ (by simp [canon, hR, hI])
  by_cases hU : w.extractLsb' 0 7 = 0b0110111#7
  · exact Or.inl ⟨.lui _ _, by rw [u_decomp w, hU]; rfl⟩
  by_cases hA : w.extractLsb' 0 7 = 0b0010111#7
  · exact Or.inl ⟨.auipc _ _, by rw [u_decomp w, hA]; rfl⟩
  by_cases hJ : w.extractLsb' 0 7 = 0b1101111#7
  · exact Or.inl ⟨.jal _ _, by rw [j_decomp w, hJ]; rfl⟩
  by_cases hJR : w.extractLsb' 0 7 = 0b1100111#7
  · by_cases h3 : w.extractLsb' 12 3 = 0b000#3
    · exact Or.inl ⟨.jalr _ _ _, by rw [i_decomp w, hJR, h3]; rfl⟩
    · right; rw [i_decomp w, hJR]; exact t_jalr _ _ _ _ h3
  by_cases hL : w.extractLsb' 0 7 = 0b0000011#7
  · by_cases h3 : ∃ o : LoadOp, w.extractLsb' 12 3 = o.funct3
    · obtain ⟨o, h3⟩ := h3
      exact Or.inl ⟨.load o _ _ _, by rw [i_decomp w, hL, h3]; rfl⟩
    · right
      have : w.extractLsb' 12 3 = 3#3 ∨ w.extractLsb' 12 3 = 6#3 ∨ w.extractLsb' 12 3 = 7#3 := by
        rcases f3_cases (w.extractLsb' 12 3) with h | h | h | h | h | h | h | h
        · exact absurd ⟨LoadOp.lb, h⟩ h3
        · exact absurd ⟨LoadOp.lh, h⟩ h3
        · exact absurd ⟨LoadOp.lw, h⟩ h3
        · exact Or.inl h
        · exact absurd ⟨LoadOp.lbu, h⟩ h3
        · exact absurd ⟨LoadOp.lhu, h⟩ h3
        · exact Or.inr (Or.inl h)
        · exact Or.inr (Or.inr h)
      rw [hL] at ho
      rcases this with h | h | h <;> rw [h] at hf <;>
        simp [decodeInst, x_opcode, x_funct3, ho, hf, x_rs1, x_rd, x_imm_i]
  by_cases hB : w.extractLsb' 0 7 = 0b1100011#7
  · by_cases h3 : ∃ o : BranchOp, w.extractLsb' 12 3 = o.funct3
    · obtain ⟨o, h3⟩ := h3
      exact Or.inl ⟨.branch o _ _ _, by rw [b_decomp w, hB, h3]; rfl⟩
    · right
      have : w.extractLsb' 12 3 = 2#3 ∨ w.extractLsb' 12 3 = 3#3 := by
        rcases f3_cases (w.extractLsb' 12 3) with h | h | h | h | h | h | h | h
        · exact absurd ⟨BranchOp.beq, h⟩ h3
        · exact absurd ⟨BranchOp.bne, h⟩ h3
        · exact Or.inl h
        · exact Or.inr h
        · exact absurd ⟨BranchOp.blt, h⟩ h3
        · exact absurd ⟨BranchOp.bge, h⟩ h3
        · exact absurd ⟨BranchOp.bltu, h⟩ h3
        · exact absurd ⟨BranchOp.bgeu, h⟩ h3
      rw [hB] at ho
      rcases this with h | h <;> rw [h] at hf <;>
        simp [decodeInst, x_opcode, x_funct3, ho, hf, x_rs1, x_rs2, x_imm_b]
  by_cases hS : w.extractLsb' 0 7 = 0b0100011#7
  · by_cases h3 : ∃ o : StoreOp, w.extractLsb' 12 3 = o.funct3
    · obtain ⟨o, h3⟩ := h3
      exact Or.inl ⟨.store o _ _ _, by rw [s_decomp w, hS, h3]; rfl⟩
    · right
      rw [hS] at ho
      have : w.extractLsb' 12 3 = 3#3 ∨ w.extractLsb' 12 3 = 4#3 ∨ w.extractLsb' 12 3 = 5#3 ∨
          w.extractLsb' 12 3 = 6#3 ∨ w.extractLsb' 12 3 = 7#3 := by
        rcases f3_cases (w.extractLsb' 12 3) with h | h | h | h | h | h | h | h
        · exact absurd ⟨StoreOp.sb, h⟩ h3
        · exact absurd ⟨StoreOp.sh, h⟩ h3
        · exact absurd ⟨StoreOp.sw, h⟩ h3
        · exact Or.inl h
        · exact Or.inr (Or.inl h)
        · exact Or.inr (Or.inr (Or.inl h))
        · exact Or.inr (Or.inr (Or.inr (Or.inl h)))
        · exact Or.inr (Or.inr (Or.inr (Or.inr h)))
      unfold decodeInst
      simp only [x_imm_s]
      rcases this with h | h | h | h | h <;> rw [h] at hf <;>
        simp [x_opcode, x_funct3, ho, hf, x_rs1, x_rs2]
  · right
    have h1 : getOpcode w ≠ 0b0110011#32 := by
      rw [ho]; exact fun h => hR ((setWidth7_inj _ 0b0110011#7).mp h)
    have h2 : getOpcode w ≠ 0b0010011#32 := by
      rw [ho]; exact fun h => hI ((setWidth7_inj _ 0b0010011#7).mp h)
    have h3 : getOpcode w ≠ 0b0110111#32 := by
      rw [ho]; exact fun h => hU ((setWidth7_inj _ 0b0110111#7).mp h)
    have h4 : getOpcode w ≠ 0b0010111#32 := by
      rw [ho]; exact fun h => hA ((setWidth7_inj _ 0b0010111#7).mp h)
    have h5 : getOpcode w ≠ 0b1101111#32 := by
      rw [ho]; exact fun h => hJ ((setWidth7_inj _ 0b1101111#7).mp h)
    have h6 : getOpcode w ≠ 0b1100111#32 := by
      rw [ho]; exact fun h => hJR ((setWidth7_inj _ 0b1100111#7).mp h)
    have h7 : getOpcode w ≠ 0b0000011#32 := by
      rw [ho]; exact fun h => hL ((setWidth7_inj _ 0b0000011#7).mp h)
    have h8 : getOpcode w ≠ 0b1100011#32 := by
      rw [ho]; exact fun h => hB ((setWidth7_inj _ 0b1100011#7).mp h)
    have h9 : getOpcode w ≠ 0b0100011#32 := by
      rw [ho]; exact fun h => hS ((setWidth7_inj _ 0b0100011#7).mp h)
    unfold decodeInst
    simp only [x_opcode, h1, h2, h3, h4, h5, h6, h7, h8, h9, if_false, false_and]

/-- A word which the manual reserves but the test VM executes: funct7 = 1000001, run as MUL. -/
theorem C53_reserved_accepted : decodeInst 0x82C58533#32 = some (.MUL 11 12 10) ∧ ∀ i, encode i ≠ 0x82C58533#32 := by
  refine ⟨by decide +kernel, fun i hi => ?_⟩
  have h := C05_opid_legal false i
  rw [hi] at h
  exact absurd h (by rw [show getOpid false 0x82C58533#32 = none by decide +kernel]; simp)

example : decodeInst 0xFFFFFFFF#32 = none ∧ canon 0x82C58533#32 = 0x02C58533#32 := by decide +kernel

end Verif.Props
