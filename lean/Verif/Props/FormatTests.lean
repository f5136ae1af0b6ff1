import Verif.Model.FormatTests
import Verif.Props.Parser
/-
  C80: the unit tests inside the instruction format files, for every value of the constants they fix,
  and what they determine about a decoder.
-/
namespace Verif.Props
open Spec Model

/-- The operation ids of an instruction of the manual. -/
def opIdsOf (i : Instr) : OpIds := (expectedRd i, expectedRam i, expectedPc i)

theorem wantEntry_inj (i a b d i' a' b' d' : U32) (o o' : OpIds) :
    wantEntry i a b d o = wantEntry i' a' b' d' o' ↔
      i = i' ∧ a = a' ∧ b = b' ∧ d = d' ∧ o = o' := by
  have e : ∀ x y : U32, x.setWidth 64 = y.setWidth 64 ↔ x = y := by
    intro x y
    constructor
    · intro h
      have := congrArg (BitVec.setWidth 32) h
      simpa using this
    · rintro rfl; rfl
  obtain ⟨r, m, p⟩ := o
  obtain ⟨r', m', p'⟩ := o'
  simp only [wantEntry, Entry.mk.injEq, e, Prod.mk.injEq]
  constructor
  · rintro ⟨h1, h2, h3, h4, h5, h6, h7⟩
    exact ⟨h1, h2, h3, h4, C08_rd_id_injective _ _ h5, C08_ram_id_injective _ _ h6, C08_pc_id_injective _ _ h7⟩
  · rintro ⟨h1, h2, h3, h4, h5, h6, h7⟩
    subst h1 h2 h3 h4 h5 h6 h7
    simp

/-- The parser's two assertions hold exactly if the three accessors return the expected values. -/
theorem C80_check (dbg : Bool) (w v r2 r1 rd : U32) (op : OpIds) :
    checkWord dbg w (wantEntry v r2 r1 rd op) = some () ↔
      getRegisters dbg w = some (r2, r1, rd) ∧ getOpid dbg w = some op ∧ getImm dbg w = some v := by
  have key : checkWord dbg w (wantEntry v r2 r1 rd op) = some () ↔
      entryOf dbg w = some (wantEntry v r2 r1 rd op) := by
    unfold checkWord
    cases ha : Parser.new.add dbg w with
    | none =>
      have : entryOf dbg w = none := by
        unfold Parser.add at ha
        unfold entryOf
        cases hr : getRegisters dbg w with
        | none => rfl
        | some r =>
          cases ho : getOpid dbg w with
          | none => rfl
          | some o =>
            cases hi : getImm dbg w with
            | none => rfl
            | some im => simp [hr, ho, hi] at ha
      simp [this]
    | some m =>
      obtain ⟨wf, hraw, _, hget, _⟩ := add_spec dbg Parser.new m w ⟨rfl, rfl⟩ ha
      have hl : m.imm.length = 1 ∧ m.instructions.length = 1 := by
        rw [wf.1, wf.2, hraw]; simp [Parser.new]
      have hget' : m.get 0 = entryOf dbg w := by simpa [Parser.new] using hget
      simp only [Option.bind_some, Parser.assertSize, hl, and_self, if_true, Parser.assertInstruction, hget']
      cases entryOf dbg w with
      | none => simp
      | some e =>
        obtain ⟨e1, e2, e3, e4, e5, e6, e7⟩ := e
        simp [wantEntry]
  rw [key]
  unfold entryOf
  cases hr : getRegisters dbg w with
  | none => simp
  | some r =>
    cases ho : getOpid dbg w with
    | none => simp
    | some o =>
      cases hi : getImm dbg w with
      | none => simp
      | some im =>
        obtain ⟨a, b, d⟩ := r
        have := wantEntry_inj im a b d v r2 r1 rd o op
        obtain ⟨o1, o2, o3⟩ := o
        simp only [wantEntry] at this
        simp only [Option.bind_some, Option.map_some, Option.some.injEq, wantEntry, this, Prod.mk.injEq]
        obtain ⟨p1, p2, p3⟩ := op
        simp only [Prod.mk.injEq]
        constructor
        · rintro ⟨h1, h2, h3, h4, h5⟩; exact ⟨⟨h2, h3, h4⟩, h5, h1⟩
        · rintro ⟨⟨h2, h3, h4⟩, h5, h1⟩; exact ⟨h1, h2, h3, h4, h5⟩

theorem cut_iff (x : U32) (n : Nat) (hn : n ≤ 32) : (x.setWidth n).setWidth 32 = x ↔ x.toNat < 2 ^ n := by
  have hx := x.isLt
  have hp : 2 ^ n ≤ 2 ^ 32 := Nat.pow_le_pow_right (by omega) hn
  rw [← BitVec.toNat_inj, BitVec.toNat_setWidth, BitVec.toNat_setWidth]
  have h1 : x.toNat % 2 ^ n < 2 ^ n := Nat.mod_lt _ (Nat.two_pow_pos n)
  rw [Nat.mod_eq_of_lt (a := x.toNat % 2 ^ n) (by omega)]
  constructor
  · intro h; omega
  · intro h; exact Nat.mod_eq_of_lt h

section fields
variable (f7 op : BitVec 7) (rs2 rs1 rd : Reg) (f3 : BitVec 3) (i12 : BitVec 12) (i20 : BitVec 20) (v : U32)

theorem fmt_f3_b : setField FUNCT3MASK FUNCT3SHIFT (bType i12 rs2 rs1 f3 op) v = bType i12 rs2 rs1 (v.setWidth 3) op := by fld
theorem fmt_rs1_b : setField RS1MASK RS1SHIFT (bType i12 rs2 rs1 f3 op) v = bType i12 rs2 (v.setWidth 5) f3 op := by fld
theorem fmt_rs2_b : setField RS2MASK RS2SHIFT (bType i12 rs2 rs1 f3 op) v = bType i12 (v.setWidth 5) rs1 f3 op := by fld
theorem fmt_imm_b : BType.setImmediate (bType i12 rs2 rs1 f3 op) v = bType ((v >>> 1).setWidth 12) rs2 rs1 f3 op := by
  simp only [BType.setImmediate]; fld
theorem fmt_f3_s : setField FUNCT3MASK FUNCT3SHIFT (sType i12 rs2 rs1 f3 op) v = sType i12 rs2 rs1 (v.setWidth 3) op := by fld
theorem fmt_rs1_s : setField RS1MASK RS1SHIFT (sType i12 rs2 rs1 f3 op) v = sType i12 rs2 (v.setWidth 5) f3 op := by fld
theorem fmt_rs2_s : setField RS2MASK RS2SHIFT (sType i12 rs2 rs1 f3 op) v = sType i12 (v.setWidth 5) rs1 f3 op := by fld
theorem fmt_imm_s : SType.setImmediate (sType i12 rs2 rs1 f3 op) v = sType (v.setWidth 12) rs2 rs1 f3 op := by
  simp only [SType.setImmediate]; fld
theorem fmt_f3_i : setField FUNCT3MASK FUNCT3SHIFT (iType i12 rs1 f3 rd op) v = iType i12 rs1 (v.setWidth 3) rd op := by fld
theorem fmt_rs1_i : setField RS1MASK RS1SHIFT (iType i12 rs1 f3 rd op) v = iType i12 (v.setWidth 5) f3 rd op := by fld
theorem fmt_rd_i : setField RDMASK RDSHIFT (iType i12 rs1 f3 rd op) v = iType i12 rs1 f3 (v.setWidth 5) op := by fld
theorem fmt_imm_i : IType.setImmediate (iType i12 rs1 f3 rd op) v = iType (v.setWidth 12) rs1 f3 rd op := by
  simp only [IType.setImmediate]; fld
theorem fmt_f3_r : setField FUNCT3MASK FUNCT3SHIFT (rType f7 rs2 rs1 f3 rd op) v = rType f7 rs2 rs1 (v.setWidth 3) rd op := by fld
theorem fmt_f7_r : setField FUNCT7MASK FUNCT7SHIFT (rType f7 rs2 rs1 f3 rd op) v = rType (v.setWidth 7) rs2 rs1 f3 rd op := by fld
theorem fmt_rs2_r : setField RS2MASK RS2SHIFT (rType f7 rs2 rs1 f3 rd op) v = rType f7 (v.setWidth 5) rs1 f3 rd op := by fld
theorem fmt_rs1_r : setField RS1MASK RS1SHIFT (rType f7 rs2 rs1 f3 rd op) v = rType f7 rs2 (v.setWidth 5) f3 rd op := by fld
theorem fmt_rd_r : setField RDMASK RDSHIFT (rType f7 rs2 rs1 f3 rd op) v = rType f7 rs2 rs1 f3 (v.setWidth 5) op := by fld
theorem fmt_rd_u : setField RDMASK RDSHIFT (uType i20 rd op) v = uType i20 (v.setWidth 5) op := by fld
theorem fmt_imm_u : UType.setImmediate (uType i20 rd op) v = uType (v.setWidth 20) rd op := by
  simp only [UType.setImmediate]; fld
theorem fmt_rd_j : setField RDMASK RDSHIFT (jType i20 rd op) v = jType i20 (v.setWidth 5) op := by fld
theorem fmt_imm_j : JType.setImmediate (jType i20 rd op) v = jType ((v >>> 1).setWidth 20) rd op := by
  simp only [JType.setImmediate]; fld
theorem fmt_i_r : iType i12 rs1 f3 rd op = rType (i12.extractLsb' 5 7) (i12.extractLsb' 0 5) rs1 f3 rd op := by fld
end fields

theorem bv3_cases (c : BitVec 3) : c = 0#3 ∨ c = 1#3 ∨ c = 2#3 ∨ c = 3#3 ∨ c = 4#3 ∨ c = 5#3 ∨ c = 6#3 ∨ c = 7#3 := by
  revert c; decide

/-- An even immediate is what the B and J fields can hold. -/
theorem even_iff (x : U32) (n : Nat) (hn : 0 < n) :
    ((x.setWidth n).signExtend 32 &&& 0xFFFFFFFE#32 = (x.setWidth n).signExtend 32) ↔ x.toNat % 2 = 0 := by
  have hb : x.toNat % 2 = 0 ↔ x.getLsbD 0 = false := by
    rw [BitVec.getLsbD, Nat.testBit_zero]; simp
  have hz : ((x.setWidth n).signExtend 32).getLsbD 0 = x.getLsbD 0 := by
    simp [-BitVec.getLsbD_eq_getElem, BitVec.getLsbD_signExtend, hn]
  rw [hb]
  generalize (x.setWidth n).signExtend 32 = y at hz
  rw [← hz]
  constructor
  · intro h
    have := congrArg (fun x => BitVec.getLsbD x 0) h
    simpa [-BitVec.getLsbD_eq_getElem] using this.symm
  · intro h
    apply BitVec.eq_of_getLsbD_eq
    apply Verif.all32 <;> simp_all [-BitVec.getLsbD_eq_getElem]

/-- C80, branches: the helper passes exactly if the immediate is even, the register numbers fit their
fields and the operation is that of funct3. -/
theorem C80_B (dbg : Bool) (imm rs2 rs1 f3 : U32) (op : OpIds) :
    testB dbg imm rs2 rs1 f3 0b1100011#32 op = some () ↔
      imm.toNat % 2 = 0 ∧ rs2.toNat < 32 ∧ rs1.toNat < 32 ∧
      ∃ o : BranchOp, o.funct3 = f3.setWidth 3 ∧ op = opIdsOf (.branch o 0 0 0) := by
  have h0 : (0b1100011#32 : U32) = bType 0 0 0 0 0b1100011#7 := by decide
  have ht : testB dbg imm rs2 rs1 f3 0b1100011#32 op =
      checkWord dbg (bType ((imm >>> 1).setWidth 12) (rs2.setWidth 5) (rs1.setWidth 5) (f3.setWidth 3) 0b1100011#7)
        (wantEntry ((imm.setWidth 13).signExtend 32) rs2 rs1 0#32 op) := by
    rw [h0]
    simp [testB, setImm, getType, opcode_b, setFunct3, guardTy, okFunct3, setRs2, setRs1, okRs1, okRs2,
      C09_sext, fmt_imm_b, fmt_f3_b, fmt_rs1_b, fmt_rs2_b]
  have himm : immB ((imm >>> 1).setWidth 12) = (imm.setWidth 13).signExtend 32 &&& 0xFFFFFFFE#32 := by
    unfold immB; bits32
  have hop : getOpid dbg (bType ((imm >>> 1).setWidth 12) (rs2.setWidth 5) (rs1.setWidth 5) (f3.setWidth 3) 0b1100011#7) = some op ↔
      ∃ o : BranchOp, o.funct3 = f3.setWidth 3 ∧ op = opIdsOf (.branch o 0 0 0) := by
    generalize f3.setWidth 3 = c
    constructor
    · intro h
      rcases bv3_cases c with rfl | rfl | rfl | rfl | rfl | rfl | rfl | rfl <;>
        simp [getOpid, getType, opcode_b, getFunct3, guardTy, okFunct3, funct3_b, opidBranch] at h <;> subst h
      · exact ⟨.beq, rfl, rfl⟩
      · exact ⟨.bne, rfl, rfl⟩
      · exact ⟨.blt, rfl, rfl⟩
      · exact ⟨.bge, rfl, rfl⟩
      · exact ⟨.bltu, rfl, rfl⟩
      · exact ⟨.bgeu, rfl, rfl⟩
    · rintro ⟨o, rfl, rfl⟩
      cases o <;> exact C05_opid_legal dbg (.branch _ (rs1.setWidth 5) (rs2.setWidth 5) ((imm >>> 1).setWidth 12))
  rw [ht, C80_check, hop, C01_imm_B, ← even_iff imm 13 (by omega), ← himm, ← cut_iff rs2 5 (by omega), ← cut_iff rs1 5 (by omega)]
  simp [getRegisters, getType, opcode_b, getRs2, getRs1, guardTy, okRs1, okRs2, rs1_b, rs2_b, immB]
  grind

/-- C80, stores. -/
theorem C80_S (dbg : Bool) (imm rs2 rs1 f3 : U32) (op : OpIds) :
    testS dbg imm rs2 rs1 f3 0b0100011#32 op = some () ↔
      rs2.toNat < 32 ∧ rs1.toNat < 32 ∧
      ∃ o : StoreOp, o.funct3 = f3.setWidth 3 ∧ op = opIdsOf (.store o 0 0 0) := by
  have h0 : (0b0100011#32 : U32) = sType 0 0 0 0 0b0100011#7 := by decide
  have ht : testS dbg imm rs2 rs1 f3 0b0100011#32 op =
      checkWord dbg (sType (imm.setWidth 12) (rs2.setWidth 5) (rs1.setWidth 5) (f3.setWidth 3) 0b0100011#7)
        (wantEntry ((imm.setWidth 12).signExtend 32) rs2 rs1 0#32 op) := by
    rw [h0]
    simp [testS, setImm, getType, opcode_s, setFunct3, guardTy, okFunct3, setRs2, setRs1, okRs1, okRs2,
      C09_sext, fmt_imm_s, fmt_f3_s, fmt_rs1_s, fmt_rs2_s]
  have hop : getOpid dbg (sType (imm.setWidth 12) (rs2.setWidth 5) (rs1.setWidth 5) (f3.setWidth 3) 0b0100011#7) = some op ↔
      ∃ o : StoreOp, o.funct3 = f3.setWidth 3 ∧ op = opIdsOf (.store o 0 0 0) := by
    generalize f3.setWidth 3 = c
    constructor
    · intro h
      rcases bv3_cases c with rfl | rfl | rfl | rfl | rfl | rfl | rfl | rfl <;>
        simp [getOpid, getType, opcode_s, getFunct3, guardTy, okFunct3, funct3_s, opidStore] at h <;> subst h
      · exact ⟨.sb, rfl, rfl⟩
      · exact ⟨.sh, rfl, rfl⟩
      · exact ⟨.sw, rfl, rfl⟩
    · rintro ⟨o, rfl, rfl⟩
      cases o <;> exact C05_opid_legal dbg (.store _ (rs1.setWidth 5) (rs2.setWidth 5) (imm.setWidth 12))
  rw [ht, C80_check, hop, C01_imm_S, ← cut_iff rs2 5 (by omega), ← cut_iff rs1 5 (by omega)]
  simp [getRegisters, getType, opcode_s, getRs2, getRs1, guardTy, okRs1, okRs2, rs1_s, rs2_s]
  grind

/-- The word built by both I helpers. -/
theorem testI_word (dbg : Bool) (imm rs1 rd f3 : U32) (op : BitVec 7)
    (hop : op = 0b0010011#7 ∨ op = 0b0000011#7 ∨ op = 0b1100111#7) :
    ((setImm dbg (op.setWidth 32) imm).bind fun w => (setFunct3 dbg w f3).bind fun w =>
      (setRs1 dbg w rs1).bind fun w => setRd dbg w rd) =
      some (iType (imm.setWidth 12) (rs1.setWidth 5) (f3.setWidth 3) (rd.setWidth 5) op) := by
  have h0 : op.setWidth 32 = iType 0 0 0 0 op := by fld
  rw [h0]
  rcases hop with rfl | rfl | rfl <;>
  simp [setImm, getType, opcode_i, setFunct3, getFunct3, guardTy, okFunct3, setRs1, setRd, okRs1, okRd, isShiftImm,
    funct3_i, fmt_imm_i, fmt_f3_i, fmt_rs1_i, fmt_rd_i]

theorem testI_eq (dbg : Bool) (imm rs1 rd f3 : U32) (opc : BitVec 7) (op : OpIds)
    (hop : opc = 0b0010011#7 ∨ opc = 0b0000011#7 ∨ opc = 0b1100111#7) :
    testI dbg imm rs1 rd f3 (opc.setWidth 32) op =
      checkWord dbg (iType (imm.setWidth 12) (rs1.setWidth 5) (f3.setWidth 3) (rd.setWidth 5) opc)
        (wantEntry ((imm.setWidth 12).signExtend 32) 0#32 rs1 rd op) := by
  have h := testI_word dbg imm rs1 rd f3 opc hop
  have : ∀ g : U32 → Option Unit, ((setImm dbg (opc.setWidth 32) imm).bind fun w => (setFunct3 dbg w f3).bind fun w =>
      (setRs1 dbg w rs1).bind fun w => (setRd dbg w rd).bind g) =
      (((setImm dbg (opc.setWidth 32) imm).bind fun w => (setFunct3 dbg w f3).bind fun w =>
      (setRs1 dbg w rs1).bind fun w => setRd dbg w rd)).bind g := by
    intro g; simp [Option.bind_assoc]
  unfold testI
  rw [this, h]
  simp [C09_sext]

theorem regs_i (dbg : Bool) (i12 : BitVec 12) (rs1 rd : U32) (f3 : BitVec 3) (opc : BitVec 7)
    (hop : opc = 0b0010011#7 ∨ opc = 0b0000011#7 ∨ opc = 0b1100111#7) :
    getRegisters dbg (iType i12 (rs1.setWidth 5) f3 (rd.setWidth 5) opc) = some (0#32, rs1, rd) ↔
      rs1.toNat < 32 ∧ rd.toNat < 32 := by
  rw [← cut_iff rs1 5 (by omega), ← cut_iff rd 5 (by omega)]
  rcases hop with rfl | rfl | rfl <;>
  simp [getRegisters, getType, opcode_i, getRs1, getRd, guardTy, okRs1, okRd, rs1_i, rd_i]

/-- C80, loads. -/
theorem C80_load (dbg : Bool) (imm rs1 rd f3 : U32) (op : OpIds) :
    testI dbg imm rs1 rd f3 0b0000011#32 op = some () ↔
      rs1.toNat < 32 ∧ rd.toNat < 32 ∧
      ∃ o : LoadOp, o.funct3 = f3.setWidth 3 ∧ op = opIdsOf (.load o 0 0 0) := by
  have hop : getOpid dbg (iType (imm.setWidth 12) (rs1.setWidth 5) (f3.setWidth 3) (rd.setWidth 5) 0b0000011#7) = some op ↔
      ∃ o : LoadOp, o.funct3 = f3.setWidth 3 ∧ op = opIdsOf (.load o 0 0 0) := by
    generalize f3.setWidth 3 = c
    constructor
    · intro h
      rcases bv3_cases c with rfl | rfl | rfl | rfl | rfl | rfl | rfl | rfl <;>
        simp [getOpid, getType, opcode_i, getFunct3, guardTy, okFunct3, funct3_i, opidLoad] at h <;> subst h
      · exact ⟨.lb, rfl, rfl⟩
      · exact ⟨.lh, rfl, rfl⟩
      · exact ⟨.lw, rfl, rfl⟩
      · exact ⟨.lbu, rfl, rfl⟩
      · exact ⟨.lhu, rfl, rfl⟩
    · rintro ⟨o, rfl, rfl⟩
      cases o <;> exact C05_opid_legal dbg (.load _ (rd.setWidth 5) (rs1.setWidth 5) (imm.setWidth 12))
  have e := testI_eq dbg imm rs1 rd f3 0b0000011#7 op (by decide)
  rw [show (0b0000011#7 : BitVec 7).setWidth 32 = 0b0000011#32 from rfl] at e
  rw [e, C80_check, hop, C01_imm_I _ _ _ _ _ _ (by decide) (by simp), regs_i _ _ _ _ _ _ (by decide)]
  simp [and_assoc]

/-- C80, JALR: the decoder does not look at funct3. -/
theorem C80_jalr (dbg : Bool) (imm rs1 rd f3 : U32) (op : OpIds) :
    testI dbg imm rs1 rd f3 0b1100111#32 op = some () ↔
      rs1.toNat < 32 ∧ rd.toNat < 32 ∧ op = opIdsOf (.jalr 0 0 0) := by
  have hop : getOpid dbg (iType (imm.setWidth 12) (rs1.setWidth 5) (f3.setWidth 3) (rd.setWidth 5) 0b1100111#7) = some op ↔
      op = opIdsOf (.jalr 0 0 0) := by
    simp [getOpid, getType, opcode_i, getFunct3, guardTy, okFunct3, opIdsOf, expectedRd, expectedRam, expectedPc]
    exact eq_comm
  have e := testI_eq dbg imm rs1 rd f3 0b1100111#7 op (by decide)
  rw [show (0b1100111#7 : BitVec 7).setWidth 32 = 0b1100111#32 from rfl] at e
  rw [e, C80_check, hop, C01_imm_I _ _ _ _ _ _ (by decide) (by simp), regs_i _ _ _ _ _ _ (by decide)]
  simp [and_assoc]

/-- C80, register-immediate instructions other than shifts. -/
theorem C80_opImm (dbg : Bool) (imm rs1 rd f3 : U32) (op : OpIds) (h1 : f3.setWidth 3 ≠ 1#3) (h5 : f3.setWidth 3 ≠ 5#3) :
    testI dbg imm rs1 rd f3 0b0010011#32 op = some () ↔
      rs1.toNat < 32 ∧ rd.toNat < 32 ∧
      ∃ o : ImmOp, o.funct3 = f3.setWidth 3 ∧ op = opIdsOf (.opImm o 0 0 0) := by
  have hop : getOpid dbg (iType (imm.setWidth 12) (rs1.setWidth 5) (f3.setWidth 3) (rd.setWidth 5) 0b0010011#7) = some op ↔
      ∃ o : ImmOp, o.funct3 = f3.setWidth 3 ∧ op = opIdsOf (.opImm o 0 0 0) := by
    generalize f3.setWidth 3 = c at h1 h5
    constructor
    · intro h
      rcases bv3_cases c with rfl | rfl | rfl | rfl | rfl | rfl | rfl | rfl <;>
        simp [getOpid, getType, opcode_i, getFunct3, guardTy, okFunct3, funct3_i, opidOpImm] at h h1 h5 <;> subst h
      · exact ⟨.addi, rfl, rfl⟩
      · exact ⟨.slti, rfl, rfl⟩
      · exact ⟨.sltiu, rfl, rfl⟩
      · exact ⟨.xori, rfl, rfl⟩
      · exact ⟨.ori, rfl, rfl⟩
      · exact ⟨.andi, rfl, rfl⟩
    · rintro ⟨o, rfl, rfl⟩
      cases o <;> exact C05_opid_legal dbg (.opImm _ (rd.setWidth 5) (rs1.setWidth 5) (imm.setWidth 12))
  have e := testI_eq dbg imm rs1 rd f3 0b0010011#7 op (by decide)
  rw [show (0b0010011#7 : BitVec 7).setWidth 32 = 0b0010011#32 from rfl] at e
  rw [e, C80_check, hop, C01_imm_I _ _ _ _ _ _ (by decide) (by simp [h1, h5]), regs_i _ _ _ _ _ _ (by decide)]
  simp [and_assoc]

/-- C80, shifts by an immediate: bits 5 to 11 of the immediate play the part of funct7 for the right
shifts and are ignored for SLLI. -/
theorem C80_shift (dbg : Bool) (imm rs1 rd f3 : U32) (op : OpIds) (h : f3.setWidth 3 = 1#3 ∨ f3.setWidth 3 = 5#3) :
    testShamt dbg imm rs1 rd f3 op = some () ↔
      rs1.toNat < 32 ∧ rd.toNat < 32 ∧
      ∃ o : ShiftOp, o.funct3 = f3.setWidth 3 ∧ (o ≠ .slli → o.funct7 = imm.extractLsb' 5 7) ∧
        op = opIdsOf (.shImm o 0 0 0) := by
  have ht : testShamt dbg imm rs1 rd f3 op =
      checkWord dbg (rType (imm.extractLsb' 5 7) (imm.setWidth 5) (rs1.setWidth 5) (f3.setWidth 3) (rd.setWidth 5) 0b0010011#7)
        (wantEntry ((imm.setWidth 5).setWidth 32) 0#32 rs1 rd op) := by
    have h := testI_word dbg imm rs1 rd f3 0b0010011#7 (by decide)
    rw [show (0b0010011#7 : BitVec 7).setWidth 32 = 0b0010011#32 from rfl] at h
    have : ∀ g : U32 → Option Unit, ((setImm dbg 0b0010011#32 imm).bind fun w => (setFunct3 dbg w f3).bind fun w =>
        (setRs1 dbg w rs1).bind fun w => (setRd dbg w rd).bind g) =
        (((setImm dbg 0b0010011#32 imm).bind fun w => (setFunct3 dbg w f3).bind fun w =>
        (setRs1 dbg w rs1).bind fun w => setRd dbg w rd)).bind g := by
      intro g; simp [Option.bind_assoc]
    unfold testShamt
    rw [this, h, Option.bind_some, fmt_i_r]
    have e1 : (imm.setWidth 12).extractLsb' 5 7 = imm.extractLsb' 5 7 := by
      apply BitVec.eq_of_getLsbD_eq
      intro i hi
      simp only [BitVec.getLsbD_extractLsb', BitVec.getLsbD_setWidth]
      have : 5 + i < 12 := by omega
      simp [this]
    have e2 : (imm.setWidth 12).extractLsb' 0 5 = imm.setWidth 5 := by
      apply BitVec.eq_of_getLsbD_eq
      intro i hi
      have : i < 12 := by omega
      simp [-BitVec.getLsbD_eq_getElem, hi, this]
    have e3 : imm &&& 0x1F#32 = (imm.setWidth 5).setWidth 32 := by bits32
    rw [e1, e2, e3]
  have hregs : getRegisters dbg (rType (imm.extractLsb' 5 7) (imm.setWidth 5) (rs1.setWidth 5) (f3.setWidth 3) (rd.setWidth 5) 0b0010011#7) =
      some (0#32, rs1, rd) ↔ rs1.toNat < 32 ∧ rd.toNat < 32 := by
    rw [← cut_iff rs1 5 (by omega), ← cut_iff rd 5 (by omega)]
    simp [getRegisters, getType, opcode_r, getRs1, getRd, guardTy, okRs1, okRd, rs1_r, rd_r]
  have hop : getOpid dbg (rType (imm.extractLsb' 5 7) (imm.setWidth 5) (rs1.setWidth 5) (f3.setWidth 3) (rd.setWidth 5) 0b0010011#7) = some op ↔
      ∃ o : ShiftOp, o.funct3 = f3.setWidth 3 ∧ (o ≠ .slli → o.funct7 = imm.extractLsb' 5 7) ∧
        op = opIdsOf (.shImm o 0 0 0) := by
    have h7 : ∀ c d : BitVec 7, c.setWidth 32 = d.setWidth 32 ↔ c = d := by
      intro c d; constructor
      · intro h
        have := congrArg (BitVec.setWidth 7) h
        simpa using this
      · rintro rfl; rfl
    generalize f3.setWidth 3 = c at h
    generalize imm.extractLsb' 5 7 = f7
    have e0 := h7 f7 0#7
    have e32 := h7 f7 0b0100000#7
    simp only [show BitVec.setWidth 32 0#7 = 0#32 from rfl] at e0
    simp only [show BitVec.setWidth 32 0b0100000#7 = 0b0100000#32 from rfl] at e32
    rcases h with rfl | rfl
    · simp only [getOpid, getType, opcode_r, getFunct3, guardTy, okFunct3, funct3_r, opidOpImm]
      constructor
      · intro h
        simp at h
        exact ⟨.slli, rfl, by simp, h.symm⟩
      · rintro ⟨o, ho, -, rfl⟩
        cases o
        · simp [opIdsOf, expectedRd, expectedRam, expectedPc]
        · exact absurd ho (by decide)
        · exact absurd ho (by decide)
    · simp only [getOpid, getType, opcode_r, getFunct3, guardTy, okFunct3, funct3_r, opidOpImm, getFunct7, okGetFunct7, funct7_r]
      constructor
      · intro h
        simp [e0, e32] at h
        by_cases h0 : f7 = 0#7
        · simp [h0] at h
          exact ⟨.srli, rfl, fun _ => h0.symm, h.symm⟩
        · by_cases h1 : f7 = 32#7
          · simp [h0, h1] at h
            exact ⟨.srai, rfl, fun _ => h1.symm, h.symm⟩
          · simp [h0, h1] at h
      · rintro ⟨o, ho, h7', rfl⟩
        cases o
        · exact absurd ho (by decide)
        · have := h7' (by decide)
          subst this
          simp [opIdsOf, expectedRd, expectedRam, expectedPc, ShiftOp.funct7]
        · have := h7' (by decide)
          subst this
          simp [opIdsOf, expectedRd, expectedRam, expectedPc, ShiftOp.funct7]
  rw [ht, C80_check, hop, hregs, C01_imm_shift _ _ _ _ _ _ h]
  simp [and_assoc]

/-- C80, jumps. -/
theorem C80_J (dbg : Bool) (imm rd : U32) (op : OpIds) :
    testJ dbg imm rd 0b1101111#32 op = some () ↔
      imm.toNat % 2 = 0 ∧ rd.toNat < 32 ∧ op = opIdsOf (.jal 0 0) := by
  have h0 : (0b1101111#32 : U32) = jType 0 0 0b1101111#7 := by decide
  have ht : testJ dbg imm rd 0b1101111#32 op =
      checkWord dbg (jType ((imm >>> 1).setWidth 20) (rd.setWidth 5) 0b1101111#7)
        (wantEntry ((imm.setWidth 21).signExtend 32) 0#32 0#32 rd op) := by
    rw [h0]
    simp [testJ, setImm, getType, opcode_j, guardTy, setRd, okRd, C09_sext, fmt_imm_j, fmt_rd_j]
  have himm : immJ ((imm >>> 1).setWidth 20) = (imm.setWidth 21).signExtend 32 &&& 0xFFFFFFFE#32 := by
    unfold immJ; bits32
  rw [ht, C80_check, C01_imm_J, ← even_iff imm 21 (by omega), ← himm, ← cut_iff rd 5 (by omega)]
  simp [getRegisters, getOpid, getType, opcode_j, getRd, guardTy, okRd, rd_j, immJ, opIdsOf, expectedRd, expectedRam, expectedPc]
  grind

/-- C80, LUI and AUIPC. -/
theorem C80_U (dbg : Bool) (imm rd : U32) (op : OpIds) :
    (testU dbg imm rd 0b0110111#32 op = some () ↔
      imm.toNat < 2 ^ 20 ∧ rd.toNat < 32 ∧ op = opIdsOf (.lui 0 0)) ∧
    (testU dbg imm rd 0b0010111#32 op = some () ↔
      imm.toNat < 2 ^ 20 ∧ rd.toNat < 32 ∧ op = opIdsOf (.auipc 0 0)) := by
  have h0 : (0b0110111#32 : U32) = uType 0 0 0b0110111#7 := by decide
  have h1 : (0b0010111#32 : U32) = uType 0 0 0b0010111#7 := by decide
  rw [← cut_iff imm 20 (by omega), ← cut_iff rd 5 (by omega)]
  constructor
  · have ht : testU dbg imm rd 0b0110111#32 op =
        checkWord dbg (uType (imm.setWidth 20) (rd.setWidth 5) 0b0110111#7) (wantEntry imm 0#32 0#32 rd op) := by
      rw [h0]
      simp [testU, setImm, getType, opcode_u, guardTy, setRd, okRd, fmt_imm_u, fmt_rd_u]
    rw [ht, C80_check, C01_imm_U _ _ _ _ (by decide)]
    simp [getRegisters, getOpid, getType, opcode_u, getRd, guardTy, okRd, rd_u, opIdsOf, expectedRd, expectedRam, expectedPc]
    grind
  · have ht : testU dbg imm rd 0b0010111#32 op =
        checkWord dbg (uType (imm.setWidth 20) (rd.setWidth 5) 0b0010111#7) (wantEntry imm 0#32 0#32 rd op) := by
      rw [h1]
      simp [testU, setImm, getType, opcode_u, guardTy, setRd, okRd, fmt_imm_u, fmt_rd_u]
    rw [ht, C80_check, C01_imm_U _ _ _ _ (by decide)]
    simp [getRegisters, getOpid, getType, opcode_u, getRd, guardTy, okRd, rd_u, opIdsOf, expectedRd, expectedRam, expectedPc]
    grind

theorem bv7_inj (c d : BitVec 7) : c.setWidth 32 = d.setWidth 32 ↔ c = d := by
  constructor
  · intro h
    have := congrArg (BitVec.setWidth 7) h
    simpa using this
  · rintro rfl; rfl

/-- C80, register-register instructions. -/
theorem C80_R (dbg : Bool) (rs2 rs1 rd f7 f3 : U32) (op : OpIds) :
    testR dbg rs2 rs1 rd f7 f3 0b0110011#32 op = some () ↔
      rs2.toNat < 32 ∧ rs1.toNat < 32 ∧ rd.toNat < 32 ∧
      ((∃ o : RegOp, o.funct7 = f7.setWidth 7 ∧ o.funct3 = f3.setWidth 3 ∧ op = opIdsOf (.op o 0 0 0)) ∨
       (∃ o : MulOp, 1#7 = f7.setWidth 7 ∧ o.funct3 = f3.setWidth 3 ∧ op = opIdsOf (.mul o 0 0 0))) := by
  have h0 : (0b0110011#32 : U32) = rType 0 0 0 0 0 0b0110011#7 := by decide
  have ht : testR dbg rs2 rs1 rd f7 f3 0b0110011#32 op =
      checkWord dbg (rType (f7.setWidth 7) (rs2.setWidth 5) (rs1.setWidth 5) (f3.setWidth 3) (rd.setWidth 5) 0b0110011#7)
        (wantEntry 0#32 rs2 rs1 rd op) := by
    rw [h0]
    simp [testR, getType, opcode_r, setFunct3, setFunct7, guardTy, okFunct3, okSetFunct7, setRs2, setRs1, setRd, okRs1, okRs2,
      okRd, fmt_f3_r, fmt_f7_r, fmt_rs1_r, fmt_rs2_r, fmt_rd_r]
  have hop : getOpid dbg (rType (f7.setWidth 7) (rs2.setWidth 5) (rs1.setWidth 5) (f3.setWidth 3) (rd.setWidth 5) 0b0110011#7) = some op ↔
      ((∃ o : RegOp, o.funct7 = f7.setWidth 7 ∧ o.funct3 = f3.setWidth 3 ∧ op = opIdsOf (.op o 0 0 0)) ∨
       (∃ o : MulOp, 1#7 = f7.setWidth 7 ∧ o.funct3 = f3.setWidth 3 ∧ op = opIdsOf (.mul o 0 0 0))) := by
    generalize f3.setWidth 3 = c
    generalize f7.setWidth 7 = d
    constructor
    · intro h
      have e0 := bv7_inj d 0#7
      have e1 := bv7_inj d 1#7
      have e32 := bv7_inj d 32#7
      simp only [show BitVec.setWidth 32 0#7 = 0#32 from rfl] at e0
      simp only [show BitVec.setWidth 32 1#7 = 1#32 from rfl] at e1
      simp only [show BitVec.setWidth 32 32#7 = 32#32 from rfl] at e32
      by_cases d0 : d = 0#7
      · subst d0
        left
        rcases bv3_cases c with rfl | rfl | rfl | rfl | rfl | rfl | rfl | rfl <;>
          simp [getOpid, getType, opcode_r, getFunct3, getFunct7, guardTy, okFunct3, okGetFunct7, funct3_r, funct7_r, opidR] at h <;> subst h
        · exact ⟨.add, rfl, rfl, rfl⟩
        · exact ⟨.sll, rfl, rfl, rfl⟩
        · exact ⟨.slt, rfl, rfl, rfl⟩
        · exact ⟨.sltu, rfl, rfl, rfl⟩
        · exact ⟨.xor, rfl, rfl, rfl⟩
        · exact ⟨.srl, rfl, rfl, rfl⟩
        · exact ⟨.or, rfl, rfl, rfl⟩
        · exact ⟨.and, rfl, rfl, rfl⟩
      by_cases d1 : d = 1#7
      · subst d1
        right
        rcases bv3_cases c with rfl | rfl | rfl | rfl | rfl | rfl | rfl | rfl <;>
          simp [getOpid, getType, opcode_r, getFunct3, getFunct7, guardTy, okFunct3, okGetFunct7, funct3_r, funct7_r, opidR] at h <;> subst h
        · exact ⟨.mul, rfl, rfl, rfl⟩
        · exact ⟨.mulh, rfl, rfl, rfl⟩
        · exact ⟨.mulhsu, rfl, rfl, rfl⟩
        · exact ⟨.mulhu, rfl, rfl, rfl⟩
        · exact ⟨.div, rfl, rfl, rfl⟩
        · exact ⟨.divu, rfl, rfl, rfl⟩
        · exact ⟨.rem, rfl, rfl, rfl⟩
        · exact ⟨.remu, rfl, rfl, rfl⟩
      by_cases d32 : d = 32#7
      · subst d32
        left
        rcases bv3_cases c with rfl | rfl | rfl | rfl | rfl | rfl | rfl | rfl <;>
          simp [getOpid, getType, opcode_r, getFunct3, getFunct7, guardTy, okFunct3, okGetFunct7, funct3_r, funct7_r, opidR] at h <;> subst h
        · exact ⟨.sub, rfl, rfl, rfl⟩
        · exact ⟨.sra, rfl, rfl, rfl⟩
      · simp [getOpid, getType, opcode_r, getFunct3, getFunct7, guardTy, okFunct3, okGetFunct7, funct3_r, funct7_r, opidR,
          e0, e1, e32, d0, d1, d32] at h
    · rintro (⟨o, rfl, rfl, rfl⟩ | ⟨o, rfl, rfl, rfl⟩)
      · cases o <;> exact C05_opid_legal dbg (.op _ (rd.setWidth 5) (rs1.setWidth 5) (rs2.setWidth 5))
      · cases o <;> exact C05_opid_legal dbg (.mul _ (rd.setWidth 5) (rs1.setWidth 5) (rs2.setWidth 5))
  rw [ht, C80_check, hop, C01_imm_R, ← cut_iff rs2 5 (by omega), ← cut_iff rs1 5 (by omega), ← cut_iff rd 5 (by omega)]
  simp [getRegisters, getType, opcode_r, getRs2, getRs1, getRd, guardTy, okRs1, okRs2, okRd, rs1_r, rs2_r, rd_r, and_assoc]

/-! ## Tests of every instruction -/

/-- The test that the files would contain for an arbitrary instruction: its own operands in place of the
constants, with the helper of its format, expecting the ids `op`. -/
def testOf (dbg : Bool) (op : OpIds) : Instr → Option Unit
  | .lui rd imm => testU dbg (imm.setWidth 32) (rd.setWidth 32) 0b0110111#32 op
  | .auipc rd imm => testU dbg (imm.setWidth 32) (rd.setWidth 32) 0b0010111#32 op
  | .jal rd imm => testJ dbg (immJ imm) (rd.setWidth 32) 0b1101111#32 op
  | .jalr rd rs1 imm => testI dbg (immI imm) (rs1.setWidth 32) (rd.setWidth 32) 0#32 0b1100111#32 op
  | .branch o rs1 rs2 imm => testB dbg (immB imm) (rs2.setWidth 32) (rs1.setWidth 32) (o.funct3.setWidth 32) 0b1100011#32 op
  | .load o rd rs1 imm => testI dbg (immI imm) (rs1.setWidth 32) (rd.setWidth 32) (o.funct3.setWidth 32) 0b0000011#32 op
  | .store o rs1 rs2 imm => testS dbg (immI imm) (rs2.setWidth 32) (rs1.setWidth 32) (o.funct3.setWidth 32) 0b0100011#32 op
  | .opImm o rd rs1 imm => testI dbg (immI imm) (rs1.setWidth 32) (rd.setWidth 32) (o.funct3.setWidth 32) 0b0010011#32 op
  | .shImm o rd rs1 sh => testShamt dbg ((o.funct7 ++ sh).setWidth 32) (rs1.setWidth 32) (rd.setWidth 32) (o.funct3.setWidth 32) op
  | .op o rd rs1 rs2 => testR dbg (rs2.setWidth 32) (rs1.setWidth 32) (rd.setWidth 32) (o.funct7.setWidth 32) (o.funct3.setWidth 32) 0b0110011#32 op
  | .mul o rd rs1 rs2 => testR dbg (rs2.setWidth 32) (rs1.setWidth 32) (rd.setWidth 32) 1#32 (o.funct3.setWidth 32) 0b0110011#32 op

/-- C80: for every instruction of RV32IM with any operands, in both build profiles, its test passes
exactly if it expects the operation ids of that instruction. -/
theorem C80_every_instruction (dbg : Bool) (op : OpIds) (i : Instr) :
    testOf dbg op i = some () ↔ op = opIdsOf i := by
  have r5 : ∀ r : Reg, (r.setWidth 32).toNat < 32 := fun r => by
    have := r.isLt
    rw [BitVec.toNat_setWidth]; omega
  have f3 : ∀ c : BitVec 3, (c.setWidth 32).setWidth 3 = c := by decide
  have f7 : ∀ c : BitVec 7, (c.setWidth 32).setWidth 7 = c := by decide +kernel
  have even : ∀ x : U32, (x <<< 1).toNat % 2 = 0 := fun x => by
    rw [BitVec.toNat_shiftLeft, Nat.shiftLeft_eq]; omega
  have u20 : ∀ x : BitVec 20, (x.setWidth 32).toNat < 2 ^ 20 := fun x => by
    have := x.isLt
    rw [BitVec.toNat_setWidth]; omega
  cases i with
  | lui rd imm => simp only [testOf, (C80_U dbg _ _ op).1, r5, u20, true_and]; rfl
  | auipc rd imm => simp only [testOf, (C80_U dbg _ _ op).2, r5, u20, true_and]; rfl
  | jal rd imm => simp only [testOf, C80_J, r5, immJ, even, true_and]; rfl
  | jalr rd rs1 imm => simp only [testOf, C80_jalr, r5, true_and]; rfl
  | branch o rs1 rs2 imm =>
    simp only [testOf, C80_B, r5, immB, even, true_and, f3]
    constructor
    · rintro ⟨o', h, rfl⟩
      have : o' = o := by revert h; cases o <;> cases o' <;> decide
      subst this; cases o' <;> rfl
    · rintro rfl; exact ⟨o, rfl, by cases o <;> rfl⟩
  | load o rd rs1 imm =>
    simp only [testOf, C80_load, r5, true_and, f3]
    constructor
    · rintro ⟨o', h, rfl⟩
      have : o' = o := by revert h; cases o <;> cases o' <;> decide
      subst this; cases o' <;> rfl
    · rintro rfl; exact ⟨o, rfl, by cases o <;> rfl⟩
  | store o rs1 rs2 imm =>
    simp only [testOf, C80_S, r5, true_and, f3]
    constructor
    · rintro ⟨o', h, rfl⟩
      have : o' = o := by revert h; cases o <;> cases o' <;> decide
      subst this; cases o' <;> rfl
    · rintro rfl; exact ⟨o, rfl, by cases o <;> rfl⟩
  | opImm o rd rs1 imm =>
    rw [testOf, C80_opImm _ _ _ _ _ _ (by cases o <;> decide) (by cases o <;> decide)]
    simp only [r5, true_and, f3]
    constructor
    · rintro ⟨o', h, rfl⟩
      have : o' = o := by revert h; cases o <;> cases o' <;> decide
      subst this; cases o' <;> rfl
    · rintro rfl; exact ⟨o, rfl, by cases o <;> rfl⟩
  | shImm o rd rs1 sh =>
    have e7 : ((o.funct7 ++ sh).setWidth 32).extractLsb' 5 7 = o.funct7 := by
      revert sh; cases o <;> decide
    rw [testOf, C80_shift _ _ _ _ _ _ (by cases o <;> decide)]
    simp only [r5, true_and, f3, e7]
    constructor
    · rintro ⟨o', h, h', rfl⟩
      have : o' = o := by revert h h'; cases o <;> cases o' <;> decide
      subst this; cases o' <;> rfl
    · rintro rfl; exact ⟨o, rfl, fun _ => rfl, by cases o <;> rfl⟩
  | op o rd rs1 rs2 =>
    simp only [testOf, C80_R, r5, true_and, f3, f7]
    constructor
    · rintro (⟨o', h, h', rfl⟩ | ⟨o', h, _⟩)
      · have : o' = o := by revert h h'; cases o <;> cases o' <;> decide
        subst this; cases o' <;> rfl
      · exact absurd h (by cases o <;> decide)
    · rintro rfl; exact Or.inl ⟨o, rfl, rfl, by cases o <;> rfl⟩
  | mul o rd rs1 rs2 =>
    simp only [testOf, C80_R, r5, true_and, f3, show (1#32).setWidth 7 = 1#7 from rfl]
    constructor
    · rintro (⟨o', h, _⟩ | ⟨o', h', rfl⟩)
      · exact absurd h (by cases o' <;> decide)
      · have : o' = o := by revert h'; cases o <;> cases o' <;> decide
        subst this; cases o' <;> rfl
    · rintro rfl; exact Or.inr ⟨o, rfl, by cases o <;> rfl⟩

/-- C80: all tests of the six files pass, in both build profiles. -/
theorem C80_tests_pass (dbg : Bool) :
    (∀ t ∈ formatTests dbg, t = some ()) ∧
    immEncodings BType.getImmediate IType.getImmediate JType.getImmediate SType.getImmediate UType.getImmediate =
      List.replicate 5 true := by
  revert dbg
  decide +kernel

/-- They are 45 tests, and the expected ids of each are needed: with the ids of another operation the
test fails. -/
example : (formatTests true).length = 45 ∧
    testB true 6#32 1#32 2#32 0#32 0b1100011#32 (.NONE, .NONE, .BNE) = none ∧
    testB true 7#32 1#32 2#32 0#32 0b1100011#32 (.NONE, .NONE, .BEQ) = none ∧
    testR true 32#32 1#32 2#32 0#32 0#32 0b0110011#32 (onlyRd .ADD) = none := by decide +kernel

/-! ## What the `imm_encoding` tests determine -/

/-- `g` treats the bits of a word independently. -/
def BitLinear (g : U32 → U32) : Prop := ∀ a b, g (a ^^^ b) = g a ^^^ g b

theorem BitLinear.zero {g : U32 → U32} (h : BitLinear g) : g 0#32 = 0#32 := by
  have := h 0#32 0#32
  simpa using this

/-- A function that treats bits independently is known from the single bits. -/
theorem BitLinear.ext {f g : U32 → U32} (hf : BitLinear f) (hg : BitLinear g)
    (h : ∀ i, i < 32 → f (1#32 <<< i) = g (1#32 <<< i)) (x : U32) : f x = g x := by
  have key : ∀ n, n ≤ 32 → ∀ x : U32, (∀ k, n ≤ k → x.getLsbD k = false) → f x = g x := by
    intro n
    induction n with
    | zero =>
      intro _ x hx
      have : x = 0#32 := by
        apply BitVec.eq_of_getLsbD_eq
        intro k _
        rw [hx k (by omega)]; simp
      rw [this, hf.zero, hg.zero]
    | succ n ih =>
      intro hn x hx
      by_cases hb : x.getLsbD n = true
      · have e : x = (x ^^^ (1#32 <<< n)) ^^^ (1#32 <<< n) := by
          rw [BitVec.xor_assoc, BitVec.xor_self, BitVec.xor_zero]
        have hy : f (x ^^^ (1#32 <<< n)) = g (x ^^^ (1#32 <<< n)) := by
          apply ih (by omega)
          intro k hk
          rw [BitVec.getLsbD_xor, BitVec.getLsbD_shiftLeft]
          by_cases hkn : k = n
          · subst hkn
            simp [-BitVec.getLsbD_eq_getElem, hb, show k < 32 by omega]
          · rw [hx k (by omega)]
            have : k - n ≠ 0 := by omega
            simp [-BitVec.getLsbD_eq_getElem, this, BitVec.getLsbD_one]
        rw [e, hf, hg, hy, h n (by omega)]
      · apply ih (by omega)
        intro k hk
        by_cases hkn : k = n
        · subst hkn; simpa using hb
        · exact hx k (by omega)
  exact key 32 (Nat.le_refl _) x fun k hk => BitVec.getLsbD_of_ge _ _ hk

theorem linear_comp {f g : U32 → U32} (hf : BitLinear f) (hg : BitLinear g) : BitLinear (fun x => f (g x)) :=
  fun a b => by
    show f (g (a ^^^ b)) = f (g a) ^^^ f (g b)
    rw [hg, hf]

theorem linB : BitLinear (BType.setImmediate 0#32) ∧ BitLinear BType.getImmediate := by
  constructor <;> intro a b
  · simp only [BType.setImmediate]; bits32
  · simp only [BType.getImmediate, signmask]; bits32
theorem linI : BitLinear (IType.setImmediate 0#32) ∧ BitLinear IType.getImmediate := by
  constructor <;> intro a b
  · simp only [IType.setImmediate]; bits32
  · simp only [IType.getImmediate, signmask]; bits32
theorem linJ : BitLinear (JType.setImmediate 0#32) ∧ BitLinear JType.getImmediate := by
  constructor <;> intro a b
  · simp only [JType.setImmediate]; bits32
  · simp only [JType.getImmediate, signmask]; bits32
theorem linS : BitLinear (SType.setImmediate 0#32) ∧ BitLinear SType.getImmediate := by
  constructor <;> intro a b
  · simp only [SType.setImmediate]; bits32
  · simp only [SType.getImmediate, signmask]; bits32
theorem linU : BitLinear (UType.setImmediate 0#32) ∧ BitLinear UType.getImmediate := by
  constructor <;> intro a b
  · simp only [UType.setImmediate]; bits32
  · simp only [UType.getImmediate]; bits32

theorem enc_det (set : U32 → U32 → U32) (get g : U32 → U32) (want : U32 → Option U32) (lo hi : Nat)
    (hs : BitLinear (set 0#32)) (hget : BitLinear get) (hg : BitLinear g)
    (hout : ∀ i, i < 32 → ¬(lo ≤ i ∧ i < hi) → set 0#32 (1#32 <<< i) = 0#32)
    (h1 : immEncoding set get want lo hi = true) (h2 : immEncoding set g want lo hi = true) (imm : U32) :
    g (set 0#32 imm) = get (set 0#32 imm) := by
  refine BitLinear.ext (linear_comp hg hs) (linear_comp hget hs) (fun i hi' => ?_) imm
  by_cases hr : lo ≤ i ∧ i < hi
  · simp only [immEncoding, List.all_eq_true, decide_eq_true_eq] at h1 h2
    have hm : i ∈ List.range' lo (hi - lo) := by rw [List.mem_range'_1]; omega
    have := h1 i hm
    rw [h2 i hm] at this
    exact Option.some.inj this
  · show g _ = get _
    rw [hout i hi' hr, hg.zero, hget.zero]

/-- C80: a decoder of immediates that treats the bits independently and passes the `imm_encoding` test
of its format is right on every word that `set_immediate` builds from 0, for every immediate. -/
theorem C80_encoding_complete (gB gI gJ gS gU : U32 → U32)
    (hl : BitLinear gB ∧ BitLinear gI ∧ BitLinear gJ ∧ BitLinear gS ∧ BitLinear gU)
    (h : immEncodings gB gI gJ gS gU = List.replicate 5 true) (imm : U32) :
    gB (BType.setImmediate 0#32 imm) = (imm.setWidth 13).signExtend 32 &&& 0xFFFFFFFE#32 ∧
    gI (IType.setImmediate 0#32 imm) = (imm.setWidth 12).signExtend 32 ∧
    gJ (JType.setImmediate 0#32 imm) = (imm.setWidth 21).signExtend 32 &&& 0xFFFFFFFE#32 ∧
    gS (SType.setImmediate 0#32 imm) = (imm.setWidth 12).signExtend 32 ∧
    gU (UType.setImmediate 0#32 imm) = (imm.setWidth 20).setWidth 32 := by
  have h0 := (C80_tests_pass true).2
  simp only [immEncodings, List.replicate, List.cons.injEq, and_true] at h h0
  obtain ⟨b, i, j, s, u⟩ := h
  obtain ⟨b0, i0, j0, s0, u0⟩ := h0
  obtain ⟨lb, li, lj, ls, lu⟩ := hl
  refine ⟨?_, ?_, ?_, ?_, ?_⟩
  · rw [enc_det _ _ _ _ _ _ linB.1 linB.2 lb (by decide +kernel) b0 b, b_get_set]
  · rw [enc_det _ _ _ _ _ _ linI.1 linI.2 li (by decide +kernel) i0 i, i_get_set]
  · rw [enc_det _ _ _ _ _ _ linJ.1 linJ.2 lj (by decide +kernel) j0 j, j_get_set]
  · rw [enc_det _ _ _ _ _ _ linS.1 linS.2 ls (by decide +kernel) s0 s, s_get_set]
  · rw [enc_det _ _ _ _ _ _ linU.1 linU.2 lu (by decide +kernel) u0 u, u_get_set]

/-- A wrong decoder: the lowest bit of the funct3 field leaks into bit 5 of the immediate. -/
def leakyI (w : U32) : U32 := IType.getImmediate w ^^^ ((w >>> 7) &&& 0x20#32)

/-- C80: the `imm_encoding` tests do not see the other fields, because they start from the word 0: a
decoder that mixes a funct3 bit into the immediate treats bits independently and passes, but is wrong on
real instructions (here a load of a half-word). -/
theorem C80_encoding_blind :
    BitLinear leakyI ∧ immEncoding IType.setImmediate leakyI (sext · 11) 0 12 = true ∧
    leakyI (encode (.load .lh 5#5 6#5 0#12)) ≠ immI 0#12 := by
  refine ⟨?_, by decide +kernel, by decide⟩
  intro a b
  have h := linI.2 a b
  have e : ((a ^^^ b) >>> 7) &&& 0x20#32 = ((a >>> 7) &&& 0x20#32) ^^^ ((b >>> 7) &&& 0x20#32) := by bits32
  simp only [leakyI, h, e]
  generalize IType.getImmediate a = p
  generalize IType.getImmediate b = q
  generalize (a >>> 7) &&& 0x20#32 = r
  generalize (b >>> 7) &&& 0x20#32 = s
  rw [BitVec.xor_assoc, BitVec.xor_assoc, ← BitVec.xor_assoc q, BitVec.xor_comm q r, BitVec.xor_assoc r]

/-- `assert_size` looks at both lists. -/
example : (⟨[0#64], [0#64], []⟩ : Parser).assertSize 1 = some () ∧ (⟨[0#64], [], []⟩ : Parser).assertSize 1 = none ∧
    (⟨[], [0#64], []⟩ : Parser).assertSize 1 = none := by decide

end Verif.Props
