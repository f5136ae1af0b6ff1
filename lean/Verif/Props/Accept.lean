import Verif.Props.Decode
import Verif.Lemmas.Decompose
/-
  Property C06: exactly which words the VM decoder accepts, and what it does with the words that
  are not RV32IM instructions.
-/
namespace Verif.Props
open Spec Model

/-- Words accepted: legal RV32IM instructions, plus three families of words that the manual does
not define as RV32IM instructions (SLLI with any funct7, JALR with any funct3, any SYSTEM word). -/
def Accepted (w : Word) : Prop :=
  (∃ i, w = encode i)
  ∨ (∃ f7 sh rs1 rd, w = rType f7 sh rs1 0b001#3 rd 0b0010011#7)
  ∨ (∃ imm rs1 f3 rd, w = iType imm rs1 f3 rd 0b1100111#7)
  ∨ w.extractLsb' 0 7 = 0b1110011#7

theorem opidR_some : ∀ (f7 : BitVec 7) (f3 : BitVec 3),
    (opidR (f7.setWidth 32) (f3.setWidth 32)).isSome = true →
      (∃ o : RegOp, f7 = o.funct7 ∧ f3 = o.funct3) ∨ (∃ o : MulOp, f7 = 1#7 ∧ f3 = o.funct3) := by
  have h : ∀ (f7 : BitVec 7) (f3 : BitVec 3),
    (opidR (f7.setWidth 32) (f3.setWidth 32)).isSome = true →
      (([RegOp.add, .sub, .sll, .slt, .sltu, .xor, .srl, .sra, .or, .and].any
        (fun o => f7 = o.funct7 ∧ f3 = o.funct3)) = true) ∨
      (([MulOp.mul, .mulh, .mulhsu, .mulhu, .div, .divu, .rem, .remu].any
        (fun o => f7 = 1#7 ∧ f3 = o.funct3)) = true) := by
    decide +kernel
  intro f7 f3 hs
  rcases h f7 f3 hs with h | h
  · obtain ⟨o, _, ho⟩ := List.any_eq_true.mp h
    exact Or.inl ⟨o, by simpa using ho⟩
  · obtain ⟨o, _, ho⟩ := List.any_eq_true.mp h
    exact Or.inr ⟨o, by simpa using ho⟩

theorem opidLoad_some : ∀ (f3 : BitVec 3), (opidLoad (f3.setWidth 32)).isSome = true →
    ∃ o : LoadOp, f3 = o.funct3 := by
  intro f3 h
  have : f3 = LoadOp.lb.funct3 ∨ f3 = LoadOp.lh.funct3 ∨ f3 = LoadOp.lw.funct3 ∨
      f3 = LoadOp.lbu.funct3 ∨ f3 = LoadOp.lhu.funct3 := by revert f3; decide
  rcases this with h | h | h | h | h <;> exact ⟨_, h⟩

theorem opidStore_some : ∀ (f3 : BitVec 3), (opidStore (f3.setWidth 32)).isSome = true →
    ∃ o : StoreOp, f3 = o.funct3 := by
  intro f3 h
  have : f3 = StoreOp.sb.funct3 ∨ f3 = StoreOp.sh.funct3 ∨ f3 = StoreOp.sw.funct3 := by
    revert f3; decide
  rcases this with h | h | h <;> exact ⟨_, h⟩

theorem opidBranch_some : ∀ (f3 : BitVec 3), (opidBranch (f3.setWidth 32)).isSome = true →
    ∃ o : BranchOp, f3 = o.funct3 := by
  intro f3 h
  have : f3 = BranchOp.beq.funct3 ∨ f3 = BranchOp.bne.funct3 ∨ f3 = BranchOp.blt.funct3 ∨
      f3 = BranchOp.bge.funct3 ∨ f3 = BranchOp.bltu.funct3 ∨ f3 = BranchOp.bgeu.funct3 := by
    revert f3; decide
  rcases this with h | h | h | h | h | h <;> exact ⟨_, h⟩

/-- What the decoder does with the two non-RV32IM families other than SYSTEM. -/
theorem C06_slli_ignores_funct7 (dbg : Bool) (f7 : BitVec 7) (sh rs1 rd : Reg) :
    getOpid dbg (rType f7 sh rs1 0b001#3 rd 0b0010011#7) = some (.SLLI, .NONE, .NONE) := by
  simp [getOpid, getType, opcode_r, getFunct3, guardTy, okFunct3, funct3_r, opidOpImm]

theorem C06_jalr_ignores_funct3 (dbg : Bool) (imm : BitVec 12) (rs1 rd : Reg) (f3 : BitVec 3) :
    getOpid dbg (iType imm rs1 f3 rd 0b1100111#7) = some (.JALR, .NONE, .JALR) := by
  simp [getOpid, getType, opcode_i, getFunct3, guardTy, okFunct3, funct3_i]

theorem C06_system_is_nop (dbg : Bool) (w : Word) (h : w.extractLsb' 0 7 = 0b1110011#7) :
    getOpid dbg w = some (.NONE, .NONE, .NONE) ∧ getRegisters dbg w = some (0#32, 0#32, 0#32) ∧
    getImm dbg w = some 0#32 := by
  have ht : getType w = some .NONE := (getType_some_iff w .NONE).mpr h
  simp [getOpid, getRegisters, getImm, ht]

theorem C06_accept_exact (dbg : Bool) (w : Word) : (getOpid dbg w).isSome = true ↔ Accepted w := by
  constructor
  · intro h
    cases ht : getType w with
    | none => simp [getOpid, ht] at h
    | some t =>
      have ho := (getType_some_iff w t).mp ht
      cases t with
      | NONE => exact Or.inr (Or.inr (Or.inr ho))
      | U =>
        left
        rcases ho with ho | ho
        · exact ⟨.lui _ _, by rw [u_decomp w, ho]; rfl⟩
        · exact ⟨.auipc _ _, by rw [u_decomp w, ho]; rfl⟩
      | J =>
        simp only at ho
        exact Or.inl ⟨.jal _ _, by rw [j_decomp w, ho]; rfl⟩
      | S =>
        simp only at ho
        simp only [getOpid, ht, Option.bind_some, getFunct3,
          guardTy_of ht (show okFunct3 .S = true from rfl), Option.map_some, funct3_eq,
          Option.isSome_map] at h
        obtain ⟨o, hf⟩ := opidStore_some _ h
        exact Or.inl ⟨.store o _ _ _, by rw [s_decomp w, ho, hf]; rfl⟩
      | B =>
        simp only at ho
        simp only [getOpid, ht, Option.bind_some, getFunct3,
          guardTy_of ht (show okFunct3 .B = true from rfl), Option.map_some, funct3_eq,
          Option.isSome_map] at h
        obtain ⟨o, hf⟩ := opidBranch_some _ h
        exact Or.inl ⟨.branch o _ _ _, by rw [b_decomp w, ho, hf]; rfl⟩
      | R =>
        simp only at ho
        simp only [getOpid, ht, Option.bind_some, getFunct3, getFunct7,
          guardTy_of ht (show okFunct3 .R = true from rfl),
          guardTy_of ht (show okGetFunct7 .R = true from rfl), Option.map_some, funct3_eq,
          funct7_eq, Option.isSome_map] at h
        rcases opidR_some _ _ h with ⟨o, h7, h3⟩ | ⟨o, h7, h3⟩
        · exact Or.inl ⟨.op o _ _ _, by rw [r_decomp w, ho, h7, h3]; rfl⟩
        · exact Or.inl ⟨.mul o _ _ _, by rw [r_decomp w, ho, h7, h3]; rfl⟩
      | I =>
        simp only [getOpid, ht, Option.bind_some, getFunct3,
          guardTy_of ht (show okFunct3 .I = true from rfl), Option.map_some, funct3_eq,
          getOpcode_eq] at h
        rcases ho with ho | ho | ho
        · rw [ho] at h
          simp only [show BitVec.setWidth 32 0b0010011#7 = 0b0010011#32 by decide, if_true,
            Option.isSome_map] at h
          by_cases h1 : w.extractLsb' 12 3 = 0b001#3
          · right; left
            exact ⟨_, _, _, _, by rw [r_decomp w, ho, h1]⟩
          · by_cases h5 : w.extractLsb' 12 3 = 0b101#3
            · simp only [opidOpImm, h5, getFunct7,
                guardTy_of ht (show okGetFunct7 .I = true from rfl), Option.map_some,
                Option.bind_some, funct7_eq] at h
              have hcase : ∀ f : BitVec 7,
                  (if f.setWidth 32 = 0b0000000#32 then some RdUpdate.SRLI
                   else if f.setWidth 32 = 0b0100000#32 then some RdUpdate.SRAI
                   else none).isSome = true → f = 0#7 ∨ f = 0b0100000#7 := by decide +kernel
              rcases hcase _ (by simpa using h) with h7 | h7
              · exact Or.inl ⟨.shImm .srli _ _ _, by rw [r_decomp w, ho, h5, h7]; rfl⟩
              · exact Or.inl ⟨.shImm .srai _ _ _, by rw [r_decomp w, ho, h5, h7]; rfl⟩
            · have hf : ∀ f : BitVec 3, f ≠ 1#3 → f ≠ 5#3 → f = ImmOp.addi.funct3 ∨
                  f = ImmOp.slti.funct3 ∨ f = ImmOp.sltiu.funct3 ∨ f = ImmOp.xori.funct3 ∨
                  f = ImmOp.ori.funct3 ∨ f = ImmOp.andi.funct3 := by decide
              have : ∃ o : ImmOp, w.extractLsb' 12 3 = o.funct3 := by
                rcases hf _ h1 h5 with h | h | h | h | h | h <;> exact ⟨_, h⟩
              obtain ⟨o, h3⟩ := this
              exact Or.inl ⟨.opImm o _ _ _, by rw [i_decomp w, ho, h3]; rfl⟩
        · rw [ho] at h
          simp only [show BitVec.setWidth 32 0b0000011#7 = 0b0000011#32 by decide,
            show ¬ (0b0000011#32 = 0b0010011#32) by decide, if_false, if_true,
            Option.isSome_map] at h
          obtain ⟨o, hf⟩ := opidLoad_some _ h
          exact Or.inl ⟨.load o _ _ _, by rw [i_decomp w, ho, hf]; rfl⟩
        · right; right; left
          exact ⟨_, _, _, _, by rw [i_decomp w, ho]⟩
  · rintro (⟨i, rfl⟩ | ⟨f7, sh, rs1, rd, rfl⟩ | ⟨imm, rs1, f3, rd, rfl⟩ | h)
    · simp [C05_opid_legal]
    · simp [C06_slli_ignores_funct7]
    · simp [C06_jalr_ignores_funct3]
    · simp [(C06_system_is_nop dbg w h).1]

/-- An accepted word never makes the other two accessors panic, so the parser accepts exactly the
accepted words. -/
theorem C06_components_defined (dbg : Bool) (w : Word) (h : (getType w).isSome = true) :
    (getRegisters dbg w).isSome = true ∧ (getImm dbg w).isSome = true := by
  cases ht : getType w with
  | none => simp [ht] at h
  | some t =>
    cases t <;> cases dbg <;> simp [getRegisters, getImm, ht, getRs1, getRs2, getRd, getFunct3,
      getShamt, guardTy, okRs1, okRs2, okRd, okFunct3, okShamt] <;> split <;> rfl

theorem C06_parser_accepts (dbg : Bool) (p : Parser) (w : Word) :
    (p.add dbg w).isSome = true ↔ Accepted w := by
  rw [← C06_accept_exact dbg w]
  constructor
  · intro h
    unfold Parser.add at h
    cases hr : getRegisters dbg w with
    | none => simp [hr] at h
    | some r =>
      cases ho : getOpid dbg w with
      | none => simp [hr, ho] at h
      | some o => rfl
  · intro h
    have ht : (getType w).isSome = true := by
      cases ht : getType w with
      | none => simp [getOpid, ht] at h
      | some t => rfl
    obtain ⟨h1, h2⟩ := C06_components_defined dbg w ht
    obtain ⟨r, hr⟩ := Option.isSome_iff_exists.mp h1
    obtain ⟨im, hi⟩ := Option.isSome_iff_exists.mp h2
    obtain ⟨o, ho⟩ := Option.isSome_iff_exists.mp h
    simp [Parser.add, hr, hi, ho]

/-! ## The components kept by the VM determine the instruction -/

/-- Rebuilds the instruction from `(rd, ram, pc)` operation, `(rs2, rs1, rd)` and immediate. -/
def rebuild (r : RdUpdate) (m : RamUpdate) (p : PcUpdate) (rs2 rs1 rd imm : Word) : Instr :=
  let a := rs2.setWidth 5
  let b := rs1.setWidth 5
  let d := rd.setWidth 5
  let i12 := imm.setWidth 12
  let i20 := imm.setWidth 20
  let sh := imm.setWidth 5
  let b12 := imm.extractLsb' 1 12
  let j20 := imm.extractLsb' 1 20
  match r with
  | .LUI => .lui d i20 | .AUIPC => .auipc d i20
  | .JAL => .jal d j20 | .JALR => .jalr d b i12
  | .LB => .load .lb d b i12 | .LH => .load .lh d b i12 | .LW => .load .lw d b i12
  | .LBU => .load .lbu d b i12 | .LHU => .load .lhu d b i12
  | .ADDI => .opImm .addi d b i12 | .SLTI => .opImm .slti d b i12
  | .SLTIU => .opImm .sltiu d b i12 | .XORI => .opImm .xori d b i12
  | .ORI => .opImm .ori d b i12 | .ANDI => .opImm .andi d b i12
  | .SLLI => .shImm .slli d b sh | .SRLI => .shImm .srli d b sh | .SRAI => .shImm .srai d b sh
  | .ADD => .op .add d b a | .SUB => .op .sub d b a | .SLL => .op .sll d b a
  | .SLT => .op .slt d b a | .SLTU => .op .sltu d b a | .XOR => .op .xor d b a
  | .SRL => .op .srl d b a | .SRA => .op .sra d b a | .OR => .op .or d b a
  | .AND => .op .and d b a
  | .MUL => .mul .mul d b a | .MULH => .mul .mulh d b a | .MULHSU => .mul .mulhsu d b a
  | .MULHU => .mul .mulhu d b a | .DIV => .mul .div d b a | .DIVU => .mul .divu d b a
  | .REM => .mul .rem d b a | .REMU => .mul .remu d b a
  | .NONE =>
    match m with
    | .SB => .store .sb b a i12 | .SH => .store .sh b a i12 | .SW => .store .sw b a i12
    | .NONE =>
      match p with
      | .BEQ => .branch .beq b a b12 | .BNE => .branch .bne b a b12 | .BLT => .branch .blt b a b12
      | .BGE => .branch .bge b a b12 | .BLTU => .branch .bltu b a b12
      | .BGEU => .branch .bgeu b a b12
      | _ => .lui 0 0

theorem immI_inv (a : BitVec 12) : (immI a).setWidth 12 = a := by
  apply BitVec.eq_of_getLsbD_eq; intro k hk
  simp [immI, BitVec.getLsbD_signExtend, hk, -BitVec.getLsbD_eq_getElem]; omega
theorem immB_inv (a : BitVec 12) : (immB a).extractLsb' 1 12 = a := by
  apply BitVec.eq_of_getLsbD_eq; intro k hk
  have h1 : 1 + k < 32 := by omega
  have h2 : 1 + k - 1 = k := by omega
  simp [immB, BitVec.getLsbD_signExtend, hk, -BitVec.getLsbD_eq_getElem, h1, h2]; omega
theorem immJ_inv (a : BitVec 20) : (immJ a).extractLsb' 1 20 = a := by
  apply BitVec.eq_of_getLsbD_eq; intro k hk
  have h1 : 1 + k < 32 := by omega
  have h2 : 1 + k - 1 = k := by omega
  simp [immJ, BitVec.getLsbD_signExtend, hk, -BitVec.getLsbD_eq_getElem, h1, h2]; omega

theorem rebuild_components (i : Instr) :
    rebuild (expectedRd i) (expectedRam i) (expectedPc i) ((operands i).1.setWidth 32)
      ((operands i).2.1.setWidth 32) ((operands i).2.2.setWidth 32) (romImm i) = i := by
  cases i with
  | lui | auipc | jal | jalr => simp [rebuild, expectedRd, operands, romImm, immI_inv, immJ_inv]
  | branch o => cases o <;> simp [rebuild, expectedRd, expectedRam, expectedPc, operands, romImm, immB_inv]
  | load o => cases o <;> simp [rebuild, expectedRd, operands, romImm, immI_inv]
  | store o => cases o <;> simp [rebuild, expectedRd, expectedRam, operands, romImm, immI_inv]
  | opImm o => cases o <;> simp [rebuild, expectedRd, operands, romImm, immI_inv]
  | shImm o => cases o <;> simp [rebuild, expectedRd, operands, romImm]
  | op o => cases o <;> simp [rebuild, expectedRd, operands]
  | mul o => cases o <;> simp [rebuild, expectedRd, operands]

/-- From what the VM keeps of a legal word (three operation ids, three register numbers, one
immediate) the instruction can be recovered: nothing is lost and no two instructions collide. -/
theorem C05_components_determine (dbg : Bool) (i : Instr) :
    (do let (r, m, p) ← getOpid dbg (encode i)
        let (a, b, d) ← getRegisters dbg (encode i)
        let imm ← getImm dbg (encode i)
        pure (rebuild r m p a b d imm)) = some i := by
  simp [C05_opid_legal, C05_registers_legal, C01_imm_legal, rebuild_components]

/-- Two instructions never share a word. -/
theorem encode_injective (i j : Instr) (h : encode i = encode j) : i = j := by
  have h1 := C05_components_determine false i
  rw [h, C05_components_determine false j] at h1
  exact (Option.some_inj.mp h1).symm

/-! ## C06: the strict claim fails -/

/-- "Every word outside RV32IM is rejected" is false of the code: `0x02001013` (SLLI with
`funct7 = 1`, reserved in RV32) is accepted and executed as SLLI, `0x00001067` (JALR with
`funct3 = 1`, reserved) as JALR, and `0x00000073` (ECALL) as a no-op. -/
theorem C06_strict_fails :
    ∀ w ∈ [0x02001013#32, 0x00001067#32, 0x00000073#32],
      (∀ i, encode i ≠ w) ∧ (getOpid true w).isSome = true := by
  intro w hw
  simp only [List.mem_cons, List.not_mem_nil, or_false] at hw
  have key : ∀ (w : Word) (o : RdUpdate × RamUpdate × PcUpdate) (r : Word × Word × Word) (im : Word),
      getOpid true w = some o → getRegisters true w = some r → getImm true w = some im →
      encode (rebuild o.1 o.2.1 o.2.2 r.1 r.2.1 r.2.2 im) ≠ w → ∀ i, encode i ≠ w := by
    intro w o r im h1 h2 h3 hne i hi
    subst hi
    rw [C05_opid_legal] at h1; rw [C05_registers_legal] at h2; rw [C01_imm_legal] at h3
    obtain rfl := Option.some_inj.mp h1
    obtain rfl := Option.some_inj.mp h2
    obtain rfl := Option.some_inj.mp h3
    exact hne (by rw [rebuild_components])
  rcases hw with rfl | rfl | rfl
  · exact ⟨key _ (.SLLI, .NONE, .NONE) (0#32, 0#32, 0#32) 0#32 (by decide) (by decide) (by decide)
      (by decide), by decide⟩
  · exact ⟨key _ (.JALR, .NONE, .JALR) (0#32, 0#32, 0#32) 0#32 (by decide) (by decide) (by decide)
      (by decide), by decide⟩
  · exact ⟨key _ (.NONE, .NONE, .NONE) (0#32, 0#32, 0#32) 0#32 (by decide) (by decide) (by decide)
      (by decide), by decide⟩

/-- Largest part of the strict claim that holds: outside the three families, the words accepted are
exactly the RV32IM instructions.  Missing from the full claim: the three families are accepted. -/
theorem C06_reject_illegal_partial (dbg : Bool) (w : Word)
    (h1 : ¬ (w.extractLsb' 0 7 = 0b0010011#7 ∧ w.extractLsb' 12 3 = 0b001#3))
    (h2 : w.extractLsb' 0 7 ≠ 0b1100111#7) (h3 : w.extractLsb' 0 7 ≠ 0b1110011#7) :
    (getOpid dbg w).isSome = true ↔ ∃ i, w = encode i := by
  rw [C06_accept_exact]
  constructor
  · rintro (h | ⟨f7, sh, rs1, rd, rfl⟩ | ⟨imm, rs1, f3, rd, rfl⟩ | h)
    · exact h
    · refine absurd ⟨?_, ?_⟩ h1
      · apply (setWidth7_inj _ _).mp; rw [← getOpcode_eq, opcode_r]
      · apply (setWidth3_inj _ _).mp; rw [← funct3_eq]; exact funct3_r ..
    · refine absurd ?_ h2
      apply (setWidth7_inj _ _).mp; rw [← getOpcode_eq, opcode_i]
    · exact absurd h h3
  · exact Or.inl

example : (getOpid true 0x00C58533#32).isSome = true ∧ (getOpid true 0xFFFFFFFF#32).isSome = false := by
  decide
example : ((Parser.new).add true 0xFFFFFFFF#32).isSome = false := by decide

end Verif.Props
