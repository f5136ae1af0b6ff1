import Verif.Spec.EveryTest
import Verif.Props.EveryWord
/-
  C97: the test VM on every program.
-/
namespace Verif.Props
open Model Spec

/-! ### What a word is executed as -/

/-- `tInst` undone. -/
def instOf : TInst → Instr
  | .LUI rd imm => .lui (rd.setWidth 5) (imm.extractLsb' 12 20)
  | .AUIPC rd imm => .auipc (rd.setWidth 5) (imm.extractLsb' 12 20)
  | .JAL rd imm => .jal (rd.setWidth 5) (imm.extractLsb' 1 20)
  | .JALR rs1 rd imm => .jalr (rd.setWidth 5) (rs1.setWidth 5) (imm.setWidth 12)
  | .BEQ rs1 rs2 imm => .branch .beq (rs1.setWidth 5) (rs2.setWidth 5) (imm.extractLsb' 1 12)
  | .BNE rs1 rs2 imm => .branch .bne (rs1.setWidth 5) (rs2.setWidth 5) (imm.extractLsb' 1 12)
  | .BLT rs1 rs2 imm => .branch .blt (rs1.setWidth 5) (rs2.setWidth 5) (imm.extractLsb' 1 12)
  | .BGE rs1 rs2 imm => .branch .bge (rs1.setWidth 5) (rs2.setWidth 5) (imm.extractLsb' 1 12)
  | .BLTU rs1 rs2 imm => .branch .bltu (rs1.setWidth 5) (rs2.setWidth 5) (imm.extractLsb' 1 12)
  | .BGEU rs1 rs2 imm => .branch .bgeu (rs1.setWidth 5) (rs2.setWidth 5) (imm.extractLsb' 1 12)
  | .LB rs1 rd imm => .load .lb (rd.setWidth 5) (rs1.setWidth 5) (imm.setWidth 12)
  | .LH rs1 rd imm => .load .lh (rd.setWidth 5) (rs1.setWidth 5) (imm.setWidth 12)
  | .LW rs1 rd imm => .load .lw (rd.setWidth 5) (rs1.setWidth 5) (imm.setWidth 12)
  | .LBU rs1 rd imm => .load .lbu (rd.setWidth 5) (rs1.setWidth 5) (imm.setWidth 12)
  | .LHU rs1 rd imm => .load .lhu (rd.setWidth 5) (rs1.setWidth 5) (imm.setWidth 12)
  | .SB rs1 rs2 imm => .store .sb (rs1.setWidth 5) (rs2.setWidth 5) (imm.setWidth 12)
  | .SH rs1 rs2 imm => .store .sh (rs1.setWidth 5) (rs2.setWidth 5) (imm.setWidth 12)
  | .SW rs1 rs2 imm => .store .sw (rs1.setWidth 5) (rs2.setWidth 5) (imm.setWidth 12)
  | .ADDI rs1 rd imm => .opImm .addi (rd.setWidth 5) (rs1.setWidth 5) (imm.setWidth 12)
  | .SLTI rs1 rd imm => .opImm .slti (rd.setWidth 5) (rs1.setWidth 5) (imm.setWidth 12)
  | .SLTIU rs1 rd imm => .opImm .sltiu (rd.setWidth 5) (rs1.setWidth 5) (imm.setWidth 12)
  | .XORI rs1 rd imm => .opImm .xori (rd.setWidth 5) (rs1.setWidth 5) (imm.setWidth 12)
  | .ORI rs1 rd imm => .opImm .ori (rd.setWidth 5) (rs1.setWidth 5) (imm.setWidth 12)
  | .ANDI rs1 rd imm => .opImm .andi (rd.setWidth 5) (rs1.setWidth 5) (imm.setWidth 12)
  | .SLLI rs1 rd sh => .shImm .slli (rd.setWidth 5) (rs1.setWidth 5) (sh.setWidth 5)
  | .SRLI rs1 rd sh => .shImm .srli (rd.setWidth 5) (rs1.setWidth 5) (sh.setWidth 5)
  | .SRAI rs1 rd sh => .shImm .srai (rd.setWidth 5) (rs1.setWidth 5) (sh.setWidth 5)
  | .ADD rs1 rs2 rd => .op .add (rd.setWidth 5) (rs1.setWidth 5) (rs2.setWidth 5)
  | .SUB rs1 rs2 rd => .op .sub (rd.setWidth 5) (rs1.setWidth 5) (rs2.setWidth 5)
  | .SLL rs1 rs2 rd => .op .sll (rd.setWidth 5) (rs1.setWidth 5) (rs2.setWidth 5)
  | .SLT rs1 rs2 rd => .op .slt (rd.setWidth 5) (rs1.setWidth 5) (rs2.setWidth 5)
  | .SLTU rs1 rs2 rd => .op .sltu (rd.setWidth 5) (rs1.setWidth 5) (rs2.setWidth 5)
  | .XOR rs1 rs2 rd => .op .xor (rd.setWidth 5) (rs1.setWidth 5) (rs2.setWidth 5)
  | .SRL rs1 rs2 rd => .op .srl (rd.setWidth 5) (rs1.setWidth 5) (rs2.setWidth 5)
  | .SRA rs1 rs2 rd => .op .sra (rd.setWidth 5) (rs1.setWidth 5) (rs2.setWidth 5)
  | .OR rs1 rs2 rd => .op .or (rd.setWidth 5) (rs1.setWidth 5) (rs2.setWidth 5)
  | .AND rs1 rs2 rd => .op .and (rd.setWidth 5) (rs1.setWidth 5) (rs2.setWidth 5)
  | .MUL rs1 rs2 rd => .mul .mul (rd.setWidth 5) (rs1.setWidth 5) (rs2.setWidth 5)
  | .MULH rs1 rs2 rd => .mul .mulh (rd.setWidth 5) (rs1.setWidth 5) (rs2.setWidth 5)
  | .MULHSU rs1 rs2 rd => .mul .mulhsu (rd.setWidth 5) (rs1.setWidth 5) (rs2.setWidth 5)
  | .MULHU rs1 rs2 rd => .mul .mulhu (rd.setWidth 5) (rs1.setWidth 5) (rs2.setWidth 5)
  | .DIV rs1 rs2 rd => .mul .div (rd.setWidth 5) (rs1.setWidth 5) (rs2.setWidth 5)
  | .DIVU rs1 rs2 rd => .mul .divu (rd.setWidth 5) (rs1.setWidth 5) (rs2.setWidth 5)
  | .REM rs1 rs2 rd => .mul .rem (rd.setWidth 5) (rs1.setWidth 5) (rs2.setWidth 5)
  | .REMU rs1 rs2 rd => .mul .remu (rd.setWidth 5) (rs1.setWidth 5) (rs2.setWidth 5)

theorem wide_back (r : Reg) : (wide r).setWidth 5 = r := by
  unfold wide; simp
theorem immU_back (v : BitVec 20) : (immU v).extractLsb' 12 20 = v := by
  unfold immU; ext k hk
  have h1 : 12 + k < 32 := by omega
  simp [h1, BitVec.getLsbD_eq_getElem hk]
theorem immJ_back (v : BitVec 20) : (immJ v).extractLsb' 1 20 = v := by
  unfold immJ; ext k hk
  have h1 : 1 + k < 32 := by omega
  simp [h1, BitVec.getElem_signExtend, hk]
theorem immB_back (v : BitVec 12) : (immB v).extractLsb' 1 12 = v := by
  unfold immB; ext k hk
  have h1 : 1 + k < 32 := by omega
  simp [h1, BitVec.getElem_signExtend, hk]
theorem immI_back (v : BitVec 12) : (immI v).setWidth 12 = v := by
  unfold immI; ext k hk
  have h2 : k < 32 := by omega
  simp [BitVec.getElem_signExtend, h2, hk]
theorem sh_back (v : BitVec 5) : (v.setWidth 32).setWidth 5 = v := by simp

theorem instOf_tInst (i : Instr) : instOf (tInst i) = i := by
  cases i with
  | branch o => cases o <;> simp only [tInst, instOf, wide_back, immB_back]
  | load o => cases o <;> simp only [tInst, instOf, wide_back, immI_back]
  | store o => cases o <;> simp only [tInst, instOf, wide_back, immI_back]
  | opImm o => cases o <;> simp only [tInst, instOf, wide_back, immI_back]
  | shImm o => cases o <;> simp only [tInst, instOf, wide_back, sh_back]
  | op o => cases o <;> simp only [tInst, instOf, wide_back]
  | mul o => cases o <;> simp only [tInst, instOf, wide_back]
  | _ => simp only [tInst, instOf, wide_back, immU_back, immJ_back, immI_back]

theorem tInst_injective {i j : Instr} (h : tInst i = tInst j) : i = j := by
  rw [← instOf_tInst i, h, instOf_tInst]

theorem testReads_decode {w : Word} {i : Instr} (h : TestReads w i) : decodeInst w = some (tInst i) := by
  cases h with
  | own i => exact C07_testvm_legal i
  | slli f7 sh rs1 rd => exact t_slli f7 sh rs1 rd
  | srli f7 sh rs1 rd h =>
    simp [-BitVec.getLsbD_eq_getElem, decodeInst, x_opcode, x_rs1, x_rd, x_imm_i, x_funct3, x_shamt,
      opcode_r, rs1_r, rd_r, funct3_r, shamt_r, bit30_r, tInst, wide, h]
  | srai f7 sh rs1 rd h =>
    simp [-BitVec.getLsbD_eq_getElem, decodeInst, x_opcode, x_rs1, x_rd, x_imm_i, x_funct3, x_shamt,
      opcode_r, rs1_r, rd_r, funct3_r, shamt_r, bit30_r, tInst, wide, h]
  | mul o f7 rs2 rs1 rd h =>
    cases o <;> simp only [MulOp.funct3] <;>
    simp [-BitVec.getLsbD_eq_getElem, decodeInst, x_opcode, x_rs1, x_rs2, x_rd, x_funct3, opcode_r, rs1_r, rs2_r, rd_r, funct3_r,
      bit25_r, tInst, wide, h]
  | op o f7 rs2 rs1 rd h h5 =>
    cases o <;> simp only [RegOp.funct3] <;>     simp [-BitVec.getLsbD_eq_getElem, decodeInst, x_opcode, x_rs1, x_rs2, x_rd, x_funct3, opcode_r, rs1_r, rs2_r, rd_r, funct3_r,
      bit30_r, bit25_r, tInst, wide, h, h5] <;> rfl
  | opAny o f7 rs2 rs1 rd h ho =>
    rcases ho with rfl | rfl | rfl | rfl | rfl | rfl <;> simp only [RegOp.funct3] <;>
    simp [-BitVec.getLsbD_eq_getElem, decodeInst, x_opcode, x_rs1, x_rs2, x_rd, x_funct3, opcode_r, rs1_r, rs2_r, rd_r, funct3_r,
      bit25_r, tInst, wide, h]

theorem testReads_op (w : Word) (hR : w.extractLsb' 0 7 = 0b0110011#7) : ∃ i, TestReads w i := by
  rw [r_decomp w, hR]
  generalize w.extractLsb' 25 7 = f7
  cases h0 : f7.getLsbD 0 <;> cases h5 : f7.getLsbD 5 <;>
  rcases f3_cases (w.extractLsb' 12 3) with h | h | h | h | h | h | h | h <;> rw [h]
  · exact ⟨_, .op .add _ _ _ _ h0 h5⟩
  · exact ⟨_, .opAny .sll _ _ _ _ h0 (by decide)⟩
  · exact ⟨_, .opAny .slt _ _ _ _ h0 (by decide)⟩
  · exact ⟨_, .opAny .sltu _ _ _ _ h0 (by decide)⟩
  · exact ⟨_, .opAny .xor _ _ _ _ h0 (by decide)⟩
  · exact ⟨_, .op .srl _ _ _ _ h0 h5⟩
  · exact ⟨_, .opAny .or _ _ _ _ h0 (by decide)⟩
  · exact ⟨_, .opAny .and _ _ _ _ h0 (by decide)⟩
  · exact ⟨_, .op .sub _ _ _ _ h0 h5⟩
  · exact ⟨_, .opAny .sll _ _ _ _ h0 (by decide)⟩
  · exact ⟨_, .opAny .slt _ _ _ _ h0 (by decide)⟩
  · exact ⟨_, .opAny .sltu _ _ _ _ h0 (by decide)⟩
  · exact ⟨_, .opAny .xor _ _ _ _ h0 (by decide)⟩
  · exact ⟨_, .op .sra _ _ _ _ h0 h5⟩
  · exact ⟨_, .opAny .or _ _ _ _ h0 (by decide)⟩
  · exact ⟨_, .opAny .and _ _ _ _ h0 (by decide)⟩
  · exact ⟨_, .mul .mul _ _ _ _ h0⟩
  · exact ⟨_, .mul .mulh _ _ _ _ h0⟩
  · exact ⟨_, .mul .mulhsu _ _ _ _ h0⟩
  · exact ⟨_, .mul .mulhu _ _ _ _ h0⟩
  · exact ⟨_, .mul .div _ _ _ _ h0⟩
  · exact ⟨_, .mul .divu _ _ _ _ h0⟩
  · exact ⟨_, .mul .rem _ _ _ _ h0⟩
  · exact ⟨_, .mul .remu _ _ _ _ h0⟩
  · exact ⟨_, .mul .mul _ _ _ _ h0⟩
  · exact ⟨_, .mul .mulh _ _ _ _ h0⟩
  · exact ⟨_, .mul .mulhsu _ _ _ _ h0⟩
  · exact ⟨_, .mul .mulhu _ _ _ _ h0⟩
  · exact ⟨_, .mul .div _ _ _ _ h0⟩
  · exact ⟨_, .mul .divu _ _ _ _ h0⟩
  · exact ⟨_, .mul .rem _ _ _ _ h0⟩
  · exact ⟨_, .mul .remu _ _ _ _ h0⟩

theorem testReads_canon {w : Word} {i : Instr} : TestReads w i ↔ canon w = encode i := by
  have key {i : Instr} (h : TestReads w i) : canon w = encode i := by
    obtain ⟨j, h1, h2⟩ := (C53_accept_exact w _).mp (testReads_decode h)
    rw [h1]
    exact congrArg encode (tInst_injective h2).symm
  constructor
  · exact key
  · intro h
    have other (hx : ∃ j, TestReads w j) : TestReads w i := by
      obtain ⟨j, hj⟩ := hx
      cases encode_injective j i ((key hj).symm.trans h)
      exact hj
    by_cases hR : w.extractLsb' 0 7 = 0b0110011#7
    · exact other (testReads_op w hR)
    by_cases hI : w.extractLsb' 0 7 = 0b0010011#7
    · by_cases h1 : w.extractLsb' 12 3 = 0b001#3
      · exact other ⟨_, by rw [r_decomp w, hI, h1]; exact .slli _ _ _ _⟩
      by_cases h5 : w.extractLsb' 12 3 = 0b101#3
      · refine other ?_
        rw [r_decomp w, hI, h5]
        cases h : (w.extractLsb' 25 7).getLsbD 5
        · exact ⟨_, .srli _ _ _ _ h⟩
        · exact ⟨_, .srai _ _ _ _ h⟩
      have : canon w = w := by simp [canon, hI, h1, h5]
      rw [← this, h]; exact .own i
    have : canon w = w := by simp [canon, hR, hI]
    rw [← this, h]; exact .own i

/-- Which words the test VM accepts, and as what it executes them. -/
theorem C97_accepted (w : Word) (t : TInst) : decodeInst w = some t ↔ ∃ i, TestReads w i ∧ t = tInst i := by
  rw [C53_accept_exact]
  exact exists_congr fun i => and_congr_left fun _ => testReads_canon.symm

/-- A word is executed as one instruction. -/
theorem C97_unique {w : Word} {i j : Instr} (h1 : TestReads w i) (h2 : TestReads w j) : i = j :=
  encode_injective i j ((testReads_canon.mp h1).symm.trans (testReads_canon.mp h2))

/-- The two VMs never execute a word as two different instructions. -/
theorem C97_alike {w : Word} {i j : Instr} (h1 : TestReads w i) (h2 : ReadsAs w j) : i = j := by
  cases h2 with
  | own j => exact C97_unique h1 (.own j)
  | slli f7 sh rs1 rd => exact C97_unique h1 (.slli f7 sh rs1 rd)
  | jalr imm rs1 f3 rd =>
    by_cases h0 : f3 = 0#3
    · subst h0; exact C97_unique h1 (.own (.jalr rd rs1 imm))
    · have := testReads_decode h1
      rw [t_jalr _ _ _ _ h0] at this
      cases this
  | system w h =>
    have := testReads_decode h1
    rw [t_system w h] at this
    cases this

/-! ### What is fetched -/

theorem readWord_test (chk : Bool) (m : TMem) (pc : Nat) (w : Word) (ho : m.offset = 0) (hs : m.size = m.data.length)
    (hpc : pc < 2 ^ 32) : m.readWord chk pc = some w ↔ pc % 4 = 0 ∧ TestWord m.data pc w := by
  have hn (j : Nat) (hj : j < 4) : m.readNth chk pc j = m.data[(pc + j) % m.data.length]? := by
    unfold TMem.readNth usizeSub usizeAdd TMem.get
    rw [if_pos (by omega), Option.bind_some, if_pos (by omega), Option.bind_some, ho, Nat.sub_zero, hs]
    split
    · rename_i h0
      rw [List.length_eq_zero_iff.mp h0]; rfl
    · rfl
  unfold TMem.readWord
  rw [hn 0 (by omega), hn 1 (by omega), hn 2 (by omega), hn 3 (by omega)]
  constructor
  · intro h
    split at h
    · rename_i h4
      refine ⟨h4, ?_⟩
      obtain ⟨b0, e0, h⟩ := Option.bind_eq_some_iff.mp h
      obtain ⟨b1, e1, h⟩ := Option.bind_eq_some_iff.mp h
      obtain ⟨b2, e2, h⟩ := Option.bind_eq_some_iff.mp h
      obtain ⟨b3, e3, h⟩ := Option.map_eq_some_iff.mp h
      have hb := bytesLE_leWord b0 b1 b2 b3
      rw [h] at hb
      obtain ⟨q0, q1, q2, q3⟩ : w.extractLsb' 0 8 = b0 ∧ w.extractLsb' 8 8 = b1 ∧ w.extractLsb' 16 8 = b2 ∧ w.extractLsb' 24 8 = b3 := by
        simpa [bytesLE] using hb
      intro j hj
      have : j = 0 ∨ j = 1 ∨ j = 2 ∨ j = 3 := by omega
      rcases this with rfl | rfl | rfl | rfl
      · rw [e0]; exact congrArg some q0.symm
      · rw [e1]; exact congrArg some q1.symm
      · rw [e2]; exact congrArg some q2.symm
      · rw [e3]; exact congrArg some q3.symm
    · cases h
  · rintro ⟨h4, h⟩
    rw [if_pos h4, h 0 (by omega), h 1 (by omega), h 2 (by omega), h 3 (by omega)]
    show some (leWord _ _ _ _) = _
    exact congrArg some (leWord_bytesLE _)

/-- What is executed where is determined by the program. -/
theorem C97_fetch (rom : List Byte) : ∃ fetch, FetchTest rom fetch ∧ ∀ fetch', FetchTest rom fetch' → fetch' = fetch := by
  have rd (pc w : Word) := readWord_test true ⟨rom, 0, rom.length⟩ pc.toNat w rfl rfl pc.isLt
  refine ⟨fun pc => ((TMem.mk rom 0 rom.length).readWord true pc.toNat).bind fun w => (decodeInst w).map instOf, ?_, ?_⟩
  · intro pc i
    constructor
    · intro h
      obtain ⟨w, h1, h2⟩ := Option.bind_eq_some_iff.mp h
      obtain ⟨t, h3, h4⟩ := Option.map_eq_some_iff.mp h2
      obtain ⟨h5, h6⟩ := (rd pc w).mp h1
      obtain ⟨j, h7, rfl⟩ := (C97_accepted w t).mp h3
      rw [instOf_tInst] at h4
      subst h4
      exact ⟨h5, w, h6, h7⟩
    · rintro ⟨h5, w, h6, h7⟩
      show Option.bind _ _ = _
      rw [(rd pc w).mpr ⟨h5, h6⟩, Option.bind_some, testReads_decode h7, Option.map_some, instOf_tInst]
  · intro fetch' h'
    funext pc
    cases hc : fetch' pc with
    | some i =>
      obtain ⟨h5, w, h6, h7⟩ := (h' pc i).mp hc
      show _ = Option.bind _ _
      rw [(rd pc w).mpr ⟨h5, h6⟩, Option.bind_some, testReads_decode h7, Option.map_some, instOf_tInst]
    | none =>
      cases hd : ((TMem.mk rom 0 rom.length).readWord true pc.toNat).bind fun w => (decodeInst w).map instOf with
      | none => rfl
      | some i =>
        obtain ⟨w, h1, h2⟩ := Option.bind_eq_some_iff.mp hd
        obtain ⟨t, h3, h4⟩ := Option.map_eq_some_iff.mp h2
        obtain ⟨h5, h6⟩ := (rd pc w).mp h1
        obtain ⟨j, h7, rfl⟩ := (C97_accepted w t).mp h3
        have := (h' pc j).mpr ⟨h5, w, h6, h7⟩
        rw [hc] at this; cases this

/-! ### Runs -/

/-- One step of the test VM, whatever there is at the program counter. -/
theorem C97_step (chk : Bool) (vm : TestVM) (s : Arch) (fetch : Word → Option Instr) (hw : vm.WF) (hs : vm.Shows s)
    (ho : vm.rom.offset = 0) (hz : vm.rom.size = vm.rom.data.length) (hf : FetchTest vm.rom.data fetch) :
    ((∃ vm', vm.run chk = some vm') ↔ ∃ i, fetch s.pc = some i ∧ ¬ stuck i s chk vm.ram.offset) ∧
    ∀ i, fetch s.pc = some i → ¬ stuck i s chk vm.ram.offset → ∃ vm', vm.run chk = some vm' ∧ vm'.WF ∧ vm'.frame = vm.frame ∧
      vm'.Shows (execTest vm.ram.offset vm.ram.size i s) := by
  have at_ {i : Instr} (hi : fetch s.pc = some i) : vm.run chk = (vm.exec chk (tInst i)).bind fun vm => vm.setReg 0#32 0#32 := by
    obtain ⟨h4, w, h5, h6⟩ := (hf _ i).mp hi
    rw [← hs.pcEq] at h4 h5
    unfold TestVM.run
    rw [(readWord_test chk vm.rom vm.pc.toNat w ho hz vm.pc.isLt).mpr ⟨h4, h5⟩, Option.bind_some, testReads_decode h6, Option.bind_some]
  have go (i : Instr) (hi : fetch s.pc = some i) (hst : ¬ stuck i s chk vm.ram.offset) :
      ∃ vm', vm.run chk = some vm' ∧ vm'.WF ∧ vm'.frame = vm.frame ∧ vm'.Shows (execTest vm.ram.offset vm.ram.size i s) := by
    rcases exec_outcome hw hs chk i with ⟨h1, h2⟩ | ⟨h1, vm', h2, h3, h4, -⟩
    · exact absurd h1 hst
    · obtain ⟨vm2, e2, s2⟩ := exec_exact hw hs chk i hst
      cases Option.some.inj (e2.symm.trans h2)
      exact ⟨_, (at_ hi).trans h2, h3, h4, s2⟩
  refine ⟨⟨fun ⟨vm', h⟩ => ?_, fun ⟨i, hi, hst⟩ => ?_⟩, go⟩
  · have h' := h
    unfold TestVM.run at h
    obtain ⟨w, h1, h⟩ := Option.bind_eq_some_iff.mp h
    obtain ⟨t, h2, h⟩ := Option.bind_eq_some_iff.mp h
    obtain ⟨h3, h4⟩ := (readWord_test chk vm.rom vm.pc.toNat w ho hz vm.pc.isLt).mp h1
    obtain ⟨i, h5, rfl⟩ := (C97_accepted w t).mp h2
    rw [hs.pcEq] at h3 h4
    have hi := (hf s.pc i).mpr ⟨h3, w, h4, h5⟩
    refine ⟨i, hi, fun hst => ?_⟩
    rcases exec_outcome hw hs chk i with ⟨-, h2⟩ | ⟨h1, -⟩
    · rw [at_ hi, h2] at h'; cases h'
    · exact h1 hst
  · obtain ⟨vm', h, -⟩ := go i hi hst
    exact ⟨vm', h⟩

/-- Any number of steps. -/
theorem C97_steps (chk : Bool) (n : Nat) (vm : TestVM) (s : Arch) (fetch : Word → Option Instr) (hw : vm.WF) (hs : vm.Shows s)
    (ho : vm.rom.offset = 0) (hz : vm.rom.size = vm.rom.data.length) (hf : FetchTest vm.rom.data fetch) :
    ((∃ vm', vm.steps chk n = some vm') ↔
      ∃ s', RunsIf fetch (fun i s => ¬ stuck i s chk vm.ram.offset) (execTest vm.ram.offset vm.ram.size) n s s') ∧
    ∀ vm', vm.steps chk n = some vm' → vm'.frame = vm.frame ∧
      ∃ s', RunsIf fetch (fun i s => ¬ stuck i s chk vm.ram.offset) (execTest vm.ram.offset vm.ram.size) n s s' ∧ vm'.Shows s' := by
  induction n generalizing vm s with
  | zero => exact ⟨⟨fun _ => ⟨s, .zero s⟩, fun _ => ⟨vm, rfl⟩⟩, fun vm' h => by cases h; exact ⟨rfl, s, .zero s, hs⟩⟩
  | succ n ih =>
    obtain ⟨h1, h2⟩ := C97_step chk vm s fetch hw hs ho hz hf
    have next (i : Instr) (hi : fetch s.pc = some i) (hst : ¬ stuck i s chk vm.ram.offset) :
        ∃ vm1, vm.run chk = some vm1 ∧ vm1.frame = vm.frame ∧
        ((∃ vm', vm1.steps chk n = some vm') ↔ ∃ s', RunsIf fetch (fun i s => ¬ stuck i s chk vm.ram.offset)
          (execTest vm.ram.offset vm.ram.size) n (execTest vm.ram.offset vm.ram.size i s) s') ∧
        ∀ vm', vm1.steps chk n = some vm' → vm'.frame = vm1.frame ∧ ∃ s', RunsIf fetch (fun i s => ¬ stuck i s chk vm.ram.offset)
          (execTest vm.ram.offset vm.ram.size) n (execTest vm.ram.offset vm.ram.size i s) s' ∧ vm'.Shows s' := by
      obtain ⟨vm1, e1, w1, f1, s1⟩ := h2 i hi hst
      have hrom : vm1.rom = vm.rom := congrArg (·.1) f1
      have hoff : vm1.ram.offset = vm.ram.offset := congrArg (·.2.2.2.2.1) f1
      have hsz : vm1.ram.size = vm.ram.size := congrArg (·.2.2.2.2.2) f1
      have := ih vm1 _ w1 s1 (by rw [hrom]; exact ho) (by rw [hrom]; exact hz) (by rw [hrom]; exact hf)
      rw [hoff, hsz] at this
      exact ⟨vm1, e1, f1, this⟩
    have back (vm' : TestVM) (h : vm.steps chk (n + 1) = some vm') : vm'.frame = vm.frame ∧
        ∃ s', RunsIf fetch (fun i s => ¬ stuck i s chk vm.ram.offset) (execTest vm.ram.offset vm.ram.size) (n + 1) s s' ∧
          vm'.Shows s' := by
      obtain ⟨vm1, hv1, hv2⟩ := Option.bind_eq_some_iff.mp h
      obtain ⟨i, hi, hst⟩ := h1.mp ⟨vm1, hv1⟩
      obtain ⟨vm2, e1, f1, -, a2⟩ := next i hi hst
      cases Option.some.inj (e1.symm.trans hv1)
      obtain ⟨f2, s', r, sh⟩ := a2 vm' hv2
      exact ⟨f2.trans f1, s', .succ hi hst r, sh⟩
    refine ⟨⟨fun ⟨vm', h⟩ => ?_, fun ⟨s', h⟩ => ?_⟩, back⟩
    · obtain ⟨-, s', r, -⟩ := back vm' h
      exact ⟨s', r⟩
    · cases h with
      | succ hi hst hr =>
        obtain ⟨vm1, e1, -, a1, -⟩ := next _ hi hst
        obtain ⟨vm', e2⟩ := a1.mpr ⟨s', hr⟩
        exact ⟨vm', by show Option.bind _ _ = _; rw [e1]; exact e2⟩

/-- Every ELF file the loader accepts, every tape of the right length, every number of cycles: the test VM is set up, and it runs to the
end exactly if the machine `execTest`, started on the RAM with the tape in place, gets through as many instructions without meeting one
that stops it; what it returns is then the output section of the last state. -/
theorem C97_testvm (chk : Bool) (n : Nat) (e : Elf) (p : Phantom) (tape : List Byte) (hfile : e.bytes.length < 2 ^ 63)
    (hp : Phantom.fromElf e = some p) (hbase : p.bootRam.offset = ramBase) (hlen : tape.length = p.input.size)
    (hlo : ramBase ≤ p.input.startAddr) (hhi : p.input.startAddr + p.input.size ≤ ramBase + 4096)
    (hb : ramBase ≤ p.output.startAddr) (he : p.output.startAddr + p.output.size ≤ ramBase + 4096) :
    ∃ fetch bytes vm0 vm1, FetchTest p.bootRom.data fetch ∧ Placed p.bootRam.data (p.input.startAddr - ramBase) tape bytes ∧
      p.testVm chk n = some vm0 ∧ vm0.readInputTape chk tape = some vm1 ∧
      ((∃ vm2, vm1.execute chk = some vm2) ↔
        ∃ s', RunsIf fetch (fun i s => ¬ stuck i s chk ramBase) (execTest ramBase 4096) n (startState bytes) s') ∧
      ∀ vm2, vm1.execute chk = some vm2 →
        ∃ s', RunsIf fetch (fun i s => ¬ stuck i s chk ramBase) (execTest ramBase 4096) n (startState bytes) s' ∧
          vm2.outputTape chk = some (ramBytes s' (p.output.startAddr - ramBase) p.output.size) := by
  obtain ⟨z1, z2, -⟩ := C39_zero e p hp
  obtain ⟨_, txt, _, -, -, -, -, -, r1, r2, r3, -⟩ := C39_rom e p hp
  obtain ⟨vm0, vm1, e0, e1, -⟩ := testVm_total chk n e p tape hfile hp hlen (by rw [hbase]; exact hlo) (by rw [hbase]; exact hhi)
  obtain ⟨bytes, hcp⟩ : ∃ b, copyInto p.bootRam.data p.bootRam.offset p.input.startAddr tape = some b := by
    unfold copyInto
    rw [hbase, if_pos ⟨hlo, by omega⟩]
    exact ⟨_, rfl⟩
  have hin := (placed_copyInto hcp).2
  rw [hbase] at hin
  obtain ⟨hvm1, hw, hs⟩ := test_start hfile hp hbase e0 e1 hin hlo hlen
  obtain ⟨fetch, hf, -⟩ := C97_fetch p.bootRom.data
  have hrom : vm1.rom = ⟨p.bootRom.data, 0, p.bootRom.size⟩ := by rw [hvm1]
  have hoff : vm1.ram.offset = ramBase := by rw [hvm1]
  have hsz : vm1.ram.size = 4096 := by rw [hvm1]
  have hmc : vm1.maxCycles = n := by rw [hvm1]
  have hout : vm1.output = p.output := by rw [hvm1]
  obtain ⟨a1, a2⟩ := C97_steps chk n vm1 (startState bytes) fetch hw hs (by rw [hrom]) (by rw [hrom]; exact r2.trans r3.symm) (by rw [hrom]; exact hf)
  rw [hoff, hsz] at a1 a2
  refine ⟨fetch, bytes, vm0, vm1, hf, hin, e0, e1, by unfold TestVM.execute; rw [hmc]; exact a1, fun vm2 h2 => ?_⟩
  unfold TestVM.execute at h2
  rw [hmc] at h2
  obtain ⟨f2, s', hr, hs'⟩ := a2 vm2 h2
  exact ⟨s', hr, test_output hs' ((congrArg (·.2.2.1) f2).trans hout) ((congrArg (·.2.2.2.2.1) f2).trans hoff)
    ((congrArg (·.2.2.2.2.2) f2).trans hsz) hb he⟩

/-! ### Accesses within the RAM -/

theorem ramByte_window {base size : Nat} {a : Word} {n j : Nat} (ht : base + size ≤ 2 ^ 32) (h1 : base ≤ a.toNat)
    (h2 : a.toNat + n ≤ base + size) (hj : j < n) : ramByte base size (a + BitVec.ofNat 32 j) = a + BitVec.ofNat 32 j := by
  have e : (a + BitVec.ofNat 32 j).toNat = a.toNat + j := by
    rw [BitVec.toNat_add, BitVec.toNat_ofNat, Nat.mod_eq_of_lt (by omega : j < 2 ^ 32), Nat.mod_eq_of_lt (by omega)]
  unfold ramByte
  rw [e, if_pos (by omega), Nat.mod_eq_of_lt (by omega), show base + (a.toNat + j - base) = a.toNat + j by omega, ← e,
    BitVec.ofNat_toNat, BitVec.setWidth_eq]

/-- Within the RAM the machine of the test VM is the one of the manual. -/
theorem C97_window (base size : Nat) (i : Instr) (s : Arch) (ht : base + size ≤ 2 ^ 32) (h : i.inWindow s base size) :
    execTest base size i s = exec i s := by
  cases i with
  | load o rd rs1 imm =>
    obtain ⟨h1, h2⟩ := h _ _ rfl
    simp only [execTest, exec]
    have key (n : Nat) (hn : n ≤ o.size) : leValue (fun b => s.mem (ramByte base size b)) (s.x rs1 + immI imm) n =
        leValue s.mem (s.x rs1 + immI imm) n :=
      leValue_congr _ _ _ _ n (fun j hj => by
        show s.mem _ = _
        rw [ramByte_window ht h1 h2 (by omega)])
    cases o <;> simp only [LoadOp.eval] <;> rw [key _ (by decide)]
  | store o rs1 rs2 imm =>
    obtain ⟨h1, h2⟩ := h _ _ rfl
    simp only [execTest, exec]
    rw [storeEach_eq _ _ _ _ _ o.size (by cases o <;> decide) (fun j hj => ramByte_window ht h1 h2 hj)]
  | _ => rfl

theorem C97_runs {fetch : Word → Option Instr} {ok : Instr → Arch → Prop} {base size n : Nat} {s s' : Arch} (ht : base + size ≤ 2 ^ 32)
    (h : Runs fetch (fun i s => ok i s ∧ i.inWindow s base size) n s s') : RunsIf fetch ok (execTest base size) n s s' := by
  induction h with
  | zero s => exact .zero s
  | succ hf hok _ ih => exact .succ hf hok.1 (by rw [C97_window _ _ _ _ ht hok.2]; exact ih)


/-! ### Examples -/

/-- Words that are not instructions of RV32IM: `mul` and `sub` with other bits of the upper seven set; the word of `unimp` is none. -/
example : TestReads 0x82C58533#32 (.mul .mul 10 11 12) ∧ TestReads 0xF4C58533#32 (.op .sub 10 11 12) ∧
    (∀ i, ¬ TestReads 0xC0001073#32 i) :=
  ⟨.mul .mul 0b1000001#7 12 11 10 (by decide), .op .sub 0b1111010#7 12 11 10 (by decide) (by decide),
    fun i h => by have := testReads_decode h; simp [show decodeInst 0xC0001073#32 = none by decide] at this⟩

theorem testWord_unique {rom : List Byte} {a : Nat} {w v : Word} (h1 : TestWord rom a w) (h2 : TestWord rom a v) : w = v := by
  refine BitVec.eq_of_getLsbD_eq fun k hk => ?_
  have := (h1 (k / 8) (by omega)).symm.trans (h2 (k / 8) (by omega))
  have := congrArg (fun b : Byte => b.getLsbD (k % 8)) (Option.some.inj this)
  simp only [BitVec.getLsbD_extractLsb', show k % 8 < 8 from Nat.mod_lt _ (by decide), decide_true, Bool.true_and,
    show 8 * (k / 8) + k % 8 = k by omega] at this
  exact this

theorem testWord_of {rom : List Byte} {a : Nat} (w : Word)
    (h : (List.range 4).all (fun j => rom[(a + j) % rom.length]? == some (w.extractLsb' (8 * j) 8)) = true) : TestWord rom a w :=
  fun j hj => by simpa using List.all_eq_true.mp h j (List.mem_range.mpr hj)

/-- The program of C96 with words that are not instructions: the test VM makes two steps and panics at the third word, `unimp`. -/
theorem C97_odd (chk : Bool) (n : Nat) (tape : List Byte) (hl : tape.length = 4) :
    ∃ vm0 vm1, oddGuest.testVm chk n = some vm0 ∧ vm0.readInputTape chk tape = some vm1 ∧
      ((∃ vm2, vm1.execute chk = some vm2) ↔ n ≤ 2) := by
  obtain ⟨fetch, bytes, vm0, vm1, hf, -, e0, e1, hx, -⟩ := C97_testvm chk n oddElf oddGuest tape (by decide +kernel) odd_elf (by decide +kernel)
    (hl.trans (by decide +kernel)) (by decide +kernel) (by decide +kernel) (by decide +kernel) (by decide +kernel)
  refine ⟨vm0, vm1, e0, e1, hx.trans ?_⟩
  have f0 : fetch 0#32 = some (.lui 2 0x40) := (hf _ _).mpr ⟨by decide, _, testWord_of _ (by decide +kernel), .own _⟩
  have f1 : fetch 4#32 = some (.load .lw 1 2 0) := (hf _ _).mpr ⟨by decide, _, testWord_of _ (by decide +kernel), .own _⟩
  have f2 : fetch 8#32 = none := by
    cases h : fetch 8#32 with
    | none => rfl
    | some i =>
      obtain ⟨-, w, hw, hr⟩ := (hf _ _).mp h
      cases testWord_unique hw (testWord_of 0xC0001073#32 (by decide +kernel))
      have := testReads_decode hr
      simp [show decodeInst 0xC0001073#32 = none by decide] at this
  have s0 : ¬ stuck (.lui 2 0x40) (startState bytes) chk ramBase := by
    rintro (⟨t, h, -⟩ | h | h | ⟨-, ⟨_, _, h, -⟩ | ⟨-, h⟩⟩)
    · cases h
    · exact h
    · exact h
    · cases h
    · exact absurd h (by show ¬ 2 ^ 32 ≤ 0 + 4; decide)
  have s1 : ¬ stuck (.load .lw 1 2 0) (execTest ramBase 4096 (.lui 2 0x40) (startState bytes)) chk ramBase := by
    rintro (⟨t, h, -⟩ | h | h | ⟨-, ⟨a, k, h, h'⟩ | ⟨-, h⟩⟩)
    · cases h
    · exact h (by show (0x40000#32 + immI 0).toNat % 4 = 0; decide)
    · exact h
    · cases h
      exact absurd h' (by show ¬ (0x40000#32 + immI 0).toNat < ramBase; decide)
    · exact absurd h (by show ¬ 2 ^ 32 ≤ 4 + 4; decide)
  constructor
  · rintro ⟨s', h⟩
    refine Nat.le_of_not_lt fun hn => ?_
    obtain ⟨m, rfl⟩ : ∃ m, n = m + 3 := ⟨n - 3, by omega⟩
    cases h with | succ a1 _ h =>
    cases (show some _ = some _ from f0.symm.trans a1)
    cases h with | succ a1 _ h =>
    cases (show some _ = some _ from f1.symm.trans a1)
    cases h with | succ a1 _ _ =>
    cases (show none = some _ from f2.symm.trans a1)
  · intro hn
    have : n = 0 ∨ n = 1 ∨ n = 2 := by omega
    rcases this with rfl | rfl | rfl
    · exact ⟨_, .zero _⟩
    · exact ⟨_, .succ f0 s0 (.zero _)⟩
    · exact ⟨_, .succ f0 s0 (.succ f1 s1 (.zero _))⟩

/-! ### A program without an end -/

theorem runsIf_append {fetch : Word → Option Instr} {ok : Instr → Arch → Prop} {step : Instr → Arch → Arch} {a b : Nat} {s t u : Arch}
    (h1 : RunsIf fetch ok step a s t) (h2 : RunsIf fetch ok step b t u) : RunsIf fetch ok step (a + b) s u := by
  induction h1 with
  | zero s => rw [Nat.zero_add]; exact h2
  | succ hf ho _ ih => rw [Nat.add_right_comm]; exact .succ hf ho (ih h2)

theorem runsIf_unique {fetch : Word → Option Instr} {ok : Instr → Arch → Prop} {step : Instr → Arch → Arch} {n : Nat} {s a b : Arch}
    (h1 : RunsIf fetch ok step n s a) (h2 : RunsIf fetch ok step n s b) : a = b := by
  induction h1 with
  | zero s => cases h2; rfl
  | succ hi _ _ ih =>
    cases h2 with
    | succ hj _ h =>
      cases Option.some.inj (hi.symm.trans hj)
      exact ih h

/-- `lui x2,0x40; lw x1,4(x2); addi x1,x1,1; sw x1,4(x2); nop` -/
def countCode : List Instr := [.lui 2 0x40, .load .lw 1 2 4, .opImm .addi 1 1 1, .store .sw 2 1 4, .opImm .addi 0 0 0]

def countElf : Elf :=
  { bytes := wordBytes [0x00040137#32, 0x00412083#32, 0x00108093#32, 0x00112223#32, 0x00000013#32] ++ List.replicate 8 0#8
    segments := [⟨1, 5, 0, 0, 20, 20⟩, ⟨1, 6, 20, 0x40000, 8, 8⟩]
    sections := [(".inpdata", ⟨0x40000, 4⟩), (".outdata", ⟨0x40004, 4⟩)] }

def countGuest : Phantom := (Phantom.fromElf countElf).getD ⟨⟨[], 0, 0⟩, ⟨[], 0, 0⟩, ⟨0, 0⟩, ⟨0, 0⟩⟩

theorem count_elf : Phantom.fromElf countElf = some countGuest := by
  obtain ⟨x, hx⟩ := Option.isSome_iff_exists.mp (show (Phantom.fromElf countElf).isSome = true by decide +kernel)
  unfold countGuest
  rw [hx]; rfl

/-- Where the run is after `n` cycles, of which those at places `k = 0 … 4` of the program are repeated. -/
structure CountAt (n : Nat) (s : Arch) : Prop where
  out : ∀ j, j < 4 → s.mem (BitVec.ofNat 32 (0x40004 + j)) = (BitVec.ofNat 32 ((n + 1) / 5)).extractLsb' (8 * j) 8
  base : n % 5 ≠ 0 → s.x 2 = 0x40000#32
  loaded : n % 5 = 2 → s.x 1 = BitVec.ofNat 32 (n / 5)
  added : n % 5 = 3 → s.x 1 = BitVec.ofNat 32 (n / 5 + 1)

theorem word_out {m : Word → Byte} {x : Word} (h : ∀ j, j < 4 → m (BitVec.ofNat 32 (0x40004 + j)) = x.extractLsb' (8 * j) 8) :
    LoadOp.lw.eval m 0x40004#32 = x := by
  rw [← word_load (m := fun b => m (b + 4#32)) (x := x) fun i b hb => ?_]
  · rfl
  · have hi : i < 4 := (List.getElem?_eq_some_iff.mp hb).1
    show m _ = b
    rw [← BitVec.ofNat_add, show 0x40000 + i + 4 = 0x40004 + i by omega, h i hi]
    have : (fourBytes x)[i]? = some (x.extractLsb' (8 * i) 8) := by
      unfold fourBytes
      rw [List.getElem?_map, List.getElem?_range hi]; rfl
    exact Option.some.inj (this.symm.trans hb)

theorem out_store (m : Word → Byte) (v : Word) (j : Nat) (hj : j < 4) :
    storeBytes m 0x40004#32 v 4 (BitVec.ofNat 32 (0x40004 + j)) = v.extractLsb' (8 * j) 8 := by
  have : j = 0 ∨ j = 1 ∨ j = 2 ∨ j = 3 := by omega
  rcases this with rfl | rfl | rfl | rfl <;> simp [storeBytes]

theorem count_step {n : Nat} {s : Arch} (h : CountAt n s) {i : Instr} (hi : countCode[n % 5]? = some i) :
    i.inWindow s ramBase 4096 ∧ ¬ i.badAlign s ∧ ¬ i.badDivision s ∧ i.jumpsTo s = none ∧ (exec i s).pc = s.pc + 4#32 ∧
      CountAt (n + 1) (exec i s) := by
  obtain ⟨out, base, loaded, added⟩ := h
  have : n % 5 = 0 ∨ n % 5 = 1 ∨ n % 5 = 2 ∨ n % 5 = 3 ∨ n % 5 = 4 := by omega
  rcases this with h | h | h | h | h <;> rw [h] at hi <;> cases hi
  · refine ⟨(by intro _ _ h; cases h), id, id, rfl, rfl, ?_, fun _ => rfl, fun h => by omega, fun h => by omega⟩
    rw [show (n + 1 + 1) / 5 = (n + 1) / 5 by omega]
    exact out
  · have b := base (by omega)
    refine ⟨?_, ?_, id, rfl, rfl, ?_, fun _ => b, fun _ => ?_, fun h => by omega⟩
    · intro a k h
      cases h
      rw [b]; decide
    · show ¬ (s.x 2 + immI 4).toNat % 4 ≠ 0
      rw [b]; decide
    · rw [show (n + 1 + 1) / 5 = (n + 1) / 5 by omega]
      exact out
    · show LoadOp.lw.eval s.mem (s.x 2 + immI 4) = _
      rw [b, show 0x40000#32 + immI 4 = 0x40004#32 by decide, word_out out]
  · refine ⟨(by intro _ _ h; cases h), id, id, rfl, rfl, ?_, fun _ => base (by omega), fun h => by omega, fun _ => ?_⟩
    · rw [show (n + 1 + 1) / 5 = (n + 1) / 5 by omega]
      exact out
    · show s.x 1 + immI 1 = _
      rw [loaded h, show immI 1 = BitVec.ofNat 32 1 by decide, ← BitVec.ofNat_add, show (n + 1) / 5 = n / 5 by omega]
  · have b := base (by omega)
    refine ⟨?_, ?_, id, rfl, rfl, ?_, fun _ => b, fun h => by omega, fun h => by omega⟩
    · intro a k h
      cases h
      rw [b]; decide
    · show ¬ (s.x 2 + immI 4).toNat % 4 ≠ 0
      rw [b]; decide
    · intro j hj
      show storeBytes s.mem (s.x 2 + immI 4) (s.x 1) 4 _ = _
      rw [b, show 0x40000#32 + immI 4 = 0x40004#32 by decide, added h, show (n + 1 + 1) / 5 = n / 5 + 1 by omega]
      exact out_store _ _ j hj
  · refine ⟨(by intro _ _ h; cases h), id, id, rfl, rfl, ?_, fun h => by omega, fun h => by omega, fun h => by omega⟩
    rw [show (n + 1 + 1) / 5 = (n + 1) / 5 by omega]
    exact out

theorem count_words (k : Nat) (hk : k < 5) : ∃ i w, countCode[k]? = some i ∧ TestReads w i ∧
    TestWord countGuest.bootRom.data (4 * k) w := by
  have : k = 0 ∨ k = 1 ∨ k = 2 ∨ k = 3 ∨ k = 4 := by omega
  rcases this with rfl | rfl | rfl | rfl | rfl <;> exact ⟨_, _, rfl, .own _, testWord_of _ (by decide +kernel)⟩

theorem count_start {tape bytes : List Byte} (hin : Placed countGuest.bootRam.data (countGuest.input.startAddr - ramBase) tape bytes)
    (hl : tape.length = 4) : CountAt 0 (startState bytes) := by
  refine ⟨fun j hj => ?_, fun h => by omega, fun h => by omega, fun h => by omega⟩
  rw [show 0x40004 + j = ramBase + (4 + j) by unfold ramBase; omega, startState_mem _ _ (by unfold ramBase; omega),
    List.getD_eq_getElem?_getD]
  have h0 : countGuest.input.startAddr - ramBase = 0 := by decide +kernel
  rw [h0] at hin
  rw [hin.2.2.2 (4 + j) (by omega)]
  have : j = 0 ∨ j = 1 ∨ j = 2 ∨ j = 3 := by omega
  rcases this with rfl | rfl | rfl | rfl <;> decide +kernel

/-- The program has no loop, but the test VM starts it over when it comes to the end of it: after `n` cycles the output is the number
of times it went through the store. -/
theorem C97_count (chk : Bool) (n : Nat) (hn : n < 2 ^ 30) (tape : List Byte) (hl : tape.length = 4) :
    ∃ vm0 vm1 vm2, countGuest.testVm chk n = some vm0 ∧ vm0.readInputTape chk tape = some vm1 ∧ vm1.execute chk = some vm2 ∧
      vm2.outputTape chk = some (fourBytes (BitVec.ofNat 32 ((n + 1) / 5))) := by
  obtain ⟨fetch, bytes, vm0, vm1, hf, hin, e0, e1, hx, ho⟩ := C97_testvm chk n countElf countGuest tape (by decide +kernel) count_elf
    (by decide +kernel) (hl.trans (by decide +kernel)) (by decide +kernel) (by decide +kernel) (by decide +kernel) (by decide +kernel)
  have hrl : countGuest.bootRom.data.length = 20 := by decide +kernel
  have code (n : Nat) (hn : n < 2 ^ 30) : ∃ i, countCode[n % 5]? = some i ∧ fetch (BitVec.ofNat 32 (4 * n)) = some i := by
    obtain ⟨i, w, h1, h2, h3⟩ := count_words (n % 5) (by omega)
    refine ⟨i, h1, (hf _ _).mpr ?_⟩
    rw [BitVec.toNat_ofNat, Nat.mod_eq_of_lt (by omega : 4 * n < 2 ^ 32)]
    refine ⟨by omega, w, fun j hj => ?_, h2⟩
    have := h3 j hj
    rw [hrl] at this ⊢
    rw [show (4 * n + j) % 20 = (4 * (n % 5) + j) % 20 by omega]
    exact this
  have start := count_start hin hl
  have all (n : Nat) (hn : n < 2 ^ 30) : ∃ s, RunsIf fetch (fun i s => ¬ stuck i s chk ramBase) (execTest ramBase 4096) n (startState bytes) s ∧
      s.pc = BitVec.ofNat 32 (4 * n) ∧ CountAt n s := by
    induction n with
    | zero => exact ⟨_, .zero _, rfl, start⟩
    | succ n ih =>
      obtain ⟨s, hr, hpc, hc⟩ := ih (by omega)
      obtain ⟨i, hi, hfi⟩ := code n (by omega)
      obtain ⟨w1, w2, w3, w4, w5, w6⟩ := count_step hc hi
      have ht : (s.pc).toNat = 4 * n := by rw [hpc, BitVec.toNat_ofNat, Nat.mod_eq_of_lt (by omega)]
      have hok : ¬ stuck i s chk ramBase := by
        rintro (⟨t, h, -⟩ | h | h | ⟨-, ⟨a, k, h, h'⟩ | ⟨-, h⟩⟩)
        · rw [w4] at h; cases h
        · exact w2 h
        · exact w3 h
        · have := (w1 a k h).1
          omega
        · omega
      refine ⟨_, runsIf_append hr (.succ (by rw [hpc]; exact hfi) hok (.zero _)), ?_⟩
      rw [C97_window _ _ _ _ (by decide) w1]
      refine ⟨?_, w6⟩
      rw [w5, hpc, show 4#32 = BitVec.ofNat 32 4 from rfl, ← BitVec.ofNat_add]
      rfl
  obtain ⟨s, hr, -, hc⟩ := all n hn
  obtain ⟨vm2, h2⟩ := hx.mpr ⟨s, hr⟩
  obtain ⟨s', hr', ho'⟩ := ho vm2 h2
  refine ⟨vm0, vm1, vm2, e0, e1, h2, ?_⟩
  cases runsIf_unique hr hr'
  rw [ho', show countGuest.output.startAddr - ramBase = 4 by decide +kernel, show countGuest.output.size = 4 by decide +kernel]
  refine congrArg some (List.map_congr_left fun j hj => ?_)
  rw [← hc.out j (List.mem_range.mp hj), show 0x40004 + j = ramBase + (4 + j) by unfold ramBase; omega]

end Verif.Props
