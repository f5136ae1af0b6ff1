import Verif.Model.Template
import Verif.Lemmas.ImmRoundTrip
import Verif.Spec.Interpreter
import Verif.Props.Decode
import Verif.Props.Interp
import Verif.Props.EndToEnd
/-
  C66: the instruction builder of the crate's tests, and the tests written with it.
-/
namespace Verif.Props
open Model Spec

/-- Operand values given to the setters; 0 if not set. -/
structure Operands where
  rd : U32 := 0#32
  rs1 : U32 := 0#32
  rs2 : U32 := 0#32
  imm : U32 := 0#32

def Operands.set (o : Operands) : Setter → Operands
  | .rd v => { o with rd := v }
  | .rs1 v => { o with rs1 := v }
  | .rs2 v => { o with rs2 := v }
  | .imm v => { o with imm := v }

/-- The instruction of the manual with the mnemonic of the template and the given operands: register numbers
and immediates are cut to the width of their fields; branch and jump distances are in bytes, the operand of
LUI and AUIPC is the upper 20-bit field. -/
def Template.instr (t : Template) (o : Operands) : Instr :=
  let rd := o.rd.setWidth 5
  let rs1 := o.rs1.setWidth 5
  let rs2 := o.rs2.setWidth 5
  let i12 := o.imm.setWidth 12
  let b12 := (o.imm >>> 1).setWidth 12
  let j20 := (o.imm >>> 1).setWidth 20
  let u20 := o.imm.setWidth 20
  let sh := o.imm.setWidth 5
  match t with
  | .LUI => .lui rd u20
  | .AUIPC => .auipc rd u20
  | .JAL => .jal rd j20
  | .JALR => .jalr rd rs1 i12
  | .ADDI => .opImm .addi rd rs1 i12
  | .SLTI => .opImm .slti rd rs1 i12
  | .SLTIU => .opImm .sltiu rd rs1 i12
  | .XORI => .opImm .xori rd rs1 i12
  | .ORI => .opImm .ori rd rs1 i12
  | .ANDI => .opImm .andi rd rs1 i12
  | .SLLI => .shImm .slli rd rs1 sh
  | .SRLI => .shImm .srli rd rs1 sh
  | .SRAI => .shImm .srai rd rs1 sh
  | .ADD => .op .add rd rs1 rs2
  | .SUB => .op .sub rd rs1 rs2
  | .SLL => .op .sll rd rs1 rs2
  | .SLT => .op .slt rd rs1 rs2
  | .SLTU => .op .sltu rd rs1 rs2
  | .XOR => .op .xor rd rs1 rs2
  | .SRL => .op .srl rd rs1 rs2
  | .SRA => .op .sra rd rs1 rs2
  | .OR => .op .or rd rs1 rs2
  | .AND => .op .and rd rs1 rs2
  | .LB => .load .lb rd rs1 i12
  | .LH => .load .lh rd rs1 i12
  | .LW => .load .lw rd rs1 i12
  | .LBU => .load .lbu rd rs1 i12
  | .LHU => .load .lhu rd rs1 i12
  | .SB => .store .sb rs1 rs2 i12
  | .SH => .store .sh rs1 rs2 i12
  | .SW => .store .sw rs1 rs2 i12
  | .BEQ => .branch .beq rs1 rs2 b12
  | .BNE => .branch .bne rs1 rs2 b12
  | .BLT => .branch .blt rs1 rs2 b12
  | .BGE => .branch .bge rs1 rs2 b12
  | .BLTU => .branch .bltu rs1 rs2 b12
  | .BGEU => .branch .bgeu rs1 rs2 b12

/-- The instruction has the operand that the setter sets. -/
def hasOperand : Instr → Setter → Bool
  | .lui .., .rd _ | .lui .., .imm _ | .auipc .., .rd _ | .auipc .., .imm _ => true
  | .jal .., .rd _ | .jal .., .imm _ => true
  | .jalr .., .rd _ | .jalr .., .rs1 _ | .jalr .., .imm _ => true
  | .load .., .rd _ | .load .., .rs1 _ | .load .., .imm _ => true
  | .opImm .., .rd _ | .opImm .., .rs1 _ | .opImm .., .imm _ => true
  | .shImm .., .rd _ | .shImm .., .rs1 _ | .shImm .., .imm _ => true
  | .op .., .rd _ | .op .., .rs1 _ | .op .., .rs2 _ => true
  | .store .., .rs1 _ | .store .., .rs2 _ | .store .., .imm _ => true
  | .branch .., .rs1 _ | .branch .., .rs2 _ | .branch .., .imm _ => true
  | _, _ => false

/-- A template is the encoding of its instruction with all operands 0. -/
theorem C66_template (t : Template) : t.new = encode (Template.instr t {}) := by
  cases t <;> decide

section fields
variable (f7 op : BitVec 7) (rs2 rs1 rd : Reg) (f3 : BitVec 3) (i12 : BitVec 12) (i20 : BitVec 20) (v : U32)

theorem tmpl_rd_r : setField RDMASK RDSHIFT (rType f7 rs2 rs1 f3 rd op) v = rType f7 rs2 rs1 f3 (v.setWidth 5) op := by fld
theorem tmpl_rs1_r : setField RS1MASK RS1SHIFT (rType f7 rs2 rs1 f3 rd op) v = rType f7 rs2 (v.setWidth 5) f3 rd op := by fld
theorem tmpl_rs2_r : setField RS2MASK RS2SHIFT (rType f7 rs2 rs1 f3 rd op) v = rType f7 (v.setWidth 5) rs1 f3 rd op := by fld
theorem tmpl_sh_r : setField SHAMTMASK SHAMTSHIFT (rType f7 rs2 rs1 f3 rd op) v = rType f7 (v.setWidth 5) rs1 f3 rd op := by fld
theorem tmpl_rd_i : setField RDMASK RDSHIFT (iType i12 rs1 f3 rd op) v = iType i12 rs1 f3 (v.setWidth 5) op := by fld
theorem tmpl_rs1_i : setField RS1MASK RS1SHIFT (iType i12 rs1 f3 rd op) v = iType i12 (v.setWidth 5) f3 rd op := by fld
theorem tmpl_imm_i : IType.setImmediate (iType i12 rs1 f3 rd op) v = iType (v.setWidth 12) rs1 f3 rd op := by
  simp only [IType.setImmediate]; fld
theorem tmpl_rs1_s : setField RS1MASK RS1SHIFT (sType i12 rs2 rs1 f3 op) v = sType i12 rs2 (v.setWidth 5) f3 op := by fld
theorem tmpl_rs2_s : setField RS2MASK RS2SHIFT (sType i12 rs2 rs1 f3 op) v = sType i12 (v.setWidth 5) rs1 f3 op := by fld
theorem tmpl_imm_s : SType.setImmediate (sType i12 rs2 rs1 f3 op) v = sType (v.setWidth 12) rs2 rs1 f3 op := by
  simp only [SType.setImmediate]; fld
theorem tmpl_rs1_b : setField RS1MASK RS1SHIFT (bType i12 rs2 rs1 f3 op) v = bType i12 rs2 (v.setWidth 5) f3 op := by fld
theorem tmpl_rs2_b : setField RS2MASK RS2SHIFT (bType i12 rs2 rs1 f3 op) v = bType i12 (v.setWidth 5) rs1 f3 op := by fld
theorem tmpl_imm_b : BType.setImmediate (bType i12 rs2 rs1 f3 op) v = bType ((v >>> 1).setWidth 12) rs2 rs1 f3 op := by
  simp only [BType.setImmediate]; fld
theorem tmpl_rd_u : setField RDMASK RDSHIFT (uType i20 rd op) v = uType i20 (v.setWidth 5) op := by fld
theorem tmpl_imm_u : UType.setImmediate (uType i20 rd op) v = uType (v.setWidth 20) rd op := by
  simp only [UType.setImmediate]; fld
theorem tmpl_rd_j : setField RDMASK RDSHIFT (jType i20 rd op) v = jType i20 (v.setWidth 5) op := by fld
theorem tmpl_imm_j : JType.setImmediate (jType i20 rd op) v = jType ((v >>> 1).setWidth 20) rd op := by
  simp only [JType.setImmediate]; fld
theorem tmpl_f3_i : getField FUNCT3MASK FUNCT3SHIFT (iType i12 rs1 f3 rd op) = f3.setWidth 32 := by fld
theorem tmpl_f3_r : getField FUNCT3MASK FUNCT3SHIFT (rType f7 rs2 rs1 f3 rd op) = f3.setWidth 32 := by fld
end fields

/-- One setter: if the instruction has the operand, it becomes the given value and nothing else changes; if
not, a debug build panics. -/
theorem C66_setter (dbg : Bool) (t : Template) (o : Operands) (s : Setter) :
    (hasOperand (Template.instr t o) s = true →
      s.apply dbg (encode (Template.instr t o)) = some (encode (Template.instr t (o.set s)))) ∧
    (hasOperand (Template.instr t o) s = false →
      s.apply true (encode (Template.instr t o)) = none) := by
  cases t <;> cases s <;>
    simp [Template.instr, hasOperand, Setter.apply, encode, Operands.set, setRd, setRs1, setRs2, setImm, setShamt, getFunct3,
      guardTy, getType, opcode_r, opcode_i, opcode_s, opcode_b, opcode_u, opcode_j, okRd, okRs1, okRs2, okFunct3, okShamt,
      tmpl_rd_r, tmpl_rs1_r, tmpl_rs2_r, tmpl_sh_r, tmpl_rd_i, tmpl_rs1_i, tmpl_imm_i, tmpl_rs1_s, tmpl_rs2_s, tmpl_imm_s, tmpl_rs1_b, tmpl_rs2_b, tmpl_imm_b, tmpl_rd_u, tmpl_imm_u, tmpl_rd_j, tmpl_imm_j,
      tmpl_f3_i, tmpl_f3_r, isShiftImm, ImmOp.funct3, ShiftOp.funct3, LoadOp.funct3, StoreOp.funct3, BranchOp.funct3, RegOp.funct3]

/-- C66: any chain of setters for operands that the instruction has, in any order and with repetitions, gives
the manual's encoding with the values set last, in both build profiles. -/
theorem C66_chain (dbg : Bool) (t : Template) (ss : List Setter) (o : Operands)
    (h : ∀ s ∈ ss, hasOperand (Template.instr t o) s = true) :
    chain dbg (encode (Template.instr t o)) ss = some (encode (Template.instr t (ss.foldl Operands.set o))) := by
  induction ss generalizing o with
  | nil => rfl
  | cons s ss ih =>
    rw [chain, (C66_setter dbg t o s).1 (h s List.mem_cons_self), Option.bind_some]
    refine ih (o.set s) fun s' hs' => ?_
    have := h s' (List.mem_cons_of_mem _ hs')
    cases t <;> cases s' <;> exact this

theorem C66_build (dbg : Bool) (t : Template) (ss : List Setter)
    (h : ∀ s ∈ ss, hasOperand (Template.instr t {}) s = true) :
    chain dbg t.new ss = some (encode (Template.instr t (ss.foldl Operands.set {}))) := by
  rw [C66_template]
  exact C66_chain dbg t ss {} h

/-- The template with an instruction's mnemonic. -/
def templateOf : Instr → Template
  | .lui .. => .LUI | .auipc .. => .AUIPC | .jal .. => .JAL | .jalr .. => .JALR
  | .branch .beq .. => .BEQ | .branch .bne .. => .BNE | .branch .blt .. => .BLT
  | .branch .bge .. => .BGE | .branch .bltu .. => .BLTU | .branch .bgeu .. => .BGEU
  | .load .lb .. => .LB | .load .lh .. => .LH | .load .lw .. => .LW | .load .lbu .. => .LBU | .load .lhu .. => .LHU
  | .store .sb .. => .SB | .store .sh .. => .SH | .store .sw .. => .SW
  | .opImm .addi .. => .ADDI | .opImm .slti .. => .SLTI | .opImm .sltiu .. => .SLTIU
  | .opImm .xori .. => .XORI | .opImm .ori .. => .ORI | .opImm .andi .. => .ANDI
  | .shImm .slli .. => .SLLI | .shImm .srli .. => .SRLI | .shImm .srai .. => .SRAI
  | .op .add .. => .ADD | .op .sub .. => .SUB | .op .sll .. => .SLL | .op .slt .. => .SLT | .op .sltu .. => .SLTU
  | .op .xor .. => .XOR | .op .srl .. => .SRL | .op .sra .. => .SRA | .op .or .. => .OR | .op .and .. => .AND
  | .mul .. => .ADD  -- no template

/-- The operands of an instruction with their values: sign-extended immediates, distances in bytes, the
20-bit field of LUI and AUIPC. -/
def settersOf : Instr → List Setter
  | .lui rd imm | .auipc rd imm => [.imm (imm.setWidth 32), .rd (rd.setWidth 32)]
  | .jal rd imm => [.imm (immJ imm), .rd (rd.setWidth 32)]
  | .jalr rd rs1 imm | .load _ rd rs1 imm | .opImm _ rd rs1 imm =>
    [.imm (immI imm), .rs1 (rs1.setWidth 32), .rd (rd.setWidth 32)]
  | .shImm _ rd rs1 sh => [.imm (sh.setWidth 32), .rs1 (rs1.setWidth 32), .rd (rd.setWidth 32)]
  | .branch _ rs1 rs2 imm => [.imm (immB imm), .rs1 (rs1.setWidth 32), .rs2 (rs2.setWidth 32)]
  | .store _ rs1 rs2 imm => [.imm (immI imm), .rs1 (rs1.setWidth 32), .rs2 (rs2.setWidth 32)]
  | .op _ rd rs1 rs2 | .mul _ rd rs1 rs2 => [.rs1 (rs1.setWidth 32), .rs2 (rs2.setWidth 32), .rd (rd.setWidth 32)]

/-- Every instruction of RV32I can be built, with the setters called in any order. -/
theorem C66_complete (dbg : Bool) (i : Instr) (hi : i.isBase) (ss : List Setter) (hp : ss.Perm (settersOf i)) :
    chain dbg (templateOf i).new ss = some (encode i) := by
  have e5 : ∀ r : BitVec 5, (r.setWidth 32).setWidth 5 = r := fun r => by simp
  have e20 : ∀ r : BitVec 20, (r.setWidth 32).setWidth 20 = r := fun r => by simp
  have eI : ∀ m : BitVec 12, (immI m).setWidth 12 = m := fun m => by
    unfold immI
    apply BitVec.eq_of_getLsbD_eq
    intro k hk
    simp [BitVec.getLsbD_signExtend, hk]
    omega
  have eB : ∀ m : BitVec 12, (immB m >>> 1).setWidth 12 = m := fun m => by
    unfold immB
    apply BitVec.eq_of_getLsbD_eq
    intro k hk
    have : 1 + k < 32 := by omega
    simp [BitVec.getElem_signExtend, hk, this]
  have eJ : ∀ m : BitVec 20, (immJ m >>> 1).setWidth 20 = m := fun m => by
    unfold immJ
    apply BitVec.eq_of_getLsbD_eq
    intro k hk
    have : 1 + k < 32 := by omega
    simp [BitVec.getElem_signExtend, hk, this]
  have hb : ∀ s ∈ ss, hasOperand (Template.instr (templateOf i) {}) s = true := by
    intro s hs
    have hs := hp.mem_iff.mp hs
    revert hs
    cases i with
    | mul => exact absurd hi id
    | branch o | load o | store o | opImm o | shImm o | op o =>
      cases o <;> simp [settersOf] <;> rintro (rfl | rfl | rfl) <;> rfl
    | jalr => simp [settersOf]; rintro (rfl | rfl | rfl) <;> rfl
    | lui | auipc | jal => simp [settersOf]; rintro (rfl | rfl) <;> rfl
  rw [C66_build dbg _ ss hb]
  have hf : ss.foldl Operands.set {} = (settersOf i).foldl Operands.set {} := by
    refine hp.foldl_eq' (fun x hx y hy z => ?_) _
    have hx := hp.mem_iff.mp hx
    have hy := hp.mem_iff.mp hy
    revert hx hy
    cases i <;> simp only [settersOf, List.mem_cons, List.not_mem_nil, or_false]
    case lui | auipc | jal => rintro (rfl | rfl) (rfl | rfl) <;> rfl
    all_goals rintro (rfl | rfl | rfl) (rfl | rfl | rfl) <;> rfl
  rw [hf]
  refine congrArg some (congrArg encode ?_)
  cases i with
  | mul => exact absurd hi id
  | branch o | load o | store o | opImm o | shImm o | op o =>
    cases o <;> simp [settersOf, templateOf, Template.instr, Operands.set, eI, eB, e5]
  | lui | auipc | jal | jalr => simp [settersOf, templateOf, Template.instr, Operands.set, eI, eJ, e5, e20]

example : chain true Template.SRAI.new [.imm 3#32, .rd 1#32, .rs1 2#32] = some 0x40315093#32 := by decide

/-! ### The tests of the crate -/

/-- Repeated `cycle_debug` passes on supported runs. -/
theorem debugCycles_pass (F : Fhe) (n : Nat) (vm : Interp F.B) (d d2 : Debug) (h : F.Runs vm d)
    (hr : d.run n = some d2) (sup : SupportedRun n d) (hc : vm.cycle.toNat + n < 2 ^ 32) :
    ∃ vm2, debugCycles F.decU F.decP F.C n (vm, d) = some (vm2, d2) ∧ F.Runs vm2 d2 := by
  induction n generalizing vm d with
  | zero => cases hr; exact ⟨vm, rfl, h⟩
  | succ n ih =>
    obtain ⟨d1, h1, h2⟩ := Option.bind_eq_some_iff.mp hr
    obtain ⟨dl, i, a, b, v, r, o, ro, po, hl, c⟩ := Debug.step_inv h1
    have hne : vm.cycle ≠ 0xFFFFFFFF#32 := by
      intro e
      rw [e] at hc
      simp at hc
      omega
    obtain ⟨vm1, e1, r1⟩ := C52_debug_passes F vm d dl d1 h h1 hl (sup.1 dl hl) hne
    have hcy : vm1.cycle.toNat = vm.cycle.toNat + 1 := by
      unfold cycleDebug at e1
      obtain ⟨t, _, e1⟩ := Option.bind_eq_some_iff.mp e1
      obtain ⟨_, _, e1⟩ := Option.bind_eq_some_iff.mp e1
      obtain ⟨_, _, e1⟩ := Option.bind_eq_some_iff.mp e1
      split at e1
      · have e := (Prod.mk.inj (Option.some.inj e1)).1
        rw [← e]
        show (vm.cycle + 1#32).toNat = _
        rw [BitVec.toNat_add]
        simp only [BitVec.toNat_ofNat]
        omega
      · cases e1
    obtain ⟨vm2, e2, r2⟩ := ih vm1 d1 r1 h2 (sup.2 d1 h1) (by omega)
    exact ⟨vm2, by rw [debugCycles, e1]; exact e2, r2⟩

/-- Evaluates the conditions of `SupportedRun` along a run with a RAM of 64 words. -/
def supCheck : Nat → Debug → Bool
  | 0, _ => true
  | n + 1, d =>
    (d.loaded.elim true fun d1 => decide ((d1.ins.rdu = RdUpdate.LB.id → d1.ramVal.getLsbD 7 = false) ∧
      (d1.ins.pcu = PcUpdate.NONE.id ∨ (d1.ins.imm.setWidth 20).signExtend 32 = d1.ins.imm) ∧
      d1.ram.length = 64)) && d.step.elim true (supCheck n)

theorem supCheck_sound (n : Nat) (d : Debug) (h : supCheck n d = true) : SupportedRun n d := by
  induction n generalizing d with
  | zero => trivial
  | succ n ih =>
    rw [supCheck, Bool.and_eq_true] at h
    refine ⟨fun d1 h1 => ?_, fun d2 h2 => ih d2 ?_⟩
    · have := h.1
      rw [h1] at this
      obtain ⟨a, b, c⟩ := of_decide_eq_true this
      exact ⟨a, b, Or.inl ⟨6, c⟩⟩
    · have := h.2
      rw [h2] at this
      exact this

/-- A test whose run is supported passes, with any correct library, randomness and number of threads. -/
theorem C66_test_passes (F : Fhe) (rand : Nat → Nat → Nat → F.C.Rand) (dbg : Bool) (threads : Nat)
    (rom : List U32) (p : Parser) (ds : List Decoded) (d2 : Debug) (ht : 0 < threads)
    (h0 : 0 < rom.length) (hn : rom.length < 2 ^ 32)
    (hp : Parser.new.addAll dbg rom = some p) (hd : decodeProgram dbg p = some ds)
    (hr : (Debug.image rom.length 64 ds (List.replicate 64 0#32)).run rom.length = some d2)
    (sup : supCheck rom.length (Debug.image rom.length 64 ds (List.replicate 64 0#32)) = true) :
    ∃ vm, cyclesTest F.decU F.decP F.C rand dbg threads rom (List.replicate 64 0#32) = some (vm, d2) ∧
      F.Runs vm d2 := by
  have hl : ds.length = rom.length := by
    obtain ⟨ds', hd', hds⟩ := decodeProgram_words dbg _ p hp
    rw [hd] at hd'
    cases hd'
    have := congrArg List.length hds
    simpa using this.symm
  obtain ⟨vm, hv⟩ := load_total (C := F.C) (rand := rand) dbg rom.length 64 threads p ds (List.replicate 64 0#32) hd h0
    (by decide) (by omega) (by simp)
  obtain ⟨hs, hc⟩ := C29_start F rand dbg rom.length 64 threads p _ vm ds ht hd hv
  have hm := C29_start_mirror dbg p ds (List.replicate 64 0#32) hd
  obtain ⟨vm2, e, r⟩ := debugCycles_pass F rom.length vm _ d2 hs hr (supCheck_sound _ _ sup) (by rw [hc]; simpa using hn)
  refine ⟨vm2, ?_, r⟩
  unfold cyclesTest
  rw [hl] at hm
  rw [List.length_replicate] at hm ⊢
  rw [hp, Option.bind_some, hv, Option.bind_some, hm, Option.bind_some, e]

/-- `test_interpreter_cycles` passes.  It leaves `0xABCD001` and 0 in the RAM and `x31` behind them.  (The
second value is not the one announced in the test's comment, `RD[1] < 0xEF10<<12`, which would be 1: the
immediate is cut to 12 bits and sign-extended, -240.) -/
theorem C66_cycle_test (F : Fhe) (rand : Nat → Nat → Nat → F.C.Rand) (dbg : Bool) :
    ∃ rom vm d, collect (cycleTestRom dbg) = some rom ∧
      cyclesTest F.decU F.decP F.C rand dbg 1 rom (List.replicate 64 0#32) = some (vm, d) ∧
      vm.decryptRam F.C (List.replicate 64 0#32)
        = some ([0x0ABCD001#32, 0#32] ++ List.replicate 62 0#32) ∧
      vm.registers.decrypt F.C (List.replicate 32 0#32) = some d.registers ∧
      d.registers[31]? = some 0x40008#32 ∧ d.pc = 36#32 := by
  have key : ∀ dbg : Bool, ((collect (cycleTestRom dbg)).bind fun rom =>
      (Parser.new.addAll dbg rom).bind fun p => (decodeProgram dbg p).bind fun ds =>
      ((Debug.image 9 64 ds (List.replicate 64 0#32)).run 9).map fun d2 =>
        decide (rom.length = 9) && supCheck 9 (Debug.image 9 64 ds (List.replicate 64 0#32)) &&
        decide (d2.ram = [0x0ABCD001#32, 0#32] ++ List.replicate 62 0#32 ∧
          d2.registers[31]? = some 0x40008#32 ∧ d2.pc = 36#32)) = some true := by
    decide +kernel
  obtain ⟨rom, h1, h⟩ := Option.bind_eq_some_iff.mp (key dbg)
  obtain ⟨p, h2, h⟩ := Option.bind_eq_some_iff.mp h
  obtain ⟨ds, h3, h⟩ := Option.bind_eq_some_iff.mp h
  obtain ⟨d2, h4, h⟩ := Option.map_eq_some_iff.mp h
  simp only [Bool.and_eq_true] at h
  obtain ⟨⟨hl, hs⟩, hd⟩ := h
  have hl := of_decide_eq_true hl
  obtain ⟨hram, hx, hpc⟩ := of_decide_eq_true hd
  obtain ⟨vm, e, r⟩ := C66_test_passes F rand dbg 1 rom p ds d2 (by decide) (by omega) (by omega) h2 h3
    (by rw [hl]; exact h4) (by rw [hl]; exact hs)
  obtain ⟨o1, o2, -⟩ := C29_observe F vm d2 r
  refine ⟨rom, vm, d2, h1, e, ?_, o1, hx, hpc⟩
  rw [o2 _ (by rw [hram]; simp), hram]

/-- `test_interpreter_cycles_noise_progression` passes (as far as the values are concerned). -/
theorem C66_noise_test (F : Fhe) (rand : Nat → Nat → Nat → F.C.Rand) (dbg : Bool) :
    ∃ vm d, cyclesTest F.decU F.decP F.C rand dbg 16 noiseTestRom (List.replicate 64 0#32) = some (vm, d) ∧
      F.Runs vm d ∧ d.pc = 400#32 ∧ d.ram = List.replicate 64 0#32 ∧
      d.registers = List.replicate 32 0#32 := by
  have key : ∀ dbg : Bool, ((Parser.new.addAll dbg noiseTestRom).bind fun p =>
      (decodeProgram dbg p).bind fun ds =>
      ((Debug.image 100 64 ds (List.replicate 64 0#32)).run 100).map fun d2 =>
        supCheck 100 (Debug.image 100 64 ds (List.replicate 64 0#32)) &&
        decide (d2.pc = 400#32 ∧ d2.ram = List.replicate 64 0#32 ∧
          d2.registers = List.replicate 32 0#32)) = some true := by
    decide +kernel
  obtain ⟨p, h2, h⟩ := Option.bind_eq_some_iff.mp (key dbg)
  obtain ⟨ds, h3, h⟩ := Option.bind_eq_some_iff.mp h
  obtain ⟨d2, h4, h⟩ := Option.map_eq_some_iff.mp h
  rw [Bool.and_eq_true] at h
  have hd := of_decide_eq_true h.2
  have hl : noiseTestRom.length = 100 := by decide
  obtain ⟨vm, e, r⟩ := C66_test_passes F rand dbg 16 noiseTestRom p ds d2 (by decide) (by omega) (by omega) h2 h3
    (by rw [hl]; exact h4) (by rw [hl]; exact h.1)
  exact ⟨vm, d2, e, r, hd⟩

end Verif.Props
