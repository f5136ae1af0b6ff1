import Verif.Lemmas.TestExec
import Verif.Spec.Run
/-
  Property C36: the test VM executes every RV32IM instruction as the manual says, and panics in
  exactly the situations listed in `Instr.stuck`.
-/
namespace Verif.Props
open Spec Model

/-- Situations in which the test VM panics: a misaligned jump target, a misaligned access, a division
by zero or out of range and, when overflow checks are on, an access below the RAM and a program
counter that overflows. -/
def stuck (i : Instr) (s : Arch) (chk : Bool) (base : Nat) : Prop :=
  i.badJump s ∨ i.badAlign s ∨ i.badDivision s ∨ (chk = true ∧ (i.belowWindow s base ∨ i.fallsOff s))

theorem shr_trunc (p : BitVec 64) : (p >>> 32).setWidth 32 = (p.sshiftRight 32).setWidth 32 := by
  apply BitVec.eq_of_getLsbD_eq; intro k hk
  simp only [BitVec.getLsbD_setWidth, BitVec.getLsbD_sshiftRight, BitVec.getLsbD_ushiftRight]
  have h : 32 + k < 64 := by omega
  simp [h, hk]
  intro h2; omega

theorem low5 (b : Word) : (extractBits b 5).toNat = b.toNat % 32 := by
  rw [extractBits_toNat _ _ (by omega)]

/-- Value the test VM computes for the M extension. -/
def tMul (o : MulOp) (a b : Word) : Option Word :=
  match o with
  | .mul => some (a * b)
  | .mulh => some (((a.signExtend 64 * b.signExtend 64) >>> 32).setWidth 32)
  | .mulhu => some (((a.setWidth 64 * b.setWidth 64) >>> 32).setWidth 32)
  | .mulhsu => some (((a.signExtend 64 * b.setWidth 64) >>> 32).setWidth 32)
  | .div => if b = 0#32 ∨ (a = 0x80000000#32 ∧ b = 0xFFFFFFFF#32) then none else some (a.sdiv b)
  | .divu => if b = 0#32 then none else some (a / b)
  | .rem => if b = 0#32 ∨ (a = 0x80000000#32 ∧ b = 0xFFFFFFFF#32) then none else some (a.srem b)
  | .remu => if b = 0#32 then none else some (a % b)

theorem tMul_eq (o : MulOp) (a b : Word) :
    tMul o a b = none ∨ tMul o a b = some (o.eval a b) := by
  cases o with
  | mul => right; have := C11_mul 0 0 0 a b 0 0; exact this
  | mulh =>
    right; have := C11_mulh 0 0 0 a b 0 0
    simp only [expectedRd, RdUpdate.evalPlain] at this
    simp only [tMul, shr_trunc]; exact this
  | mulhu =>
    right; have := C11_mulhu 0 0 0 a b 0 0
    simp only [expectedRd, RdUpdate.evalPlain] at this
    simp only [tMul, shr_trunc]; exact this
  | mulhsu =>
    right; have := C11_mulhsu 0 0 0 a b 0 0
    simp only [expectedRd, RdUpdate.evalPlain] at this
    simp only [tMul, shr_trunc]; exact this
  | div =>
    by_cases h : b = 0#32 ∨ (a = 0x80000000#32 ∧ b = 0xFFFFFFFF#32)
    · left; simp only [tMul]; rw [if_pos h]
    · right
      have h0 : b ≠ 0#32 := fun e => h (Or.inl e)
      have h1 : ¬ (a = 0x80000000#32 ∧ b = 0xFFFFFFFF#32) := fun e => h (Or.inr e)
      have := C11_div_partial a b 0 0 0 h0
      simp only [RdUpdate.evalPlain] at this
      rw [if_neg h0, if_neg h1] at this
      simp only [tMul]; rw [if_neg h]; exact this
  | divu =>
    by_cases h : b = 0#32
    · left; simp only [tMul]; rw [if_pos h]
    · right
      have := C11_divu_partial a b 0 0 0 h
      simp only [RdUpdate.evalPlain] at this
      rw [if_neg h] at this
      simp only [tMul]; rw [if_neg h]; exact this
  | rem =>
    by_cases h : b = 0#32 ∨ (a = 0x80000000#32 ∧ b = 0xFFFFFFFF#32)
    · left; simp only [tMul]; rw [if_pos h]
    · right
      have h0 : b ≠ 0#32 := fun e => h (Or.inl e)
      have h1 : ¬ (a = 0x80000000#32 ∧ b = 0xFFFFFFFF#32) := fun e => h (Or.inr e)
      have := C11_rem_partial a b 0 0 0 h0
      simp only [RdUpdate.evalPlain] at this
      simp only [tMul]; rw [if_neg h]
      by_cases ha : a = 0#32
      · rw [if_pos ha] at this; rw [← this, ha]; simp
      · rw [if_neg ha, if_neg h1, if_neg h0] at this; exact this
  | remu =>
    by_cases h : b = 0#32
    · left; simp only [tMul]; rw [if_pos h]
    · right
      have := C11_remu 0 0 0 a b 0 0
      simp only [expectedRd, RdUpdate.evalPlain] at this
      rw [if_neg h] at this
      simp only [tMul]; rw [if_neg h]; exact this

theorem tMul_none (o : MulOp) (s : Arch) (rd rs1 rs2 : Reg) :
    tMul o (s.x rs1) (s.x rs2) = none ↔ (Instr.mul o rd rs1 rs2).badDivision s := by
  cases o <;> simp only [tMul, Instr.badDivision] <;> first | (split <;> simp_all) | simp

theorem jalr_target (x : Word) : (x >>> 1) <<< 1 = x &&& ~~~1#32 := by
  bits32

theorem halfOk_iff (a : Word) : TestVM.halfOk a = true ↔ a.toNat % 4 ≠ 3 := by
  have := a.isLt
  simp only [TestVM.halfOk, decide_eq_true_eq, mod4_word, BitVec.toNat_sub, BitVec.toNat_ofNat]
  omega

theorem sext_byte (b : Byte) : tSignExtend (b.setWidth 32) 8 = some (b.signExtend 32) := by
  rw [tsext8]

theorem sext_half (b : BitVec 16) : tSignExtend (b.setWidth 32) 16 = some (b.signExtend 32) := by
  rw [tsext16]

section
variable {vm : TestVM} {s : Arch} (hw : TestVM.WF vm) (hs : TestVM.Shows vm s)
include hw hs

/-- One instruction after fetch and decode, for each instruction of RV32IM. -/
theorem exec_outcome (chk : Bool) (i : Instr) :
    Outcome vm (stuck i s chk vm.ram.offset) (i.inWindow s vm.ram.offset vm.ram.size) (exec i s)
      ((vm.exec chk (tInst i)).bind fun vm => vm.setReg 0#32 0#32) := by
  have reg := hs.register
  cases i with
  | lui rd imm =>
    refine (hs.finish hw chk rd (immU imm)).mono ?_ (fun _ => trivial) rfl
    simp [stuck, Instr.badJump, Instr.badAlign, Instr.badDivision, Instr.belowWindow, Instr.access,
      Instr.fallsOff, Instr.jumpsTo]
  | auipc rd imm =>
    refine (hs.finish hw chk rd (immU imm + vm.pc)).mono ?_ (fun _ => trivial) ?_
    · simp [stuck, Instr.badJump, Instr.badAlign, Instr.badDivision, Instr.belowWindow, Instr.access,
        Instr.fallsOff, Instr.jumpsTo]
    · simp only [exec, hs.pcEq, BitVec.add_comm (immU imm)]
  | jal rd imm =>
    by_cases h : (s.pc + immJ imm).toNat % 4 = 0
    · have h' := (mod4_word _).mpr h
      have e : vm.exec chk (tInst (.jal rd imm))
          = (vm.setReg (wide rd) (s.pc + 4#32)).map fun vm => { vm with pc := s.pc + immJ imm } := by
        simp only [tInst, TestVM.exec, hs.pcEq]; rw [if_pos h']
      rw [e]
      refine (hs.link hw rd (s.pc + immJ imm) (s.pc + 4#32)).mono ?_ (fun _ => trivial) rfl
      simp [stuck, Instr.badJump, Instr.badAlign, Instr.badDivision, Instr.belowWindow, Instr.access,
        Instr.fallsOff, Instr.jumpsTo, h, -BitVec.toNat_add]
    · have h' : ¬ _ := fun hc => h ((mod4_word _).mp hc)
      refine Or.inl ⟨Or.inl ⟨_, rfl, h⟩, ?_⟩
      simp only [tInst, TestVM.exec, hs.pcEq]; rw [if_neg h']; rfl
  | jalr rd rs1 imm =>
    by_cases h : ((s.x rs1 + immI imm) &&& ~~~1#32).toNat % 4 = 0
    · have h' := (mod4_word _).mpr h
      have e : vm.exec chk (tInst (.jalr rd rs1 imm))
          = (vm.setReg (wide rd) (s.pc + 4#32)).map fun vm =>
              { vm with pc := (s.x rs1 + immI imm) &&& ~~~1#32 } := by
        simp only [tInst, TestVM.exec, hs.pcEq, reg, Option.bind_some, jalr_target]; rw [if_pos h']
      rw [e]
      refine (hs.link hw rd _ (s.pc + 4#32)).mono ?_ (fun _ => trivial) rfl
      simp only [stuck, Instr.badJump, Instr.badAlign, Instr.badDivision, Instr.belowWindow, Instr.access,
        Instr.fallsOff, Instr.jumpsTo]
      simp only [Option.some.injEq, exists_eq_left', h]
      simp
    · have h' : ¬ _ := fun hc => h ((mod4_word _).mp hc)
      refine Or.inl ⟨Or.inl ⟨_, rfl, h⟩, ?_⟩
      simp only [tInst, TestVM.exec, hs.pcEq, reg, Option.bind_some, jalr_target]; rw [if_neg h']; rfl
  | branch o rs1 rs2 imm =>
    have e : vm.exec chk (tInst (.branch o rs1 rs2 imm)) =
        if o.taken (s.x rs1) (s.x rs2) then
          (if (s.pc + immB imm).toNat % 4 = 0 then some { vm with pc := s.pc + immB imm } else none)
        else vm.incPc chk := by
      cases o <;>
        simp only [tInst, TestVM.exec, TestVM.branch, TestVM.jump, reg, Option.bind_some, hs.pcEq,
          BranchOp.taken, BitVec.add_comm (immB imm), mod4_word] <;>
        simp [BitVec.slt, BitVec.ult, BitVec.sle, BitVec.ule]
    rw [e]
    by_cases ht : o.taken (s.x rs1) (s.x rs2)
    · rw [if_pos ht]
      have hj : (Instr.branch o rs1 rs2 imm).jumpsTo s = some (s.pc + immB imm) := by
        simp only [Instr.jumpsTo]; rw [if_pos ht]
      by_cases h : (s.pc + immB imm).toNat % 4 = 0
      · rw [if_pos h]
        refine (hs.goto hw (s.pc + immB imm)).mono ?_ (fun _ => trivial) ?_
        · simp [stuck, Instr.badJump, Instr.badAlign, Instr.badDivision, Instr.belowWindow, Instr.access,
            Instr.fallsOff, hj, h, -BitVec.toNat_add]
        · simp only [exec]; rw [if_pos ht]
      · rw [if_neg h]
        exact Or.inl ⟨Or.inl ⟨_, hj, h⟩, rfl⟩
    · rw [if_neg ht]
      have hj : (Instr.branch o rs1 rs2 imm).jumpsTo s = none := by
        simp only [Instr.jumpsTo]; rw [if_neg ht]
      have hst : stuck (.branch o rs1 rs2 imm) s chk vm.ram.offset ↔ chk = true ∧ 2 ^ 32 ≤ s.pc.toNat + 4 := by
        simp [stuck, Instr.badJump, Instr.badAlign, Instr.badDivision, Instr.belowWindow, Instr.access,
          Instr.fallsOff, hj]
      unfold TestVM.incPc
      rw [hs.pcEq]
      by_cases hb : chk = true ∧ 2 ^ 32 ≤ s.pc.toNat + 4
      · rw [if_pos hb]; exact Or.inl ⟨hst.mpr hb, rfl⟩
      · rw [if_neg hb]
        refine (hs.goto hw (s.pc + 4#32)).mono ?_ (fun _ => trivial) ?_
        · rw [hst]; exact ⟨False.elim, hb⟩
        · simp only [exec]; rw [if_neg ht]; rfl
  | load o rd rs1 imm =>
    have hm := hs.memOk hw
    have hst : stuck (.load o rd rs1 imm) s chk vm.ram.offset ↔
        (s.x rs1 + immI imm).toNat % o.size ≠ 0 ∨ (chk = true ∧ (s.x rs1 + immI imm).toNat < vm.ram.offset) ∨
        (chk = true ∧ 2 ^ 32 ≤ s.pc.toNat + 4) := by
      simp only [stuck, Instr.badJump, Instr.badAlign, Instr.badDivision, Instr.belowWindow, Instr.access,
        Instr.fallsOff, Instr.jumpsTo]
      simp [-BitVec.toNat_add, and_or_left]
    have hwin : (Instr.load o rd rs1 imm).inWindow s vm.ram.offset vm.ram.size →
        vm.ram.offset ≤ (s.x rs1 + immI imm).toNat ∧
        (s.x rs1 + immI imm).toNat + o.size ≤ vm.ram.offset + vm.ram.size := fun h => h _ _ rfl
    simp only [exec]
    generalize ha : s.x rs1 + immI imm = a at hst hwin ⊢
    have hb := a.isLt
    -- the value that is loaded, given that the access is aligned
    have key : ∀ r : Option Word, (vm.exec chk (tInst (.load o rd rs1 imm)) = r.bind fun v => vm.finish chk (wide rd) v) →
        a.toNat % o.size = 0 →
        (r = none ↔ chk = true ∧ a.toNat < vm.ram.offset) →
        (vm.ram.offset ≤ a.toNat ∧ a.toNat + o.size ≤ vm.ram.offset + vm.ram.size → r = some (o.eval s.mem a)) →
        Outcome vm (stuck (.load o rd rs1 imm) s chk vm.ram.offset)
          ((Instr.load o rd rs1 imm).inWindow s vm.ram.offset vm.ram.size) ((s.setX rd (o.eval s.mem a)).next)
          ((vm.exec chk (tInst (.load o rd rs1 imm))).bind fun vm => vm.setReg 0#32 0#32) := by
      intro r he hal h1 h2
      rw [he]
      refine (hs.loaded hw chk rd (o.eval s.mem a) r _ _ h1 h2).mono ?_ hwin rfl
      rw [hst, hal]; simp
    have mis : vm.exec chk (tInst (.load o rd rs1 imm)) = none → a.toNat % o.size ≠ 0 →
        Outcome vm (stuck (.load o rd rs1 imm) s chk vm.ram.offset)
          ((Instr.load o rd rs1 imm).inWindow s vm.ram.offset vm.ram.size) ((s.setX rd (o.eval s.mem a)).next)
          ((vm.exec chk (tInst (.load o rd rs1 imm))).bind fun vm => vm.setReg 0#32 0#32) := by
      intro he hal
      rw [he]
      exact Or.inl ⟨hst.mpr (Or.inl hal), rfl⟩
    have half : ∀ f : BitVec 16 → Option TestVM, a.toNat % 2 ≠ 0 →
        (if TestVM.halfOk a = true then (vm.ram.readHalf chk a.toNat).bind f else none) = none := by
      intro f h
      by_cases hh : TestVM.halfOk a = true
      · rw [if_pos hh, C37_read_half_odd chk vm.ram _ (by omega)]; rfl
      · rw [if_neg hh]
    have e8 : BitVec.ofNat 8 (leValue s.mem a 1) = s.mem a := by rw [le1]; simp
    have e32 : BitVec.ofNat 32 (leValue s.mem a 1) = (s.mem a).setWidth 32 := by
      rw [le1]; apply BitVec.eq_of_toNat_eq; simp
    have e16 : BitVec.ofNat 32 (leValue s.mem a 2) = (BitVec.ofNat 16 (leValue s.mem a 2)).setWidth 32 := by
      have := (s.mem a).isLt
      have := (s.mem (a + 1#32)).isLt
      rw [le2]; apply BitVec.eq_of_toNat_eq
      rw [BitVec.toNat_setWidth, BitVec.toNat_ofNat, BitVec.toNat_ofNat]; omega
    have ea : BitVec.ofNat 32 a.toNat = a := by simp
    have hbyte : (vm.ram.offset ≤ a.toNat ∧ a.toNat + 1 ≤ vm.ram.offset + vm.ram.size →
        vm.ram.readByte chk a.toNat = some (s.mem a)) := fun h => by
      rw [(hm.read chk a.toNat).2 ⟨h.1, by omega⟩, ea]
    cases o with
    | lb =>
      refine key ((vm.ram.readByte chk a.toNat).map fun v => v.signExtend 32) ?_ (Nat.mod_one _) ?_ (fun h => ?_)
      · simp only [tInst, TestVM.exec, reg, Option.bind_some, ha, sext_byte]
        cases vm.ram.readByte chk a.toNat <;> rfl
      · rw [Option.map_eq_none_iff]; exact (hm.read chk a.toNat).1
      · rw [hbyte h]; simp only [LoadOp.eval, e8]; rfl
    | lbu =>
      refine key ((vm.ram.readByte chk a.toNat).map fun v => v.setWidth 32) ?_ (Nat.mod_one _) ?_ (fun h => ?_)
      · simp only [tInst, TestVM.exec, reg, Option.bind_some, ha]
        cases vm.ram.readByte chk a.toNat <;> rfl
      · rw [Option.map_eq_none_iff]; exact (hm.read chk a.toNat).1
      · rw [hbyte h]; simp only [LoadOp.eval, e32]; rfl
    | lh =>
      by_cases h2 : a.toNat % 2 = 0
      · have hh : TestVM.halfOk a = true := (halfOk_iff a).mpr (by omega)
        refine key ((vm.ram.readHalf chk a.toNat).map fun v => v.signExtend 32) ?_ h2 ?_ (fun h => ?_)
        · simp only [tInst, TestVM.exec, reg, Option.bind_some, ha, sext_half]
          rw [if_pos hh]
          cases vm.ram.readHalf chk a.toNat <;> rfl
        · rw [Option.map_eq_none_iff]; exact (hm.readHalf chk a h2).1
        · rw [(hm.readHalf chk a h2).2 h]; rfl
      · refine mis ?_ h2
        simp only [tInst, TestVM.exec, reg, Option.bind_some, ha]
        exact half _ h2
    | lhu =>
      by_cases h2 : a.toNat % 2 = 0
      · have hh : TestVM.halfOk a = true := (halfOk_iff a).mpr (by omega)
        refine key ((vm.ram.readHalf chk a.toNat).map fun v => v.setWidth 32) ?_ h2 ?_ (fun h => ?_)
        · simp only [tInst, TestVM.exec, reg, Option.bind_some, ha]
          rw [if_pos hh]
          cases vm.ram.readHalf chk a.toNat <;> rfl
        · rw [Option.map_eq_none_iff]; exact (hm.readHalf chk a h2).1
        · rw [(hm.readHalf chk a h2).2 h]; simp only [LoadOp.eval, e16]; rfl
      · refine mis ?_ h2
        simp only [tInst, TestVM.exec, reg, Option.bind_some, ha]
        exact half _ h2
    | lw =>
      by_cases h4 : a.toNat % 4 = 0
      · refine key (vm.ram.readWord chk a.toNat) ?_ h4 (hm.readWord chk a h4).1 (hm.readWord chk a h4).2
        simp only [tInst, TestVM.exec, reg, Option.bind_some, ha]
        rw [if_pos ((mod4_word a).mpr h4)]
      · refine mis ?_ h4
        simp only [tInst, TestVM.exec, reg, Option.bind_some, ha]
        rw [if_neg (fun hc => h4 ((mod4_word a).mp hc))]
  | store o rs1 rs2 imm =>
    have hm := hs.memOk hw
    have hst : stuck (.store o rs1 rs2 imm) s chk vm.ram.offset ↔
        (Instr.store o rs1 rs2 imm).badAlign s ∨
        (chk = true ∧ (s.x rs1 + immI imm).toNat < vm.ram.offset) ∨
        (chk = true ∧ 2 ^ 32 ≤ s.pc.toNat + 4) := by
      simp only [stuck, Instr.badJump, Instr.badDivision, Instr.belowWindow, Instr.access,
        Instr.fallsOff, Instr.jumpsTo]
      simp [-BitVec.toNat_add, and_or_left]
    have hwin : (Instr.store o rs1 rs2 imm).inWindow s vm.ram.offset vm.ram.size →
        vm.ram.offset ≤ (s.x rs1 + immI imm).toNat ∧
        (s.x rs1 + immI imm).toNat + o.size ≤ vm.ram.offset + vm.ram.size := fun h => h _ _ rfl
    have key : ∀ r : Option TMem, (vm.exec chk (tInst (.store o rs1 rs2 imm)) =
          r.bind fun ram => TestVM.incPc chk { vm with ram := ram }) →
        ¬ (Instr.store o rs1 rs2 imm).badAlign s →
        MemOut vm.ram (chk = true ∧ (s.x rs1 + immI imm).toNat < vm.ram.offset)
          (vm.ram.offset ≤ (s.x rs1 + immI imm).toNat ∧
            (s.x rs1 + immI imm).toNat + o.size ≤ vm.ram.offset + vm.ram.size)
          (storeBytes s.mem (s.x rs1 + immI imm) (s.x rs2) o.size) r →
        Outcome vm (stuck (.store o rs1 rs2 imm) s chk vm.ram.offset)
          ((Instr.store o rs1 rs2 imm).inWindow s vm.ram.offset vm.ram.size) (exec (.store o rs1 rs2 imm) s)
          ((vm.exec chk (tInst (.store o rs1 rs2 imm))).bind fun vm => vm.setReg 0#32 0#32) := by
      intro r he hal h
      rw [he]
      refine (hs.stored hw chk r _ _ _ h).mono ?_ hwin rfl
      rw [hst]; exact ⟨Or.inr, fun hc => hc.resolve_left hal⟩
    have mis : vm.exec chk (tInst (.store o rs1 rs2 imm)) = none → (Instr.store o rs1 rs2 imm).badAlign s →
        Outcome vm (stuck (.store o rs1 rs2 imm) s chk vm.ram.offset)
          ((Instr.store o rs1 rs2 imm).inWindow s vm.ram.offset vm.ram.size) (exec (.store o rs1 rs2 imm) s)
          ((vm.exec chk (tInst (.store o rs1 rs2 imm))).bind fun vm => vm.setReg 0#32 0#32) := by
      intro he hal
      rw [he]
      exact Or.inl ⟨hst.mpr (Or.inl hal), rfl⟩
    cases o with
    | sb =>
      refine key _ ?_ ?_ (hm.writeByte chk (s.x rs1 + immI imm) (s.x rs2))
      · simp only [tInst, TestVM.exec, reg, Option.bind_some]
      · simp only [Instr.badAlign, StoreOp.size, Nat.mod_one]; simp
    | sh =>
      by_cases h3 : (s.x rs1 + immI imm).toNat % 4 = 3
      · refine mis ?_ h3
        simp only [tInst, TestVM.exec, reg, Option.bind_some]
        rw [if_neg (fun hc => (halfOk_iff _).mp hc h3)]
      · refine key _ ?_ h3 (hm.writeHalf chk (s.x rs1 + immI imm) (s.x rs2))
        simp only [tInst, TestVM.exec, reg, Option.bind_some]
        rw [if_pos ((halfOk_iff _).mpr h3)]
    | sw =>
      by_cases h4 : (s.x rs1 + immI imm).toNat % 4 = 0
      · refine key _ ?_ (fun hc => hc h4) (hm.writeWord chk (s.x rs1 + immI imm) (s.x rs2))
        simp only [tInst, TestVM.exec, reg, Option.bind_some]
        rw [if_pos ((mod4_word _).mpr h4)]
      · refine mis ?_ h4
        simp only [tInst, TestVM.exec, reg, Option.bind_some]
        rw [if_neg (fun hc => h4 ((mod4_word _).mp hc))]
  | opImm o rd rs1 imm =>
    have e : vm.exec chk (tInst (.opImm o rd rs1 imm)) = vm.finish chk (wide rd) (o.eval (s.x rs1) (immI imm)) := by
      cases o <;> simp only [tInst, TestVM.exec, TestVM.regImm, reg, Option.bind_some, ImmOp.eval, slt_eq,
        ult_eq, add_eq]
    rw [e]
    refine (hs.finish hw chk rd _).mono ?_ (fun _ => trivial) rfl
    simp [stuck, Instr.badJump, Instr.badAlign, Instr.badDivision, Instr.belowWindow, Instr.access,
      Instr.fallsOff, Instr.jumpsTo]
  | shImm o rd rs1 sh =>
    have hsh : (sh.setWidth 32).toNat = sh.toNat := by
      have := sh.isLt; rw [BitVec.toNat_setWidth]; omega
    have e : vm.exec chk (tInst (.shImm o rd rs1 sh)) = vm.finish chk (wide rd) (o.eval (s.x rs1) sh.toNat) := by
      cases o <;> simp only [tInst, TestVM.exec, TestVM.regImm, reg, Option.bind_some, shl_amount, shr_amount,
        hsh, sll_eq, srl_eq, sra_eq]
    rw [e]
    refine (hs.finish hw chk rd _).mono ?_ (fun _ => trivial) rfl
    simp [stuck, Instr.badJump, Instr.badAlign, Instr.badDivision, Instr.belowWindow, Instr.access,
      Instr.fallsOff, Instr.jumpsTo]
  | op o rd rs1 rs2 =>
    have e : vm.exec chk (tInst (.op o rd rs1 rs2)) = vm.finish chk (wide rd) (o.eval (s.x rs1) (s.x rs2)) := by
      cases o <;> simp only [tInst, TestVM.exec, TestVM.regReg, reg, Option.bind_some, shl_amount, shr_amount,
        low5, sll_eq, srl_eq, sra_eq, RegOp.eval, slt_eq, ult_eq, add_eq, sub_eq]
    rw [e]
    refine (hs.finish hw chk rd _).mono ?_ (fun _ => trivial) rfl
    simp [stuck, Instr.badJump, Instr.badAlign, Instr.badDivision, Instr.belowWindow, Instr.access,
      Instr.fallsOff, Instr.jumpsTo]
  | mul o rd rs1 rs2 =>
    have e : vm.exec chk (tInst (.mul o rd rs1 rs2)) =
        (tMul o (s.x rs1) (s.x rs2)).bind fun v => vm.finish chk (wide rd) v := by
      cases o <;> simp only [tInst, TestVM.exec, TestVM.regReg, reg, Option.bind_some, tMul]
    rw [e]
    have hst : stuck (.mul o rd rs1 rs2) s chk vm.ram.offset ↔
        tMul o (s.x rs1) (s.x rs2) = none ∨ (chk = true ∧ 2 ^ 32 ≤ s.pc.toNat + 4) := by
      rw [tMul_none o s rd]
      simp [stuck, Instr.badJump, Instr.badAlign, Instr.belowWindow, Instr.access,
        Instr.fallsOff, Instr.jumpsTo]
    rcases tMul_eq o (s.x rs1) (s.x rs2) with h | h
    · rw [h]; exact Or.inl ⟨hst.mpr (Or.inl h), rfl⟩
    · rw [h]
      refine (hs.finish hw chk rd _).mono ?_ (fun _ => trivial) rfl
      rw [hst, h]; simp
end

/-! ### C36 -/

/-- One step of the test VM on any RV32IM instruction.  It panics exactly in the situations of
`stuck`; otherwise, provided an access lies in the RAM, the state afterwards is the manual's. -/
theorem C36_step (chk : Bool) (vm : TestVM) (s : Arch) (i : Instr) (hw : vm.WF) (hs : vm.Shows s)
    (hf : vm.rom.readWord chk vm.pc.toNat = some (encode i)) :
    (vm.run chk = none ↔ stuck i s chk vm.ram.offset) ∧
    (¬ stuck i s chk vm.ram.offset → ∃ vm', vm.run chk = some vm' ∧ vm'.WF ∧ vm'.frame = vm.frame ∧
      (i.inWindow s vm.ram.offset vm.ram.size → vm'.Shows (exec i s))) := by
  have e : vm.run chk = (vm.exec chk (tInst i)).bind fun vm => vm.setReg 0#32 0#32 := by
    unfold TestVM.run
    rw [hf, Option.bind_some, C07_testvm_legal, Option.bind_some]
  rw [e]
  rcases exec_outcome hw hs chk i with ⟨h1, h2⟩ | ⟨h1, vm', h2, h3⟩
  · exact ⟨⟨fun _ => h1, fun _ => h2⟩, fun h => absurd h1 h⟩
  · exact ⟨⟨fun h => (by rw [h2] at h; cases h), fun h => absurd h h1⟩, fun _ => ⟨vm', h2, h3⟩⟩

/-- Every state of the test VM is the state of a machine of the manual. -/
theorem C36_shows (vm : TestVM) (hw : vm.WF) (h0 : vm.registers[0]? = some 0#32) : ∃ s, vm.Shows s := by
  obtain ⟨mem, hm⟩ := memView vm.ram hw.len hw.top
  refine ⟨⟨vm.pc, fun r => (vm.registers[r.toNat]?).getD 0#32, mem⟩, rfl, fun r => ?_, hm⟩
  · have hr := r.isLt
    have hlt : r.toNat < vm.registers.length := by rw [hw.regs]; omega
    unfold Arch.x
    by_cases h : r = 0#5
    · subst h; rw [if_pos rfl]; exact h0
    · rw [if_neg h, List.getElem?_eq_getElem hlt]; simp [hlt]

/-- A word that is not an RV32IM instruction, even after resetting the bits the decoder ignores,
stops the test VM. -/
theorem C36_illegal (chk : Bool) (vm : TestVM) (w : Word)
    (hf : vm.rom.readWord chk vm.pc.toNat = some w) (h : ∀ i, canon w ≠ encode i) : vm.run chk = none := by
  unfold TestVM.run
  rw [hf, Option.bind_some]
  cases hd : decodeInst w with
  | none => rfl
  | some t =>
    obtain ⟨i, hi, -⟩ := (C53_accept_exact w t).mp hd
    exact absurd hi (h i)

/-- Any number of steps. -/
theorem C36_runs (chk : Bool) (vm : TestVM) (n : Nat) (s s' : Arch) (fetch : Word → Option Instr)
    (hw : vm.WF) (hs : vm.Shows s)
    (hf : ∀ pc i, fetch pc = some i → vm.rom.readWord chk pc.toNat = some (encode i))
    (h : Runs fetch (fun i s => ¬ stuck i s chk vm.ram.offset ∧ i.inWindow s vm.ram.offset vm.ram.size) n s s') :
    ∃ vm', vm.steps chk n = some vm' ∧ vm'.WF ∧ vm'.frame = vm.frame ∧ vm'.Shows s' := by
  induction n generalizing vm s with
  | zero => cases h; exact ⟨vm, rfl, hw, rfl, hs⟩
  | succ n ih =>
    cases h with
    | succ h1 h2 h3 =>
      rw [← hs.pcEq] at h1
      obtain ⟨vm1, e1, w1, f1, s1⟩ := (C36_step chk vm s _ hw hs (hf _ _ h1)).2 h2.1
      have hrom : vm1.rom = vm.rom := congrArg (·.1) f1
      have hoff : vm1.ram.offset = vm.ram.offset := congrArg (·.2.2.2.2.1) f1
      have hsz : vm1.ram.size = vm.ram.size := congrArg (·.2.2.2.2.2) f1
      obtain ⟨vm2, e2, w2, f2, s2⟩ := ih vm1 _ w1 (s1 h2.2) (by rw [hrom]; exact hf)
        (by rw [hoff, hsz]; exact h3)
      exact ⟨vm2, by simp only [TestVM.steps, e1, Option.bind_some, e2], w2, f2.trans f1, s2⟩

/-- Conversely, when the test VM completes `n` steps of a legal program and every access was in the
RAM, it went through the states of the manual: `ok` is whatever is known of the accesses. -/
theorem C36_complete (chk : Bool) (vm vm' : TestVM) (n : Nat) (s : Arch) (fetch : Word → Option Instr)
    (hw : vm.WF) (hs : vm.Shows s)
    (hf : ∀ pc : Word, vm.rom.readWord chk pc.toNat = (fetch pc).map encode)
    (hwin : ∀ k s1 i, k < n → Runs fetch (fun _ _ => True) k s s1 → fetch s1.pc = some i →
      i.inWindow s1 vm.ram.offset vm.ram.size)
    (h : vm.steps chk n = some vm') :
    ∃ s', Runs fetch (fun i s => ¬ stuck i s chk vm.ram.offset ∧ i.inWindow s vm.ram.offset vm.ram.size) n s s' ∧
      vm'.Shows s' := by
  induction n generalizing vm s with
  | zero => cases h; exact ⟨s, .zero s, hs⟩
  | succ n ih =>
    simp only [TestVM.steps] at h
    obtain ⟨vm1, e1, e2⟩ := Option.bind_eq_some_iff.mp h
    have hr := hf vm.pc
    cases hi : fetch vm.pc with
    | none =>
      rw [hi, Option.map_none] at hr
      unfold TestVM.run at e1; rw [hr] at e1; cases e1
    | some i =>
      rw [hi, Option.map_some] at hr
      have st := C36_step chk vm s i hw hs hr
      have hns : ¬ stuck i s chk vm.ram.offset := fun hc => by
        rw [st.1.mpr hc] at e1; cases e1
      obtain ⟨vm1', e1', w1, f1, s1⟩ := st.2 hns
      have : vm1' = vm1 := Option.some.inj (e1'.symm.trans e1)
      subst this
      have hrom : vm1'.rom = vm.rom := congrArg (·.1) f1
      have hoff : vm1'.ram.offset = vm.ram.offset := congrArg (·.2.2.2.2.1) f1
      have hsz : vm1'.ram.size = vm.ram.size := congrArg (·.2.2.2.2.2) f1
      rw [hs.pcEq] at hi
      have hwn := hwin 0 s i (by omega) (.zero s) hi
      obtain ⟨s', hr', hs'⟩ := ih vm1' (exec i s) w1 (s1 hwn) (by rw [hrom]; exact hf)
        (by
          intro k s1 j hk hk1 hj
          rw [hoff, hsz]
          exact hwin (k + 1) s1 j (by omega) (.succ hi trivial hk1) hj) e2
      rw [hoff, hsz] at hr'
      exact ⟨s', .succ hi ⟨hns, hwn⟩ hr', hs'⟩

/-- `addi x1,x0,-1; lui x2,0x40; sb x1,1(x2); lb x3,1(x2)` with 8 bytes of RAM at 0x40000. -/
def exVm : TestVM :=
  { registers := List.replicate 32 0#32
    rom := ⟨[0x93, 0x00, 0xF0, 0xFF, 0x37, 0x01, 0x04, 0x00, 0xA3, 0x00, 0x11, 0x00, 0x83, 0x01, 0x11, 0x00], 0, 16⟩
    ram := ⟨List.replicate 8 0#8, 0x40000, 8⟩
    pc := 0#32, input := ⟨0, 0⟩, output := ⟨0, 0⟩, maxCycles := 4 }

example : exVm.WF := ⟨by decide, by decide, by decide, by decide⟩
example : exVm.rom.readWord true 8 = some (encode (.store .sb 2 1 1)) := by decide
example : (exVm.execute true).map (fun vm => (vm.registers[3]?, vm.ram.data, vm.pc)) =
    some (some 0xFFFFFFFF#32, [0, 0xFF, 0, 0, 0, 0, 0, 0], 16#32) := by decide
/-- Reading past the end of the RAM returns the byte at its beginning, where the manual's machine
has another location: the condition on accesses is needed. -/
example : (exVm.ram.put 0 7#8).bind (fun m => m.readByte true 0x40008) = some 7#8 := by decide

/-! ### C31, C32, C34 for the test VM -/

theorem run_zero (chk : Bool) (vm vm' : TestVM) (h : vm.run chk = some vm') :
    vm'.registers[0]? = some 0#32 := by
  unfold TestVM.run at h
  obtain ⟨w, -, h⟩ := Option.bind_eq_some_iff.mp h
  obtain ⟨t, -, h⟩ := Option.bind_eq_some_iff.mp h
  obtain ⟨v, -, h⟩ := Option.bind_eq_some_iff.mp h
  unfold TestVM.setReg at h
  split at h
  · next hl => cases h; simp at hl; simp [hl]
  · cases h

/-- Register 0 of the test VM after any number of steps of any program, legal or not. -/
theorem C31_testvm (chk : Bool) (n : Nat) (vm vm' : TestVM) (h0 : vm.registers[0]? = some 0#32)
    (h : vm.steps chk n = some vm') : vm'.registers[0]? = some 0#32 := by
  induction n generalizing vm with
  | zero => cases h; exact h0
  | succ n ih =>
    obtain ⟨v1, h1, h2⟩ := Option.bind_eq_some_iff.mp h
    exact ih v1 (run_zero chk vm v1 h1) h2

theorem C34_testvm (chk : Bool) (n m : Nat) (vm : TestVM) :
    vm.steps chk (n + m) = (vm.steps chk n).bind (TestVM.steps chk m) := by
  induction n generalizing vm with
  | zero => rw [Nat.zero_add]; rfl
  | succ n ih =>
    rw [show n + 1 + m = (n + m) + 1 by omega]
    show (vm.run chk).bind _ = ((vm.run chk).bind _).bind _
    cases vm.run chk with
    | none => rfl
    | some v => exact ih v

/-- `execute` runs exactly `max_cycles` steps. -/
theorem C34_testvm_execute (chk : Bool) (vm : TestVM) : vm.execute chk = vm.steps chk vm.maxCycles := rfl

end Verif.Props
