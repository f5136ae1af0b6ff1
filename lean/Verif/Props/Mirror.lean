import Verif.Lemmas.MirrorExec
import Verif.Props.Interp
import Verif.Spec.Run
/-
  Property C35: a cycle of the plaintext mirror, and of the encrypted VM, against the manual.
-/
namespace Verif.Props
open Spec Model

theorem step_core (d : Debug) (s : Arch) (i : Instr) (dbg : Bool) (hw : d.WF) (hs : d.Shows s)
    (hf : (d.rom[d.pc.toNat / 4]?) = decodeWord dbg (encode i)) (hi : i.supported s)
    (hwin : i.inWindow s ramBase (4 * d.ram.length)) :
    ∃ d2, d.step = some d2 ∧ d2.WF ∧ d2.rom = d.rom ∧ d2.ram.length = d.ram.length ∧
      d2.Shows (exec i s) ∧ ∃ dl, d.loaded = some dl ∧ dl.ins = entry i ∧ dl.ram = d.ram ∧
      ∀ a n, i.access s = some (a, n) → d.ram[(a.toNat - ramBase) / 4]? = some dl.ramVal := by
  have hpos := hw.pos
  have htop := hw.top
  rw [decodeWord_encode] at hf
  have hmul : ∀ o rd rs1 rs2, i ≠ .mul o rd rs1 rs2 := by
    rintro o rd rs1 rs2 rfl; exact hi
  have hins : d.rom[(d.pc >>> 2).toNat]? = some (entry i) := by rw [toNat_shift2]; exact hf
  have ha : d.registers[(entry i).rs1.toNat]? = some (s.x (operands i).2.1) := by
    show d.registers[((operands i).2.1.setWidth 32).toNat]? = _
    rw [reg_toNat]; exact hs.reg _
  have hb : d.registers[(entry i).rs2.toNat]? = some (s.x (operands i).1) := by
    show d.registers[((operands i).1.setWidth 32).toNat]? = _
    rw [reg_toNat]; exact hs.reg _
  have hrd : (entry i).rd.toNat = (operands i).2.2.toNat := by
    show ((operands i).2.2.setWidth 32).toNat = _
    rw [reg_toNat]
  have hidx : (((entry i).imm + s.x (operands i).2.1 - (1#32 <<< 18)) >>> 2).toNat % d.ram.length
      < d.ram.length := Nat.mod_lt _ hpos
  obtain ⟨v, hv⟩ : ∃ v, d.ram[(((entry i).imm + s.x (operands i).2.1 - (1#32 <<< 18)) >>> 2).toNat % d.ram.length]? = some v :=
    ⟨_, List.getElem?_eq_getElem hidx⟩
  have haddr : ∀ a n, i.access s = some (a, n) →
      (((entry i).imm + s.x (operands i).2.1 - (1#32 <<< 18)) >>> 2).toNat % d.ram.length = (a.toNat - ramBase) / 4 := by
    intro a n hacc
    have hwn := hwin a n hacc
    have main : ∀ (rs1 : Reg) (imm : BitVec 12) (n : Nat), 0 < n → n ≤ 4 →
        ramBase ≤ (s.x rs1 + immI imm).toNat ∧ (s.x rs1 + immI imm).toNat + n ≤ ramBase + 4 * d.ram.length →
        ((immI imm + s.x rs1 - (1#32 <<< 18)) >>> 2).toNat % d.ram.length
          = ((s.x rs1 + immI imm).toNat - ramBase) / 4 := by
      intro rs1 imm n h1 h2 h3
      have e := access_index (s.x rs1) (immI imm) n (4 * d.ram.length) h1 h3 htop
      rw [toNat_shift2]
      rw [show (1#32 <<< 18 : U32) = 0x40000#32 from rfl, e]
      rw [Nat.mod_eq_of_lt]
      unfold ramBase at *
      omega
    cases i with
    | load o rd rs1 imm => cases hacc; exact main rs1 imm o.size (by cases o <;> decide) (by cases o <;> decide) hwn
    | store o rs1 rs2 imm => cases hacc; exact main rs1 imm o.size (by cases o <;> decide) (by cases o <;> decide) hwn
    | _ => cases hacc
  obtain ⟨d2, hd2⟩ := Debug.step_total (ro := expectedRam i) (po := expectedPc i) hins ha hb hv
    (expectedRd_mem i hmul) rfl rfl rfl (by rw [hrd, hw.regs]; exact (operands i).2.2.isLt)
  obtain ⟨dl, i', a', b', v', r, o, ro, po, hl, c⟩ := Debug.step_inv hd2
  have ei : i' = entry i := Option.some.inj (c.ins.symm.trans hins)
  subst ei
  have ea : a' = s.x (operands i).2.1 := Option.some.inj (c.rs1.symm.trans ha)
  subst ea
  have eb : b' = s.x (operands i).1 := Option.some.inj (c.rs2.symm.trans hb)
  subst eb
  have ev : v' = v := Option.some.inj (c.ram.symm.trans hv)
  subst ev
  have eo : o = expectedRd i := rdUpdate_inj _ _ c.opId
  have er : ro = expectedRam i := ramUpdate_inj _ _ c.mu
  have ep : po = expectedPc i := pcUpdate_inj _ _ c.pcu
  subst eo er ep
  obtain ⟨r', hr', hreg⟩ := hs.rdVal hw i hi hwin v' _ haddr hv
  have hval := c.val
  rw [hs.pcEq] at hval
  have err : r' = r := Option.some.inj (hr'.symm.trans hval)
  subst err
  refine ⟨d2, hd2, ?_, ?_, ?_, ?_, dl, hl, ?_, ?_, ?_⟩
  · rw [c.result]
    exact ⟨by simp [hw.regs], by simp [hpos], by simpa using htop⟩
  · rw [c.result, c.loaded]
  · rw [c.result]; simp
  · rw [c.result]
    refine ⟨?_, fun r => ?_, ?_⟩
    · simp only [hs.pcEq]
      exact C13_next_pc i s
    · rw [exec_x i s r' hreg r]
      simp only [hrd]
      exact hs.regs_set hw _ _ r
    · exact hs.ramVal hw i hi hwin v' _ haddr hv
  · rw [c.loaded]
  · rw [c.loaded]
  · intro a n hacc
    rw [c.loaded, ← haddr a n hacc]; exact hv

/-- One cycle of the mirror on an RV32I instruction has the effect the manual prescribes.  Missing:
loads at addresses that are not multiples of four (`C35_fails`: the byte offset is ignored),
misaligned stores, accesses outside the RAM (they wrap around) and RV32M, which is not enabled. -/
theorem C35_step_partial (d : Debug) (s : Arch) (i : Instr) (dbg : Bool) (hw : d.WF) (hs : d.Shows s)
    (hf : (d.rom[d.pc.toNat / 4]?) = decodeWord dbg (encode i)) (hi : i.supported s)
    (hwin : i.inWindow s ramBase (4 * d.ram.length)) :
    ∃ d2, d.step = some d2 ∧ d2.WF ∧ d2.rom = d.rom ∧ d2.ram.length = d.ram.length ∧
      d2.Shows (exec i s) := by
  obtain ⟨d2, h1, h2, h3, h4, h5, -⟩ := step_core d s i dbg hw hs hf hi hwin
  exact ⟨d2, h1, h2, h3, h4, h5⟩

theorem jump20 (i : Instr) (s : Arch) (he : i.encSupported s) :
    (expectedPc i).id = PcUpdate.NONE.id ∨ ((romImm i).setWidth 20).signExtend 32 = romImm i := by
  cases i with
  | jal rd imm =>
    right
    simp only [Instr.encSupported] at he
    simp only [romImm, immJ]
    apply BitVec.eq_of_toInt_eq
    have e1 : (imm.signExtend 32).toInt = imm.toInt := BitVec.toInt_signExtend_of_le (by omega)
    have e2 : (imm.signExtend 32 <<< 1).toInt = 2 * imm.toInt := by
      rw [BitVec.toInt_shiftLeft, Nat.shiftLeft_eq]
      have h3 : ((imm.signExtend 32).toNat * 2 ^ 1 : Nat).cast = (2 * ((imm.signExtend 32).toNat : Int)) := by
        push_cast; omega
      have h4 := BitVec.toInt_eq_toNat_bmod (imm.signExtend 32)
      rw [h3]
      rw [e1] at h4
      have h5 : (2 * ((imm.signExtend 32).toNat : Int)).bmod (2 ^ 32) = (2 * imm.toInt).bmod (2 ^ 32) := by
        rw [h4, Int.mul_bmod_bmod]
      rw [h5]
      apply Int.bmod_eq_of_le <;> omega
    rw [BitVec.toInt_signExtend_of_le (by omega), BitVec.toInt_setWidth, e2]
    have h6 : (((imm.signExtend 32 <<< 1).toNat : Nat) : Int).bmod (2 ^ 20) = ((imm.signExtend 32 <<< 1).toInt).bmod (2 ^ 20) := by
      rw [BitVec.toInt_eq_toNat_bmod, Int.bmod_bmod_of_dvd (by decide)]
    rw [h6, e2]
    apply Int.bmod_eq_of_le <;> omega
  | jalr rd rs1 imm => right; simp only [romImm, immI]; bits32
  | branch o rs1 rs2 imm => right; simp only [romImm, immB]; bits32
  | _ => left; rfl

/-- The encrypted cycle and the mirror do the same, and the debug assertions hold. -/
theorem enc_core (d : Debug) (s : Arch) (i : Instr) (dbg : Bool) (k : Nat) (hw : d.WF) (hs : d.Shows s)
    (hf : (d.rom[d.pc.toNat / 4]?) = decodeWord dbg (encode i)) (hi : i.supported s)
    (he : i.encSupported s) (hk : d.ram.length = 2 ^ k)
    (hwin : i.inWindow s ramBase (4 * d.ram.length)) :
    ∃ d2, Spec.cycle d = some d2 ∧ d2.WF ∧ d2.rom = d.rom ∧ d2.ram.length = d.ram.length ∧
      d2.Shows (exec i s) ∧
      d.step = some d2 ∧ ∃ d1, d.loaded = some d1 ∧ Supported d1 := by
  obtain ⟨d2, h1, h2, h3, h4, h5, dl, h6, h7, h8, h9⟩ := step_core d s i dbg hw hs hf hi hwin
  obtain ⟨dl', i', a', b', v', r, o, ro, po, hl, c⟩ := Debug.step_inv h1
  have e : dl' = dl := Option.some.inj (hl.symm.trans h6)
  subst e
  have sup : Supported dl' := by
    refine ⟨fun hlb => ?_, ?_, ?_⟩
    · rw [h7] at hlb
      have : expectedRd i = .LB := rdUpdate_inj _ _ hlb
      obtain ⟨rd, rs1, imm, rfl⟩ : ∃ rd rs1 imm, i = .load .lb rd rs1 imm := by
        cases i with
        | load o rd rs1 imm => cases o <;> first | exact ⟨rd, rs1, imm, rfl⟩ | cases this
        | opImm o _ _ _ => cases o <;> cases this
        | shImm o _ _ _ => cases o <;> cases this
        | op o _ _ _ => cases o <;> cases this
        | mul o _ _ _ => cases o <;> cases this
        | _ => cases this
      have hb := hwin _ _ rfl
      have wa := hs.wordAt hw (s.x rs1 + immI imm) hi hb.1 dl'.ramVal (h9 _ _ rfl)
      have hlt : (s.mem (s.x rs1 + immI imm)).toNat < 128 := he
      rw [wa.1] at hlt
      have e : (dl'.ramVal.extractLsb' 0 8).getLsbD 7 = dl'.ramVal.getLsbD 7 := by
        simp [-BitVec.getLsbD_eq_getElem, BitVec.getLsbD_extractLsb']
      rw [← e]
      have : (dl'.ramVal.extractLsb' 0 8).msb = false := by
        rw [BitVec.msb_eq_decide]; simp only [decide_eq_false_iff_not]; omega
      simpa [BitVec.msb, BitVec.getMsbD, -BitVec.getLsbD_eq_getElem] using this
    · rw [h7]
      exact jump20 i s he
    · left; rw [h8]; exact ⟨k, hk⟩
  exact ⟨d2, (c.supported sup).eq, h2, h3, h4, h5, h1, dl', h6, sup⟩

/-- The same for the exact meaning of an encrypted cycle (`C29_exact`).  Missing, in addition:
signed loads of bytes above 127 (not sign-extended) and JAL distances beyond 20 bits. -/
theorem C35_encrypted_partial (d : Debug) (s : Arch) (i : Instr) (dbg : Bool) (k : Nat) (hw : d.WF) (hs : d.Shows s)
    (hf : (d.rom[d.pc.toNat / 4]?) = decodeWord dbg (encode i)) (hi : i.supported s)
    (he : i.encSupported s) (hk : d.ram.length = 2 ^ k)
    (hwin : i.inWindow s ramBase (4 * d.ram.length)) :
    ∃ d2, Spec.cycle d = some d2 ∧ d2.WF ∧ d2.rom = d.rom ∧ d2.ram.length = d.ram.length ∧
      d2.Shows (exec i s) := by
  obtain ⟨d2, h1, h2, h3, h4, h5, -⟩ := enc_core d s i dbg k hw hs hf hi he hk hwin
  exact ⟨d2, h1, h2, h3, h4, h5⟩

/-! ### Any number of cycles -/

/-- What a cycle needs, given the number of RAM words. -/
def cycleOk (words : Nat) (i : Instr) (s : Arch) : Prop :=
  i.supported s ∧ i.inWindow s ramBase (4 * words)

theorem C35_runs_partial (d : Debug) (n : Nat) (s s' : Arch) (fetch : Word → Option Instr) (dbg : Bool)
    (hw : d.WF) (hs : d.Shows s)
    (hf : ∀ pc i, fetch pc = some i → (d.rom[pc.toNat / 4]?) = decodeWord dbg (encode i))
    (h : Runs fetch (cycleOk d.ram.length) n s s') :
    ∃ d2, d.run n = some d2 ∧ d2.WF ∧ d2.rom = d.rom ∧ d2.ram.length = d.ram.length ∧ d2.Shows s' := by
  induction n generalizing d s with
  | zero => cases h; exact ⟨d, rfl, hw, rfl, rfl, hs⟩
  | succ n ih =>
    cases h with
    | succ h1 h2 h3 =>
      rw [← hs.pcEq] at h1
      obtain ⟨d1, e1, w1, r1, l1, s1⟩ := C35_step_partial d s _ dbg hw hs (hf _ _ h1) h2.1 h2.2
      obtain ⟨d2, e2, w2, r2, l2, s2⟩ := ih d1 _ w1 s1 (by rw [r1]; exact hf) (by rw [l1]; exact h3)
      exact ⟨d2, by show d.step.bind _ = _; rw [e1, Option.bind_some, e2], w2, r2.trans r1, l2.trans l1, s2⟩

theorem C35_encrypted_runs_partial (d : Debug) (n k : Nat) (s s' : Arch) (fetch : Word → Option Instr) (dbg : Bool)
    (hw : d.WF) (hs : d.Shows s) (hk : d.ram.length = 2 ^ k)
    (hf : ∀ pc i, fetch pc = some i → (d.rom[pc.toNat / 4]?) = decodeWord dbg (encode i))
    (h : Runs fetch (fun i s => cycleOk d.ram.length i s ∧ i.encSupported s) n s s') :
    ∃ d2, Spec.cycles n d = some d2 ∧ d2.WF ∧ d2.rom = d.rom ∧ d2.ram.length = d.ram.length ∧ d2.Shows s' := by
  induction n generalizing d s with
  | zero => cases h; exact ⟨d, rfl, hw, rfl, rfl, hs⟩
  | succ n ih =>
    cases h with
    | succ h1 h2 h3 =>
      rw [← hs.pcEq] at h1
      obtain ⟨d1, e1, w1, r1, l1, s1⟩ := C35_encrypted_partial d s _ dbg k hw hs (hf _ _ h1) h2.1.1 h2.2 hk h2.1.2
      obtain ⟨d2, e2, w2, r2, l2, s2⟩ := ih d1 _ w1 s1 (l1.trans hk) (by rw [r1]; exact hf) (by rw [l1]; exact h3)
      exact ⟨d2, by show (Spec.cycle d).bind _ = _; rw [e1, Option.bind_some, e2], w2, r2.trans r1, l2.trans l1, s2⟩

/-- The full claim for the mirror: naturally aligned accesses in the RAM. -/
def MirrorCorrect : Prop :=
  ∀ (d : Debug) (s : Arch) (i : Instr), d.WF → d.Shows s →
    (d.rom[d.pc.toNat / 4]?) = decodeWord true (encode i) →
    (∀ o rd rs1 rs2, i ≠ .mul o rd rs1 rs2) →
    (∀ a n, i.access s = some (a, n) → a.toNat % n = 0) →
    i.inWindow s ramBase (4 * d.ram.length) →
    ∃ d2, d.step = some d2 ∧ d2.Shows (exec i s)

/-- `lbu x1, 1(x2)` with `x2` at the start of a RAM that holds `0x0000BBAA`. -/
def exMirror : Debug :=
  { Debug.new 1 1 with
    rom := [entry (.load .lbu 1 2 1)]
    registers := [0, 0, 0x40000] ++ List.replicate 29 0
    ram := [0x0000BBAA#32] }

/-- `lbu` of the second byte of a word returns the first one. -/
theorem C35_fails : ¬ MirrorCorrect := by
  intro h
  have hs : exMirror.Shows ⟨0#32, fun r => if r = 2#5 then 0x40000#32 else 0#32,
      fun a => if a = 0x40000#32 then 0xAA#8 else if a = 0x40001#32 then 0xBB#8 else 0#8⟩ := by
    refine ⟨rfl, by decide, ?_⟩
    intro k w hk j hj
    have hk0 : k = 0 := by
      have := (List.getElem?_eq_some_iff.mp hk).1
      simp [exMirror] at this; exact this
    subst hk0
    have : w = 0x0000BBAA#32 := (Option.some.inj hk).symm
    subst this
    have : j = 0 ∨ j = 1 ∨ j = 2 ∨ j = 3 := by omega
    rcases this with rfl | rfl | rfl | rfl <;> decide
  obtain ⟨d2, h1, h2⟩ := h exMirror _ (.load .lbu 1 2 1) ⟨by decide, by decide, by decide⟩ hs
    (by decide) (by intro o rd rs1 rs2 hc; cases hc)
    (by intro a n hc; cases hc; decide) (by intro a n hc; cases hc; decide)
  have h3 := h2.reg 1#5
  have h4 : exMirror.step.bind (fun d => d.registers[1]?) = some 0xAA#32 := by decide
  rw [h1, Option.bind_some] at h4
  have h5 : d2.registers[1]? = some 0xBB#32 := h3
  rw [h5] at h4
  exact absurd h4 (by decide)

/-- A store and a load at a multiple of four. -/
example : (Instr.store .sh 2 1 2).supported ⟨0#32, fun r => if r = 2#5 then 0x40000#32 else 0#32, fun _ => 0#8⟩ :=
  (by decide : (0x40000#32 + immI 2).toNat % 2 = 0)

/-- `sb x2, 2(x2); lw x1, 0(x2)`. -/
def exMirror2 : Debug :=
  { Debug.new 2 4 with
    rom := [entry (.store .sb 2 2 2), entry (.load .lw 1 2 0)]
    registers := [0, 0, 0x4000C] ++ List.replicate 29 0
    ram := [1, 2, 3, 4] }
example : (exMirror2.run 2).map (fun d => (d.registers[1]?, d.ram, d.pc)) =
    some (some 0x000C0004#32, [1, 2, 3, 0x000C0004], 8#32) := by decide

end Verif.Props
