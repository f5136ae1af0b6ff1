import Verif.Spec.DebugOk
import Verif.Props.AllInstr
/-
  C95: the comparison with the mirror, exactly.
-/
namespace Verif.Props
open Model Model.Link Spec Boot ElfFile

theorem ok_jump (words : Nat) (i : Instr) (s : Arch) (h : debugOk words i s) :
    (expectedPc i).id = PcUpdate.NONE.id ∨ ((romImm i).setWidth 20).signExtend 32 = romImm i := by
  cases i with
  | load => exact Or.inl rfl
  | jal rd imm => exact jump20 (.jal rd imm) s h
  | mul => exact h.elim
  | lui => exact Or.inl rfl
  | auipc => exact Or.inl rfl
  | _ => exact jump20 _ s trivial

/-- A distance that does not fit in 20 bits is not its own low 20 bits. -/
theorem far_jump (imm : BitVec 20) (h : ¬ (-2 ^ 18 ≤ imm.toInt ∧ imm.toInt < 2 ^ 18)) :
    ((immJ imm).setWidth 20).signExtend 32 ≠ immJ imm := by
  intro e
  apply h
  have e1 : (imm.signExtend 32).toInt = imm.toInt := BitVec.toInt_signExtend_of_le (by omega)
  have lo := BitVec.le_toInt imm
  have hi := BitVec.toInt_lt (x := imm)
  have e2 : (immJ imm).toInt = 2 * imm.toInt := by
    show (imm.signExtend 32 <<< 1).toInt = _
    rw [BitVec.toInt_shiftLeft, Nat.shiftLeft_eq]
    have h3 : ((imm.signExtend 32).toNat * 2 ^ 1 : Nat).cast = (2 * ((imm.signExtend 32).toNat : Int)) := by
      push_cast; omega
    have h4 := BitVec.toInt_eq_toNat_bmod (imm.signExtend 32)
    rw [h3]
    rw [e1] at h4
    have h5 : (2 * ((imm.signExtend 32).toNat : Int)).bmod (2 ^ 32) = (2 * imm.toInt).bmod (2 ^ 32) := by
      rw [h4, Int.mul_bmod_bmod]
    rw [h5]
    apply Int.bmod_eq_of_le <;> omega
  have e3 := congrArg BitVec.toInt e
  rw [BitVec.toInt_signExtend_of_le (by omega), e2] at e3
  have := BitVec.le_toInt ((immJ imm).setWidth 20)
  have := BitVec.toInt_lt (x := (immJ imm).setWidth 20)
  omega

theorem loaded_byte {d : Debug} {s : Arch} (hw : d.WF) (hs : d.Shows s) (rd rs1 : Reg) (imm : BitVec 12) (v : U32)
    (hv : d.ram[(cycleAddr (.load .lb rd rs1 imm) s).toNat / 4 % d.ram.length]? = some v) :
    debugOk d.ram.length (.load .lb rd rs1 imm) s ↔ v.getLsbD 7 = false := by
  have wa := (wordAt_index hw hs _ _ hv).1
  have ea : BitVec.ofNat 32 (ramBase + 4 * ((cycleAddr (.load .lb rd rs1 imm) s).toNat / 4 % d.ram.length))
      = ramWord d.ram.length (s.x rs1 + immI imm) := by
    unfold ramWord cycleAddr
    simp only [romImm, operands]
    rw [BitVec.add_comm (immI imm)]
  rw [ea] at wa
  show (s.mem _).toNat < 128 ↔ _
  rw [wa, BitVec.extractLsb'_toNat, Nat.shiftRight_zero, BitVec.getLsbD, Nat.testBit_eq_decide_div_mod_eq]
  simp only [decide_eq_false_iff_not]
  omega

theorem byte_signed (v : U32) (h : v.getLsbD 7 = true) : v &&& 0xFF#32 ≠ (v.setWidth 8).signExtend 32 := by
  intro e
  have e1 := congrArg (fun x => BitVec.getLsbD x 31) e
  have e2 : (v &&& 0xFF#32).getLsbD 31 = false := by
    rw [BitVec.getLsbD_and, show (0xFF#32).getLsbD 31 = false by decide, Bool.and_false]
  have e3 : ((v.setWidth 8).signExtend 32).getLsbD 31 = true := by
    rw [BitVec.getLsbD_signExtend, BitVec.msb_eq_getLsbD_last, if_neg (by decide), BitVec.getLsbD_setWidth]
    show (true && (true && v.getLsbD 7)) = true
    rw [h]; rfl
  simp only [e2, e3] at e1
  cases e1

/-- One cycle with the comparison. -/
theorem C95_cycle (F : Fhe) (vm : Interp F.B) (d : Debug) (s : Arch) (i : Instr) (dbg : Bool) (k : Nat) (h : F.Runs vm d) (hw : d.WF)
    (hs : d.Shows s) (hk : d.ram.length = 2 ^ k) (hf : d.rom[d.pc.toNat / 4]? = decodeWord dbg (encode i))
    (hc : vm.cycle ≠ 0xFFFFFFFF#32) :
    ((∃ r, cycleDebug F.decU F.decP F.C vm d = some r) ↔ debugOk d.ram.length i s) ∧
    ∀ r, cycleDebug F.decU F.decP F.C vm d = some r → F.Runs r.1 r.2 ∧ r.2.WF ∧ r.2.rom = d.rom ∧ r.2.ram.length = d.ram.length ∧
      r.2.Shows (execMirror d.ram.length i s) ∧ r.1.cycle = vm.cycle + 1#32 := by
  by_cases hi : i.isBase
  swap
  · obtain ⟨o, rd, rs1, rs2, rfl⟩ : ∃ o rd rs1 rs2, i = .mul o rd rs1 rs2 := by
      cases i with
      | mul o rd rs1 rs2 => exact ⟨o, rd, rs1, rs2, rfl⟩
      | _ => exact absurd trivial hi
    have hn : cycleDebug F.decU F.decP F.C vm d = none := by
      unfold cycleDebug
      rw [C87_mirror d dbg o rd rs1 rs2 hf]
      cases vm.trace <;> cases d.loaded <;> rfl
    rw [hn]
    exact ⟨⟨fun ⟨_, e⟩ => (by cases e), fun e => e.elim⟩, fun _ e => (by cases e)⟩
  obtain ⟨d2, e1, e2, e3, e4, e5, dl, l1, l2, l3, l4⟩ := exact_core d s i dbg hw hs hf hi
  by_cases hok : debugOk d.ram.length i s
  · have sup : Supported dl := by
      refine ⟨fun hlb => ?_, ?_, Or.inl ⟨k, by rw [l3]; exact hk⟩⟩
      · rw [l2] at hlb
        have : expectedRd i = .LB := rdUpdate_inj _ _ hlb
        obtain ⟨rd, rs1, imm, rfl⟩ : ∃ rd rs1 imm, i = .load .lb rd rs1 imm := by
          cases i with
          | load o rd rs1 imm => cases o <;> first | exact ⟨rd, rs1, imm, rfl⟩ | (simp [expectedRd] at this)
          | opImm o => cases o <;> simp [expectedRd] at this
          | shImm o => cases o <;> simp [expectedRd] at this
          | op o => cases o <;> simp [expectedRd] at this
          | mul => exact hi.elim
          | _ => simp [expectedRd] at this
        exact (loaded_byte hw hs rd rs1 imm _ l4).mp hok
      · rw [l2]; exact ok_jump _ i s hok
    obtain ⟨vm2, q1, q2⟩ := C52_debug_passes F vm d dl d2 h e1 l1 sup hc
    refine ⟨⟨fun _ => hok, fun _ => ⟨_, q1⟩⟩, fun r hr => ?_⟩
    have : (vm2, d2) = r := Option.some.inj (q1.symm.trans hr)
    subst this
    refine ⟨q2, e2, e3, e4, e5, ?_⟩
    unfold cycleDebug at q1
    obtain ⟨t, -, q1⟩ := Option.bind_eq_some_iff.mp q1
    obtain ⟨_, -, q1⟩ := Option.bind_eq_some_iff.mp q1
    obtain ⟨_, -, q1⟩ := Option.bind_eq_some_iff.mp q1
    split at q1
    · have h2 : vm2 = vm.next t := (congrArg Prod.fst (Option.some.inj q1)).symm
      show vm2.cycle = _
      rw [h2]; rfl
    · cases q1
  · have hn : cycleDebug F.decU F.decP F.C vm d = none := by
      have hlt : d.pc.toNat / 4 < d.rom.length := by
        rw [decodeWord_encode] at hf
        exact (List.getElem?_eq_some_iff.mp hf).1
      have hpc : d.pc.toNat < 2 ^ (bitsFor d.rom.length + 2) := by
        have := le_two_pow_bitsFor d.rom.length
        rw [Nat.pow_add]; omega
      obtain ⟨d2', f1, f2, f3, f4, f5⟩ := C35_encrypted_exact d s i dbg k hw hs hk (by rw [Nat.mod_eq_of_lt hpc]; exact hf) hi
      have hwrap : s.wrapPc (bitsFor d.rom.length + 2) = s := by
        unfold Arch.wrapPc
        rw [← hs.pcEq, Nat.mod_eq_of_lt hpc, BitVec.ofNat_toNat, BitVec.setWidth_eq, hs.pcEq]
      rw [hwrap] at f5
      obtain ⟨pc, j, a, b, v, r, o, ro, po, c⟩ := cycle_inv f1
      obtain ⟨t, et, sh, -⟩ := h.trace c hc
      unfold cycleDebug
      rw [et, Option.bind_some, l1, Option.bind_some, e1, Option.bind_some, if_neg]
      unfold assertions
      intro hall
      simp only [Bool.decide_and, decide_eq_true_eq, Bool.and_eq_true] at hall
      have hrd := hall.2.2.2.2.2.2.2.2.2.2.2.2.1
      have hld := hall.2.2.2.2.2.2.2.2.2.2.2.1
      have hpc' := hall.2.2.2.2.2.2.2.2.2.2.2.2.2.2.2.2
      rw [sh.rdVal] at hrd
      rw [sh.loaded] at hld
      rw [sh.pc] at hpc'
      cases i with
      | jal rd imm =>
        rw [f5.pcEq, e5.pcEq] at hpc'
        have hpc' : s.pc + ((immJ imm).setWidth 20).signExtend 32 = s.pc + immJ imm := hpc'
        exact far_jump imm hok (by simpa using hpc')
      | load op rd rs1 imm =>
        cases op with
        | lb =>
          have hbit : dl.ramVal.getLsbD 7 = true := by
            cases hb : dl.ramVal.getLsbD 7 with
            | true => rfl
            | false => exact absurd ((loaded_byte hw hs rd rs1 imm _ l4).mpr hb) hok
          obtain ⟨dl', j', a', b', v', r', o', ro', po', hl', c'⟩ := Debug.step_inv e1
          rw [l1] at hl'
          obtain rfl := Option.some.inj hl'
          have ev : dl.ramVal = v' := by rw [c'.loaded]
          have ej' : j' = entry (.load .lb rd rs1 imm) := by rw [← l2, c'.loaded]
          have ej : j = entry (.load .lb rd rs1 imm) := by
            have := c.ins
            rw [c.pcEq, BitVec.toNat_ofNat, Nat.mod_eq_of_lt hpc, Nat.mod_eq_of_lt d.pc.isLt, hf, decodeWord_encode] at this
            exact (Option.some.inj this).symm
          have eo' : o' = .LB := rdUpdate_inj _ _ (by rw [c'.opId, ej']; rfl)
          have eo : o = .LB := rdUpdate_inj _ _ (by rw [c.opId, ej]; rfl)
          have hv' := c'.val
          have hv := c.val
          rw [eo', ← ev] at hv'
          rw [eo] at hv
          have er : r = v &&& 0xFF#32 := (Option.some.inj hv).symm
          have er' : r' = (dl.ramVal.setWidth 8).signExtend 32 :=
            (Option.some.inj ((sext7 dl.ramVal).symm.trans hv')).symm
          have g1 : d2'.rdVal = r := by rw [c.result]
          have g2 : d2.rdVal = r' := by rw [c'.result]
          rw [g1, g2, er, er', hld] at hrd
          exact byte_signed _ hbit hrd
        | _ => exact hok trivial
      | mul => exact hi.elim
      | _ => exact hok trivial
    rw [hn]
    exact ⟨⟨fun ⟨_, e⟩ => (by cases e), fun e => absurd e hok⟩, fun _ e => (by cases e)⟩

/-- Any number of cycles. -/
theorem debug_runs (F : Fhe) (fetch : Word → Option Instr) (dbg : Bool) (k : Nat) (s' : Arch) : ∀ (n : Nat) (ev : EncVM F.B) (d : Debug)
    (s : Arch), ev.mirror = some d → F.Runs ev.interp d → d.WF → d.Shows s → d.ram.length = 2 ^ k →
    (∀ pc i, fetch pc = some i → d.rom[pc.toNat / 4]? = decodeWord dbg (encode i)) → ev.interp.cycle.toNat + n < 2 ^ 32 →
    RunsWith fetch (execMirror d.ram.length) n s s' →
    ((∃ ev2, EncVM.cycles F.C F.decU F.decP n ev = some ev2) ↔
      ∀ m, m < n → ∀ a i, RunsWith fetch (execMirror d.ram.length) m s a → fetch a.pc = some i → debugOk d.ram.length i a) ∧
    ∀ ev2, EncVM.cycles F.C F.decU F.decP n ev = some ev2 → ∃ i2 d2, ev2 = { ev with interp := i2, mirror := some d2 } ∧
      F.Runs i2 d2 ∧ d2.ram.length = d.ram.length ∧ d2.Shows s' := by
  intro n
  induction n with
  | zero =>
    intro ev d s hm hr hw hs hk hf hn h
    cases h
    refine ⟨⟨fun _ m hm => absurd hm (by omega), fun _ => ⟨ev, rfl⟩⟩, fun ev2 e => ⟨ev.interp, d, ?_, hr, rfl, hs⟩⟩
    rw [← hm]
    exact (Option.some.inj e).symm
  | succ n ih =>
    intro ev d s hm hr hw hs hk hf hn h
    cases h with
    | @succ _ i _ _ h1 h3 =>
      have hne : ev.interp.cycle ≠ 0xFFFFFFFF#32 := by
        intro hc; rw [hc] at hn; simp at hn; omega
      obtain ⟨c1, c2⟩ := C95_cycle F ev.interp d s i dbg k hr hw hs hk (by rw [hs.pcEq]; exact hf _ _ h1) hne
      have hcy : EncVM.cycle F.C F.decU F.decP ev =
          (cycleDebug F.decU F.decP F.C ev.interp d).map fun r => { ev with interp := r.1, mirror := some r.2 } := by
        unfold EncVM.cycle; rw [hm]
      have hcs : EncVM.cycles F.C F.decU F.decP (n + 1) ev = (EncVM.cycle F.C F.decU F.decP ev).bind (EncVM.cycles F.C F.decU F.decP n) := rfl
      rw [hcs, hcy]
      by_cases hok : debugOk d.ram.length i s
      · obtain ⟨r, hr1⟩ := c1.mpr hok
        obtain ⟨q1, q2, q3, q4, q5, q6⟩ := c2 r hr1
        have hn' : r.1.cycle.toNat + n < 2 ^ 32 := by
          rw [q6, BitVec.toNat_add, Nat.mod_eq_of_lt] <;> simp <;> omega
        obtain ⟨a1, a2⟩ := ih { ev with interp := r.1, mirror := some r.2 } r.2 _ rfl q1 q2 q5 (q4.trans hk) (by rw [q3]; exact hf)
          hn' (by rw [q4]; exact h3)
        rw [hr1, Option.map_some, Option.bind_some]
        refine ⟨a1.trans ⟨fun g m hm a j hra hj => ?_, fun g m hm a j hra hj => ?_⟩, fun ev2 e => ?_⟩
        · cases hra with
          | zero => rw [h1] at hj; obtain rfl := Option.some.inj hj; exact hok
          | succ g1 g3 =>
            rw [h1] at g1
            obtain rfl := Option.some.inj g1
            rw [q4] at g
            exact g _ (by omega) a j g3 hj
        · rw [q4] at hra ⊢
          exact g (m + 1) (by omega) a j (.succ h1 hra) hj
        · obtain ⟨i2, d2, b1, b2, b3, b4⟩ := a2 ev2 e
          exact ⟨i2, d2, b1, b2, b3.trans q4, b4⟩
      · have hn1 : cycleDebug F.decU F.decP F.C ev.interp d = none := by
          cases hcd : cycleDebug F.decU F.decP F.C ev.interp d with
          | none => rfl
          | some r => exact absurd (c1.mp ⟨r, hcd⟩) hok
        rw [hn1]
        exact ⟨⟨fun ⟨_, e⟩ => (by cases e), fun g => absurd (g 0 (by omega) s i (.zero s) h1) hok⟩, fun _ e => (by cases e)⟩

/-- The encrypted VM with the comparison, for every ELF file that loads: if the machine of the mirror can run for `n` instructions, then
`execute` succeeds with a limit of `n` exactly if none of those instructions is one at which the two executions differ; and then the
output tape is the declared part of the RAM that the machine of the mirror leaves. -/
theorem C95_encrypted (F : Fhe) (rand : Nat → Nat → Nat → F.C.Rand) (chk dbg : Bool) (threads n : Nat) (e : Elf)
    (p : Phantom) (tape bytes : List Byte) (ev : EncVM F.B) (fetch : Word → Option Instr) (s' : Arch)
    (hp : Phantom.fromElf e = some p) (ht : 0 < threads) (hn : n < 2 ^ 32)
    (hev : p.encryptedVm F.C rand dbg true threads tape n = some ev)
    (hin : Placed p.bootRam.data (p.input.startAddr - p.bootRam.offset) tape bytes)
    (hf : ∀ pc i, fetch pc = some i → InstrAt p.bootRom.data (4 * (pc.toNat / 4)) i)
    (hrun : RunsWith fetch (execMirror 1024) n (startState bytes) s')
    (hoff : p.bootRam.offset < 2 ^ 32) (hb : p.bootRam.offset ≤ p.output.startAddr)
    (he : p.output.startAddr + p.output.size ≤ p.bootRam.offset + 4096) :
    ((∃ ev2, ev.execute F.C F.decU F.decP = some ev2) ↔
      ∀ m, m < n → ∀ a i, RunsWith fetch (execMirror 1024) m (startState bytes) a → fetch a.pc = some i → debugOk 1024 i a) ∧
    ∀ ev2, ev.execute F.C F.decU F.decP = some ev2 →
      ev2.outputTape F.C chk = some (ramBytes s' (p.output.startAddr - p.bootRam.offset) p.output.size) := by
  obtain ⟨d, hw, hs, hl, hr, hc, ho, hro, hmc, hmir, hrom, hrl⟩ :=
    encrypted_start F rand dbg true threads n e p tape bytes ev hp ht hev hin
  obtain ⟨a1, a2⟩ := debug_runs F fetch dbg 10 s' n ev d (startState bytes) (by rw [hmir]; rfl) hr hw hs hl
    (fun pc i h => hrom _ _ (hf pc i h)) (by rw [hc]; simpa using hn) (by rw [hl]; exact hrun)
  unfold EncVM.execute
  rw [hmc]
  rw [hl] at a1
  refine ⟨a1, fun ev2 e2 => ?_⟩
  obtain ⟨i2, d2, b1, b2, b3, b4⟩ := a2 ev2 e2
  subst b1
  obtain ⟨-, p2, -⟩ := C29_observe F i2 d2 b2
  exact output_bytes F chk { ev with interp := i2, mirror := some d2 } d2.ram s' p (p2 _ (by rw [b3, hl, List.length_replicate]))
    (b3.trans hl) b4.mem ho hro hoff hb he

/-- The instructions the comparison does not get past: a load of the byte 0x80, a jump over 512 KiB, and a multiplication; it gets past a
load of the byte 0x7f. -/
example : ¬ debugOk 1024 (.load .lb 5 0 0) ⟨0#32, fun _ => 0#32, fun _ => 0x80#8⟩ ∧
    debugOk 1024 (.load .lb 5 0 0) ⟨0#32, fun _ => 0#32, fun _ => 0x7f#8⟩ ∧
    ¬ debugOk 1024 (.jal 0 0x40000) ⟨0#32, fun _ => 0#32, fun _ => 0#8⟩ ∧
    debugOk 1024 (.jal 0 0x3ffff) ⟨0#32, fun _ => 0#32, fun _ => 0#8⟩ ∧
    ¬ debugOk 1024 (.mul .mul 5 5 5) ⟨0#32, fun _ => 0#32, fun _ => 0#8⟩ := by
  refine ⟨?_, ?_, ?_, ?_, fun h => h⟩
  · show ¬ (0x80#8).toNat < 128; decide
  · show (0x7f#8).toNat < 128; decide
  · show ¬ (-2 ^ 18 ≤ (0x40000#20).toInt ∧ (0x40000#20).toInt < 2 ^ 18); decide
  · show -2 ^ 18 ≤ (0x3ffff#20).toInt ∧ (0x3ffff#20).toInt < 2 ^ 18; decide

end Verif.Props
