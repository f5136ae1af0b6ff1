import Verif.Props.EveryWord
/-
  C96 with the comparison: when `execute` succeeds, for every program the encrypted VM accepts.
-/
namespace Verif.Props
open Model Model.Link Spec Boot ElfFile

/-- A SYSTEM word on the mirror. -/
theorem system_core (d : Debug) (s : Arch) (w : Word) (dbg : Bool) (hw : d.WF) (hs : d.Shows s)
    (hf : d.rom[d.pc.toNat / 4]? = decodeWord dbg w) (hsys : w.setWidth 7 = 0b1110011#7) :
    ∃ d2 dl, d.step = some d2 ∧ d2.WF ∧ d2.rom = d.rom ∧ d2.ram.length = d.ram.length ∧
      d2.Shows (execMirror d.ram.length (.opImm .addi 0#5 0#5 0#12) s) ∧ d.loaded = some dl ∧ dl.ram = d.ram ∧
      dl.ins = ⟨0#32, 0#32, 0#32, 0#32, RdUpdate.NONE.id, RamUpdate.NONE.id, PcUpdate.NONE.id⟩ := by
  have hpos := hw.pos
  have h0 : d.registers[0]? = some 0#32 := hs.reg 0#5
  have hf0 := hf
  rw [C48_decode dbg w hsys] at hf
  have hins : d.rom[(d.pc >>> 2).toNat]? = some ⟨0#32, 0#32, 0#32, 0#32, RdUpdate.NONE.id, RamUpdate.NONE.id, PcUpdate.NONE.id⟩ := by
    rw [toNat_shift2]; exact hf
  obtain ⟨v, hv⟩ : ∃ v, d.ram[((0#32 + 0#32 - (1#32 <<< 18)) >>> 2).toNat % d.ram.length]? = some v :=
    ⟨_, List.getElem?_eq_getElem (Nat.mod_lt _ hpos)⟩
  obtain ⟨d2, hd2⟩ := Debug.step_total (o := .NONE) (ro := .NONE) (po := .NONE) hins h0 h0 hv (by decide) rfl rfl rfl
    (by rw [hw.regs]; decide)
  obtain ⟨m1, m2, m3⟩ := C48_mirror d d2 w dbg hsys h0 hd2 (fun i hi => by rw [← hf0, hi])
  obtain ⟨dl, i', a', b', v', r, o, ro, po, hl, c⟩ := Debug.step_inv hd2
  have ei := Option.some.inj (c.ins.symm.trans hins)
  refine ⟨d2, dl, hd2, ⟨by rw [m1]; exact hw.regs, by rw [m2]; exact hpos, by rw [m2]; exact hw.top⟩, ?_, by rw [m2], ?_, hl, ?_, ?_⟩
  · rw [c.result, c.loaded]
  · refine ⟨?_, fun q => ?_, ?_⟩
    · rw [m3, hs.pcEq]; rfl
    · rw [m1, hs.reg q]
      show some (if q = 0#5 then 0#32 else s.reg q) = some (if q = 0#5 then 0#32 else if q = 0#5 ∧ 0#5 ≠ 0#5 then _ else s.reg q)
      rw [if_neg (fun h : q = 0#5 ∧ 0#5 ≠ 0#5 => h.2 rfl)]
    · rw [m2]; exact hs.mem
  · rw [c.loaded]
  · rw [c.loaded]; exact ei

/-- One cycle with the comparison at any accepted word. -/
theorem every_compared (F : Fhe) (vm : Interp F.B) (d : Debug) (s : Arch) (w : Word) (i : Instr) (dbg : Bool) (k : Nat)
    (h : F.Runs vm d) (hw : d.WF) (hs : d.Shows s) (hk : d.ram.length = 2 ^ k) (hr : ReadsAs w i)
    (hf : d.rom[d.pc.toNat / 4]? = decodeWord dbg w) (hc : vm.cycle ≠ 0xFFFFFFFF#32) :
    ((∃ r, cycleDebug F.decU F.decP F.C vm d = some r) ↔ debugOk d.ram.length i s) ∧
    ∀ r, cycleDebug F.decU F.decP F.C vm d = some r → F.Runs r.1 r.2 ∧ r.2.WF ∧ r.2.rom = d.rom ∧ r.2.ram.length = d.ram.length ∧
      r.2.Shows (execMirror d.ram.length i s) ∧ r.1.cycle = vm.cycle + 1#32 := by
  rcases reads_entry hr dbg with he | ⟨hsys, rfl⟩
  · exact C95_cycle F vm d s i dbg k h hw hs hk (by rw [hf, he, decodeWord_encode]) hc
  · obtain ⟨d2, dl, e1, e2, e3, e4, e5, l1, l2, l3⟩ := system_core d s w dbg hw hs hf
      (by rw [← hsys]; exact BitVec.setWidth_eq_extractLsb' (by decide))
    have sup : Supported dl := ⟨fun hlb => by rw [l3] at hlb; exact absurd hlb (by decide), Or.inl (by rw [l3]), Or.inl ⟨k, by rw [l2]; exact hk⟩⟩
    obtain ⟨vm2, q1, q2⟩ := C52_debug_passes F vm d dl d2 h e1 l1 sup hc
    refine ⟨⟨fun _ => trivial, fun _ => ⟨_, q1⟩⟩, fun r hr => ?_⟩
    have : (vm2, d2) = r := Option.some.inj (q1.symm.trans hr)
    subst this
    refine ⟨q2, e2, e3, e4, e5, ?_⟩
    unfold cycleDebug at q1
    obtain ⟨t, -, q1⟩ := Option.bind_eq_some_iff.mp q1
    obtain ⟨_, -, q1⟩ := Option.bind_eq_some_iff.mp q1
    obtain ⟨_, -, q1⟩ := Option.bind_eq_some_iff.mp q1
    split at q1
    · have h2 : vm2 = vm.next t := (congrArg Prod.fst (Option.some.inj q1)).symm
      show vm2.cycle = _
      rw [h2]; rfl
    · cases q1

/-- Outside the program the mirror panics. -/
theorem outside_compared (F : Fhe) (vm : Interp F.B) (d : Debug) (hf : d.rom[d.pc.toNat / 4]? = none) :
    cycleDebug F.decU F.decP F.C vm d = none := by
  have hn : d.step = none := by
    cases hd : d.step with
    | none => rfl
    | some d2 =>
      obtain ⟨_, _, _, _, _, _, _, _, _, -, c⟩ := Debug.step_inv hd
      have := c.ins
      rw [toNat_shift2] at this
      rw [show d.pc.toNat / 2 ^ 2 = d.pc.toNat / 4 from rfl, hf] at this
      cases this
  unfold cycleDebug
  rw [hn]
  cases vm.trace <;> cases d.loaded <;> rfl

/-- Any number of cycles: they succeed exactly if the machine of the mirror stays in the program and meets nothing at which the two
executions differ. -/
theorem every_cycles (F : Fhe) (fetch : Word → Option Instr) (dbg : Bool) (k : Nat) : ∀ (n : Nat) (ev : EncVM F.B) (d : Debug)
    (s : Arch), ev.mirror = some d → F.Runs ev.interp d → d.WF → d.Shows s → d.ram.length = 2 ^ k →
    (∀ pc i, fetch pc = some i → ∃ w, ReadsAs w i ∧ d.rom[pc.toNat / 4]? = decodeWord dbg w) →
    (∀ pc, fetch pc = none → d.rom[pc.toNat / 4]? = none) → ev.interp.cycle.toNat + n < 2 ^ 32 →
    ((∃ ev2, EncVM.cycles F.C F.decU F.decP n ev = some ev2) ↔
      (∃ s', RunsWith fetch (execMirror d.ram.length) n s s') ∧
      ∀ m, m < n → ∀ a i, RunsWith fetch (execMirror d.ram.length) m s a → fetch a.pc = some i → debugOk d.ram.length i a) ∧
    ∀ ev2, EncVM.cycles F.C F.decU F.decP n ev = some ev2 → ∃ i2 d2 s', ev2 = { ev with interp := i2, mirror := some d2 } ∧
      F.Runs i2 d2 ∧ d2.ram.length = d.ram.length ∧ d2.Shows s' ∧ RunsWith fetch (execMirror d.ram.length) n s s' := by
  intro n
  induction n with
  | zero =>
    intro ev d s hm hr hw hs hk hf hx hn
    refine ⟨⟨fun _ => ⟨⟨s, .zero s⟩, fun m hm => absurd hm (by omega)⟩, fun _ => ⟨ev, rfl⟩⟩, fun ev2 e => ⟨ev.interp, d, s, ?_, hr, rfl, hs, .zero s⟩⟩
    rw [← hm]
    exact (Option.some.inj e).symm
  | succ n ih =>
    intro ev d s hm hr hw hs hk hf hx hn
    have hne : ev.interp.cycle ≠ 0xFFFFFFFF#32 := by
      intro hc; rw [hc] at hn; simp at hn; omega
    have hcy : EncVM.cycle F.C F.decU F.decP ev =
        (cycleDebug F.decU F.decP F.C ev.interp d).map fun r => { ev with interp := r.1, mirror := some r.2 } := by
      unfold EncVM.cycle; rw [hm]
    have hcs : EncVM.cycles F.C F.decU F.decP (n + 1) ev = (EncVM.cycle F.C F.decU F.decP ev).bind (EncVM.cycles F.C F.decU F.decP n) := rfl
    rw [hcs, hcy]
    cases h1 : fetch s.pc with
    | none =>
      rw [outside_compared F ev.interp d (by rw [hs.pcEq]; exact hx _ h1)]
      refine ⟨⟨fun ⟨_, e⟩ => (by cases e), fun ⟨⟨s', h⟩, _⟩ => ?_⟩, fun _ e => (by cases e)⟩
      cases h with
      | succ g1 _ => rw [h1] at g1; cases g1
    | some i =>
      obtain ⟨w, hrd, hdw⟩ := hf _ _ h1
      obtain ⟨c1, c2⟩ := every_compared F ev.interp d s w i dbg k hr hw hs hk hrd (by rw [hs.pcEq]; exact hdw) hne
      by_cases hok : debugOk d.ram.length i s
      · obtain ⟨r, hr1⟩ := c1.mpr hok
        obtain ⟨q1, q2, q3, q4, q5, q6⟩ := c2 r hr1
        have hn' : r.1.cycle.toNat + n < 2 ^ 32 := by
          rw [q6, BitVec.toNat_add, Nat.mod_eq_of_lt] <;> simp <;> omega
        obtain ⟨a1, a2⟩ := ih { ev with interp := r.1, mirror := some r.2 } r.2 _ rfl q1 q2 q5 (q4.trans hk) (by rw [q3]; exact hf)
          (by rw [q3]; exact hx) hn'
        rw [q4] at a1 a2
        rw [hr1, Option.map_some, Option.bind_some]
        refine ⟨a1.trans ⟨fun ⟨⟨s', g0⟩, g⟩ => ⟨⟨s', .succ h1 g0⟩, fun m hm a j hra hj => ?_⟩, fun ⟨⟨s', g0⟩, g⟩ => ⟨?_, fun m hm a j hra hj => ?_⟩⟩,
          fun ev2 e => ?_⟩
        · cases hra with
          | zero => rw [h1] at hj; obtain rfl := Option.some.inj hj; exact hok
          | succ g1 g3 =>
            rw [h1] at g1
            obtain rfl := Option.some.inj g1
            exact g _ (by omega) a j g3 hj
        · cases g0 with
          | succ g1 g3 =>
            rw [h1] at g1
            obtain rfl := Option.some.inj g1
            exact ⟨s', g3⟩
        · exact g (m + 1) (by omega) a j (.succ h1 hra) hj
        · obtain ⟨i2, d2, s', b1, b2, b3, b4, b5⟩ := a2 ev2 e
          exact ⟨i2, d2, s', b1, b2, b3, b4, .succ h1 b5⟩
      · have hn1 : cycleDebug F.decU F.decP F.C ev.interp d = none := by
          cases hcd : cycleDebug F.decU F.decP F.C ev.interp d with
          | none => rfl
          | some r => exact absurd (c1.mp ⟨r, hcd⟩) hok
        rw [hn1]
        exact ⟨⟨fun ⟨_, e⟩ => (by cases e), fun g => absurd (g.2 0 (by omega) s i (.zero s) h1) hok⟩, fun _ e => (by cases e)⟩

/-- The encrypted VM with the comparison, for every program it takes, every input and every number of cycles, under any correct library:
`execute` succeeds exactly if the machine of the mirror makes `n` steps in the program and meets nothing at which the two executions
differ; and then the output tape is the declared part of the RAM that machine leaves. -/
theorem C96_compared (F : Fhe) (rand : Nat → Nat → Nat → F.C.Rand) (chk dbg : Bool) (threads n : Nat) (e : Elf)
    (p : Phantom) (tape : List Byte) (ev : EncVM F.B) (hp : Phantom.fromElf e = some p) (ht : 0 < threads) (hn : n < 2 ^ 32)
    (hev : p.encryptedVm F.C rand dbg true threads tape n = some ev)
    (hoff : p.bootRam.offset < 2 ^ 32) (hb : p.bootRam.offset ≤ p.output.startAddr)
    (he : p.output.startAddr + p.output.size ≤ p.bootRam.offset + 4096) :
    ∃ fetch bytes, FetchWord p.bootRom.data 32 fetch ∧
      (∀ pc : Word, (fetch pc).isSome = true ↔ pc.toNat / 4 < p.bootRom.data.length / 4) ∧
      Placed p.bootRam.data (p.input.startAddr - p.bootRam.offset) tape bytes ∧
      ((∃ ev2, ev.execute F.C F.decU F.decP = some ev2) ↔ (∃ s', RunsWith fetch (execMirror 1024) n (startState bytes) s') ∧
        ∀ m, m < n → ∀ a i, RunsWith fetch (execMirror 1024) m (startState bytes) a → fetch a.pc = some i → debugOk 1024 i a) ∧
      ∀ ev2, ev.execute F.C F.decU F.decP = some ev2 → ∃ s', RunsWith fetch (execMirror 1024) n (startState bytes) s' ∧
        ev2.outputTape F.C chk = some (ramBytes s' (p.output.startAddr - p.bootRam.offset) p.output.size) := by
  obtain ⟨-, -, -, -, bytes, -, -, -, hcp, -⟩ := encryptedVm_inv hev
  obtain ⟨-, hin⟩ := placed_copyInto hcp
  obtain ⟨d, hw, hs, hl, hr, hc, ho, hro, hmc, hmir, h4, hacc, hrom, hrl⟩ :=
    encrypted_words F rand dbg true threads n e p tape bytes ev hp ht hev hin
  obtain ⟨fetch, hf, hd⟩ := C96_fetch p.bootRom.data 32 h4 (fun w h => decodeWord_accepted (hacc w h))
  have hd : ∀ pc : Word, (fetch pc).isSome = true ↔ pc.toNat / 4 < p.bootRom.data.length / 4 := by
    intro pc
    have := hd pc
    rwa [Nat.mod_eq_of_lt pc.isLt] at this
  obtain ⟨a1, a2⟩ := every_cycles F fetch dbg 10 n ev d (startState bytes) (by rw [hmir]; rfl) hr hw hs hl
    (fun pc i h => by
      obtain ⟨w, hcw, hra⟩ := (hf pc i).mp h
      rw [Nat.mod_eq_of_lt pc.isLt] at hcw
      exact ⟨w, hra, hrom _ _ ((packWords_word h4).mpr hcw)⟩)
    (fun pc h => by
      rw [List.getElem?_eq_none_iff, hrl]
      refine Nat.le_of_not_lt fun hlt => ?_
      have := (hd pc).mpr hlt
      rw [h] at this
      cases this) (by rw [hc]; simpa using hn)
  rw [show d.ram.length = 1024 from hl] at a1 a2
  refine ⟨fetch, bytes, hf, hd, hin, ?_, fun ev2 e2 => ?_⟩
  · unfold EncVM.execute
    rw [hmc]
    exact a1
  · unfold EncVM.execute at e2
    rw [hmc] at e2
    obtain ⟨i2, d2, s', b1, b2, b3, b4, b5⟩ := a2 ev2 e2
    subst b1
    obtain ⟨-, p2, -⟩ := C29_observe F i2 d2 b2
    exact ⟨s', b5, output_bytes F chk { ev with interp := i2, mirror := some d2 } d2.ram s' p (p2 _ (by rw [b3, List.length_replicate]))
      b3 b4.mem ho hro hoff hb he⟩

/-- The program of `C96_odd` gets through the comparison for five cycles and not for six: then comes the multiplication. -/
theorem C96_odd_compared (F : Fhe) (rand : Nat → Nat → Nat → F.C.Rand) (dbg : Bool) (threads n : Nat) (ht : 0 < threads)
    (hn : n < 2 ^ 32) (x : Word) : ∃ ev, oddGuest.encryptedVm F.C rand dbg true threads (fourBytes x) n = some ev ∧
      ((∃ ev2, ev.execute F.C F.decU F.decP = some ev2) ↔ n ≤ 5) := by
  obtain ⟨q, hq⟩ : ∃ q, Parser.new.addAll dbg (packWords oddGuest.bootRom.data) = some q := by
    rw [← Option.isSome_iff_exists]; cases dbg <;> decide +kernel
  obtain ⟨ev, hev⟩ := C42_setup F rand dbg true threads n oddElf oddGuest (fourBytes x) q odd_elf
    (by decide +kernel) (by decide +kernel) hq ((by decide +kernel : 4 = oddGuest.input.size)) (by decide +kernel) (by decide +kernel)
  obtain ⟨fetch, bytes, hf, -, -, hiff, -⟩ := C96_compared F rand true dbg threads n oddElf oddGuest (fourBytes x) ev odd_elf
    ht hn hev (by decide +kernel) (by decide +kernel) (by decide +kernel)
  have code := odd_code (by decide) hf
  have run : ∀ k, k ≤ 5 → ∃ s, RunsWith fetch (execMirror 1024) k (startState bytes) s ∧ s.pc = BitVec.ofNat 32 (4 * k) := by
    intro k
    induction k with
    | zero => exact fun _ => ⟨_, .zero _, rfl⟩
    | succ k ih =>
      intro hk
      obtain ⟨s, hr, hpc⟩ := ih (by omega)
      obtain ⟨i, hi⟩ : ∃ i, oddCode[k]? = some i := ⟨_, List.getElem?_eq_getElem (show k < 7 by omega)⟩
      refine ⟨_, runsWith_append hr (.succ (by rw [hpc]; exact code k i hi (by omega)) (.zero _)), ?_⟩
      have next : s.pc + 4#32 = BitVec.ofNat 32 (4 * (k + 1)) := by
        rw [hpc, BitVec.add_comm, ← BitVec.ofNat_add, Nat.mul_succ, Nat.add_comm]
      rw [← next]
      have : k = 0 ∨ k = 1 ∨ k = 2 ∨ k = 3 ∨ k = 4 := by omega
      rcases this with rfl | rfl | rfl | rfl | rfl <;> cases hi <;> rfl
  refine ⟨ev, hev, hiff.trans ⟨fun ⟨_, g⟩ => Nat.le_of_not_lt fun h => ?_, fun h => ⟨?_, fun m hm a i hra hi => ?_⟩⟩⟩
  · obtain ⟨s, hr, hpc⟩ := run 5 (by decide)
    exact g 5 h s _ hr (by rw [hpc]; exact code 5 _ rfl (by decide))
  · obtain ⟨s, hr, -⟩ := run n h
    exact ⟨s, hr⟩
  · obtain ⟨s, hr, hpc⟩ := run m (by omega)
    cases runsWith_unique hr hra
    obtain ⟨j, hj⟩ : ∃ i, oddCode[m]? = some i := ⟨_, List.getElem?_eq_getElem (show m < 7 by omega)⟩
    rw [hpc, code m j hj (by omega)] at hi
    cases hi
    have : m = 0 ∨ m = 1 ∨ m = 2 ∨ m = 3 ∨ m = 4 := by omega
    rcases this with rfl | rfl | rfl | rfl | rfl <;> cases hj <;> exact trivial

example : ∃ ev ev2, oddGuest.encryptedVm sampleFhe.C (fun _ _ _ => ()) true true 3 [1#8, 2#8, 3#8, 4#8] 5 = some ev ∧
    ev.execute sampleFhe.C sampleFhe.decU sampleFhe.decP = some ev2 := by
  obtain ⟨ev, h1, h2⟩ := C96_odd_compared sampleFhe (fun _ _ _ => ()) true 3 5 (by decide) (by decide) 0x04030201#32
  obtain ⟨ev2, h⟩ := h2.mpr (by decide)
  exact ⟨ev, ev2, h1, h⟩

end Verif.Props
