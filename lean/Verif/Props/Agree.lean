import Verif.Props.Wrap
import Verif.Spec.Agree
/-
  C38: the test VM and the interpreter compute the same thing.
-/
namespace Verif.Props
open Model Spec

theorem wordBytes_length (ws : List Word) : (wordBytes ws).length = 4 * ws.length := by
  induction ws with
  | nil => rfl
  | cons w ws ih =>
    show (bytesLE w ++ wordBytes ws).length = _
    rw [List.length_append, ih]; simp [bytesLE]; omega

theorem wordBytes_get (ws : List Word) (k : Nat) :
    (wordBytes ws)[k]? = (ws[k / 4]?).map fun w => w.extractLsb' (8 * (k % 4)) 8 := by
  induction ws generalizing k with
  | nil => simp [wordBytes]
  | cons w ws ih =>
    show (bytesLE w ++ wordBytes ws)[k]? = _
    by_cases h : k < 4
    · rw [List.getElem?_append_left (by simpa [bytesLE] using h)]
      have : k = 0 ∨ k = 1 ∨ k = 2 ∨ k = 3 := by omega
      rcases this with rfl | rfl | rfl | rfl <;> rfl
    · rw [List.getElem?_append_right (by simpa [bytesLE] using h)]
      have e : (bytesLE w).length = 4 := rfl
      rw [e, ih (k - 4)]
      obtain ⟨j, rfl⟩ : ∃ j, k = j + 4 := ⟨k - 4, by omega⟩
      have : (j + 4) / 4 = j / 4 + 1 := by omega
      rw [this, List.getElem?_cons_succ]
      simp

theorem wordBytes_word (ws : List Word) (k j : Nat) (hj : j < 4) :
    (wordBytes ws)[4 * k + j]? = (ws[k]?).map fun w => w.extractLsb' (8 * j) 8 := by
  rw [wordBytes_get, show (4 * k + j) / 4 = k by omega, show (4 * k + j) % 4 = j by omega]

/-- A common view of two agreeing states. -/
theorem agree_shows {vm : TestVM} {d : Debug} {s : Arch} (hw : vm.WF) (ha : Agree vm d) (hs : vm.Shows s) :
    d.Shows s := by
  refine ⟨ha.pc.trans hs.pcEq, fun r => by rw [ha.regs]; exact hs.reg r, fun k w hk j hj => ?_⟩
  have h1 : (wordBytes d.ram)[4 * k + j]? = some (w.extractLsb' (8 * j) 8) := by
    rw [wordBytes_word _ _ _ hj, hk]; rfl
  have hl : 4 * k + j < vm.ram.size := by
    have := (List.getElem?_eq_some_iff.mp h1).1
    rw [← ha.ram, hw.len] at this; exact this
  have h2 := hs.mem _ hl
  rw [ha.ram, h1, ha.base, ← Nat.add_assoc] at h2
  exact (Option.some.inj h2).symm

theorem shows_agree {vm : TestVM} {d : Debug} {s : Arch} (hw : vm.WF) (hd : d.WF) (h1 : vm.Shows s)
    (h2 : d.Shows s) (hb : vm.ram.offset = ramBase) (hl : vm.ram.size = 4 * d.ram.length) : Agree vm d := by
  refine ⟨h2.pcEq.trans h1.pcEq.symm, ?_, ?_, hb⟩
  · apply List.ext_getElem?
    intro k
    by_cases hk : k < 32
    · have e : (BitVec.ofNat 5 k : Reg).toNat = k := by simp; omega
      have a1 := h1.reg (BitVec.ofNat 5 k)
      have a2 := h2.reg (BitVec.ofNat 5 k)
      rw [e] at a1 a2
      rw [a1, a2]
    · rw [List.getElem?_eq_none (by rw [hd.regs]; omega), List.getElem?_eq_none (by rw [hw.regs]; omega)]
  · apply List.ext_getElem?
    intro k
    rw [wordBytes_get]
    by_cases hk : k < vm.ram.size
    · rw [h1.mem k hk, hb]
      have hk4 : k / 4 < d.ram.length := by omega
      have hm := h2.mem (k / 4) _ (List.getElem?_eq_getElem hk4) (k % 4) (by omega)
      rw [show ramBase + 4 * (k / 4) + k % 4 = ramBase + k by omega] at hm
      rw [hm, List.getElem?_eq_getElem hk4]; rfl
    · rw [List.getElem?_eq_none (by rw [hw.len]; omega), List.getElem?_eq_none (l := d.ram) (by omega)]; rfl

theorem agree_wf {vm : TestVM} {d : Debug} (hw : vm.WF) (ha : Agree vm d) :
    d.WF ∧ vm.ram.size = 4 * d.ram.length := by
  have hl : vm.ram.size = 4 * d.ram.length := by
    rw [← hw.len, ha.ram, wordBytes_length]
  have h1 := hw.pos
  have h2 := hw.top
  rw [ha.base] at h2
  exact ⟨⟨by rw [ha.regs]; exact hw.regs, by omega, by omega⟩, hl⟩

/-- `n` steps related by `R`. -/
inductive Chain (R : Debug → Debug → Prop) : Nat → Debug → Debug → Prop
  | zero (d : Debug) : Chain R 0 d d
  | succ {n : Nat} {d d1 d2 : Debug} (h : R d d1) (hr : Chain R n d1 d2) : Chain R (n + 1) d d2

/-- One step, for any machine `R` that executes the instructions satisfying `ok`. -/
theorem agree_step {vm vm' : TestVM} {d : Debug} {chk dbg : Bool} {ok : Instr → Arch → Prop}
    {R : Debug → Debug → Prop} {n : Nat}
    (hstep : ∀ (d : Debug) (s : Arch) (i : Instr), d.WF → d.Shows s →
      d.rom[d.pc.toNat / 4]? = decodeWord dbg (encode i) → ok i s → d.ram.length = n →
      ∃ d2, R d d2 ∧ d2.WF ∧ d2.rom = d.rom ∧ d2.ram.length = d.ram.length ∧
        d2.Shows (execTest ramBase (4 * d.ram.length) i s))
    (hw : vm.WF) (h0 : vm.registers[0]? = some 0#32) (ha : Agree vm d) (hn : d.ram.length = n)
    (hp : SameProgram chk dbg vm.rom d.rom)
    (hex : vm.Executes chk ok) (h : vm.run chk = some vm') :
    ∃ d', R d d' ∧ Agree vm' d' ∧ vm'.WF ∧ vm'.frame = vm.frame ∧ d'.rom = d.rom ∧ d'.ram.length = n := by
  obtain ⟨s, hs⟩ := C36_shows vm hw h0
  obtain ⟨i, hf, hok⟩ := hex.2 s hs
  obtain ⟨hd, hl⟩ := agree_wf hw ha
  have hds := agree_shows hw ha hs
  have st := C68_testvm chk vm s i hw hs hf
  have hns : ¬ stuck i s chk vm.ram.offset := fun hc => by rw [st.1.mpr hc] at h; cases h
  obtain ⟨vm1, e1, w1, f1, s1⟩ := st.2 hns
  have : vm1 = vm' := Option.some.inj (e1.symm.trans h)
  subst this
  rw [ha.base, hl] at s1
  obtain ⟨d2, e2, w2, r2, l2, s2⟩ := hstep d s i hd hds
    (by rw [ha.pc]; exact hp _ _ hex.1 hf) hok hn
  have hoff : vm1.ram.offset = vm.ram.offset := congrArg (·.2.2.2.2.1) f1
  have hsz : vm1.ram.size = vm.ram.size := congrArg (·.2.2.2.2.2) f1
  exact ⟨d2, e2, shows_agree w1 w2 s1 s2 (hoff.trans ha.base) (by rw [hsz, hl, l2]), w1, f1, r2, l2.trans hn⟩

theorem agree_steps {R : Debug → Debug → Prop} {chk dbg : Bool} {ok : Instr → Arch → Prop} {m : Nat}
    (hstep : ∀ (d : Debug) (s : Arch) (i : Instr), d.WF → d.Shows s →
      d.rom[d.pc.toNat / 4]? = decodeWord dbg (encode i) → ok i s → d.ram.length = m →
      ∃ d2, R d d2 ∧ d2.WF ∧ d2.rom = d.rom ∧ d2.ram.length = d.ram.length ∧
        d2.Shows (execTest ramBase (4 * d.ram.length) i s))
    (n : Nat) (vm vm' : TestVM) (d : Debug) (hw : vm.WF)
    (h0 : vm.registers[0]? = some 0#32) (ha : Agree vm d) (hp : SameProgram chk dbg vm.rom d.rom)
    (hm : d.ram.length = m)
    (hex : ∀ k v, k < n → vm.steps chk k = some v → v.Executes chk ok)
    (h : vm.steps chk n = some vm') :
    ∃ d', Chain R n d d' ∧ Agree vm' d' ∧ vm'.WF ∧ vm'.frame = vm.frame ∧ d'.ram.length = m := by
  induction n generalizing vm d with
  | zero => cases h; exact ⟨d, .zero d, ha, hw, rfl, hm⟩
  | succ n ih =>
    obtain ⟨vm1, h1, h2⟩ := Option.bind_eq_some_iff.mp h
    obtain ⟨d1, e1, a1, w1, f1, r1, l1⟩ := agree_step hstep hw h0 ha hm hp (hex 0 vm (by omega) rfl) h1
    have hrom : vm1.rom = vm.rom := congrArg (·.1) f1
    obtain ⟨d2, e2, a2, w2, f2, l2⟩ := ih vm1 d1 w1 (run_zero chk vm vm1 h1) a1 (by rw [hrom, r1]; exact hp) l1
      (fun k v hk hv => hex (k + 1) v (by omega) (by show (vm.run chk).bind _ = _; rw [h1]; exact hv)) h2
    exact ⟨d2, .succ e1 e2, a2, w2, f2.trans f1, l2⟩

/-- Whenever the test VM completes `n` steps, all of them inside the program and supported by the
mirror, with accesses wherever they go, the mirror completes them too and has the same program counter, registers and RAM. -/
theorem C38_mirror (chk dbg : Bool) (n : Nat) (vm vm' : TestVM) (d : Debug) (hw : vm.WF)
    (h0 : vm.registers[0]? = some 0#32) (ha : Agree vm d) (hp : SameProgram chk dbg vm.rom d.rom)
    (hex : ∀ k v, k < n → vm.steps chk k = some v → v.Executes chk (mirrorOk vm.ram.size))
    (h : vm.steps chk n = some vm') : ∃ d', d.run n = some d' ∧ Agree vm' d' := by
  obtain ⟨d', hc, a, -⟩ := agree_steps (R := fun d d2 => d.step = some d2) (ok := mirrorOk vm.ram.size)
    (fun d1 s i hw1 hs hf hi hl => by
      obtain ⟨d2, h1, h2, h3, h4, h5⟩ := C35_exact d1 s i dbg hw1 hs hf (supported_base hi.1)
      refine ⟨d2, h1, h2, h3, h4, ?_⟩
      rw [(agree_wf hw ha).2, ← hl] at hi
      rw [C68_same d1.ram.length i s hw1.pos hw1.top hi]
      exact h5)
    n vm vm' d hw h0 ha hp rfl hex h
  refine ⟨d', ?_, a⟩
  clear a h hex hp ha
  induction hc with
  | zero d => rfl
  | succ h _ ih => show (Debug.step _).bind _ = _; rw [h]; exact ih

/-- The encrypted cycle and the mirror's make the same supported step. -/
def bothStep (d d2 : Debug) : Prop :=
  Spec.cycle d = some d2 ∧ d.step = some d2 ∧ ∃ d1, d.loaded = some d1 ∧ Supported d1

theorem agree_both (chk dbg : Bool) (n m : Nat) (vm vm' : TestVM) (d : Debug) (hw : vm.WF)
    (h0 : vm.registers[0]? = some 0#32) (ha : Agree vm d) (hp : SameProgram chk dbg vm.rom d.rom)
    (hm : d.ram.length = 2 ^ m)
    (hex : ∀ k v, k < n → vm.steps chk k = some v → v.Executes chk (encOk (4 * 2 ^ m)))
    (h : vm.steps chk n = some vm') :
    ∃ d', Chain bothStep n d d' ∧ Agree vm' d' ∧ vm'.WF ∧ vm'.frame = vm.frame ∧ d'.ram.length = 2 ^ m :=
  agree_steps (R := bothStep) (ok := encOk (4 * 2 ^ m))
    (fun d s i hw hs hf hi hl => by
      rw [← hl] at hi
      obtain ⟨d2, h1, h2, h3, h4, h5, h6, h7⟩ := both_core d s i dbg m hw hs hf hl hi
      exact ⟨d2, ⟨h1, h6, h7⟩, h2, h3, h4, h5⟩)
    n vm vm' d hw h0 ha hp hm hex h

theorem Chain.cycles {n : Nat} {d d' : Debug} (hc : Chain bothStep n d d') : Spec.cycles n d = some d' := by
  induction hc with
  | zero d => rfl
  | succ h _ ih => show (Spec.cycle _).bind _ = _; rw [h.1]; exact ih

/-- The same for the exact meaning of encrypted cycles (a RAM of a power-of-two number of words). -/
theorem C38_cycles (chk dbg : Bool) (n m : Nat) (vm vm' : TestVM) (d : Debug) (hw : vm.WF)
    (h0 : vm.registers[0]? = some 0#32) (ha : Agree vm d) (hp : SameProgram chk dbg vm.rom d.rom)
    (hm : d.ram.length = 2 ^ m)
    (hex : ∀ k v, k < n → vm.steps chk k = some v → v.Executes chk (encOk (4 * 2 ^ m)))
    (h : vm.steps chk n = some vm') :
    ∃ d', Spec.cycles n d = some d' ∧ Agree vm' d' ∧ vm'.WF ∧ vm'.frame = vm.frame ∧ d'.ram.length = 2 ^ m := by
  obtain ⟨d', hc, r⟩ := agree_both chk dbg n m vm vm' d hw h0 ha hp hm hex h
  exact ⟨d', hc.cycles, r⟩

/-- Hence for the encrypted VM itself, under any correct library: set up with a program and a RAM that
agree with those of the test VM, it completes `n` cycles and decrypts to the registers and RAM of the
test VM. -/
theorem C38_encrypted (F : Fhe) (rand : Nat → Nat → Nat → F.C.Rand) (chk dbg : Bool)
    (romSize m threads : Nat) (p : Parser) (data : List Word) (enc : Interp F.B) (ds : List Decoded)
    (ht : 0 < threads) (hd : decodeProgram dbg p = some ds)
    (hl : Interp.load F.C rand dbg romSize (2 ^ m) threads p data = some enc)
    (n : Nat) (hn : n < 2 ^ 32) (vm vm' : TestVM) (hw : vm.WF)
    (ha : Agree vm (Debug.image romSize (2 ^ m) ds data))
    (hp : SameProgram chk dbg vm.rom (Debug.image romSize (2 ^ m) ds data).rom)
    (hlen : data.length ≤ 2 ^ m)
    (hex : ∀ k v, k < n → vm.steps chk k = some v → v.Executes chk (encOk (4 * 2 ^ m)))
    (h : vm.steps chk n = some vm') :
    ∃ enc' ram', Interp.run n enc = some enc' ∧
      enc'.registers.decrypt F.C (List.replicate 32 0#32) = some vm'.registers ∧
      enc'.decryptRam F.C (List.replicate (2 ^ m) 0#32) = some ram' ∧ vm'.ram.data = wordBytes ram' ∧
      (n ≠ 0 → F.decU enc'.pc = vm'.pc) ∧ vm'.WF ∧ vm'.frame = vm.frame := by
  have hl0 : (Debug.image romSize (2 ^ m) ds data).ram.length = 2 ^ m := by
    simp [Debug.image]; omega
  have h0 : vm.registers[0]? = some 0#32 := by
    rw [← ha.regs]; rfl
  obtain ⟨d', e1, a1, w1, f1, hl1⟩ := C38_cycles chk dbg n m vm vm' _ hw h0 ha hp hl0 hex h
  obtain ⟨enc', e2, -, r1, r2, r3⟩ := C30_exact F rand dbg romSize (2 ^ m) threads p data enc ds ht hd hl n hn d' e1
  refine ⟨enc', d'.ram, e2, by rw [r1, a1.regs], by rw [← hl1]; exact r2, a1.ram, fun hn0 => ?_, w1, f1⟩
  rw [r3 hn0, a1.pc]

end Verif.Props
