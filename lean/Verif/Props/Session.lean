import Verif.Spec.Session
import Verif.Props.ChooseCycles
/-
  C102: using a VM more than once.
-/
namespace Verif.Props
open Model Spec

/-! ### One call -/

theorem steps_wf (chk : Bool) (n : Nat) (vm : TestVM) (s : Arch) (fetch : Word → Option Instr) (hw : vm.WF) (hs : vm.Shows s)
    (ho : vm.rom.offset = 0) (hz : vm.rom.size = vm.rom.data.length) (hf : FetchTest vm.rom.data fetch) {vm' : TestVM}
    (h : vm.steps chk n = some vm') : vm'.WF := by
  induction n generalizing vm s with
  | zero => cases h; exact hw
  | succ n ih =>
    obtain ⟨v, h1, h2⟩ := Option.bind_eq_some_iff.mp h
    obtain ⟨a, b⟩ := C97_step chk vm s fetch hw hs ho hz hf
    obtain ⟨i, hi, hst⟩ := a.mp ⟨v, h1⟩
    obtain ⟨v', e1, e2, e3, e4⟩ := b i hi hst
    cases h1.symm.trans e1
    have hr : v.rom = vm.rom := congrArg (·.1) e3
    exact ih v _ e2 e4 (by rw [hr]; exact ho) (by rw [hr]; exact hz) (by rw [hr]; exact hf) h2

theorem shows_data {vm : TestVM} {s : Arch} {m : Word → Byte} {data : List Byte} (hs : vm.Shows s)
    (h : ∀ k, k < vm.ram.size → data[k]? = some (m (BitVec.ofNat 32 (vm.ram.offset + k)))) :
    ({ vm with ram := { vm.ram with data := data } } : TestVM).Shows { s with mem := m } := ⟨hs.pcEq, hs.reg, h⟩

/-- A tape on a VM in any state: refused exactly if its length is not that of the input section, and otherwise this section is replaced. -/
theorem C102_tape (chk : Bool) (vm : TestVM) (s : Arch) (t : List Byte) (hw : vm.WF) (hs : vm.Shows s) (hoff : vm.ram.offset = ramBase)
    (hsz : vm.ram.size = 4096) (hlo : ramBase ≤ vm.input.startAddr) (hhi : vm.input.startAddr + vm.input.size ≤ ramBase + 4096) :
    ((∃ vm', vm.readInputTape chk t = some vm') ↔ t.length = vm.input.size) ∧
    ∀ vm', vm.readInputTape chk t = some vm' → vm'.WF ∧ vm'.frame = vm.frame ∧
      vm'.Shows (s.withBytes (vm.input.startAddr - ramBase) t) := by
  have hlen := hw.len
  have hR : ramBase = 262144 := rfl
  have go (hl : t.length = vm.input.size) : ∃ bytes, Placed vm.ram.data (vm.input.startAddr - ramBase) t bytes ∧
      vm.readInputTape chk t = some { vm with ram := { vm.ram with data := bytes } } := by
    obtain ⟨bytes, hcp⟩ : ∃ b, copyInto vm.ram.data vm.ram.offset vm.input.startAddr t = some b := by
      unfold copyInto
      rw [hoff, if_pos ⟨hlo, by omega⟩]
      exact ⟨_, rfl⟩
    have := (placed_copyInto hcp).2
    rw [hoff] at this
    exact ⟨bytes, this, test_input_eq chk vm t bytes hl (by omega) hcp⟩
  constructor
  · constructor
    · rintro ⟨vm', h⟩
      unfold TestVM.readInputTape at h
      split at h
      · assumption
      · cases h
    · intro h
      obtain ⟨b, -, h⟩ := go h
      exact ⟨_, h⟩
  · intro vm' h
    have hl : t.length = vm.input.size := by
      unfold TestVM.readInputTape at h
      split at h
      · assumption
      · cases h
    obtain ⟨bytes, hp, e⟩ := go hl
    cases h.symm.trans e
    refine ⟨⟨hw.regs, hp.2.1.trans hlen, hw.pos, hw.top⟩, rfl, ?_⟩
    unfold Arch.withBytes
    refine shows_data hs fun k hk => ?_
    have old := hs.mem k hk
    rw [hoff] at old
    have e : (BitVec.ofNat 32 (ramBase + k)).toNat = ramBase + k := by
      rw [BitVec.toNat_ofNat, Nat.mod_eq_of_lt (by omega)]
    simp only [hoff, e]
    by_cases hin : ramBase + (vm.input.startAddr - ramBase) ≤ ramBase + k ∧ ramBase + k < ramBase + (vm.input.startAddr - ramBase) + t.length
    · rw [if_pos hin]
      have := hp.2.2.1 (k - (vm.input.startAddr - ramBase)) (by omega)
      rw [show vm.input.startAddr - ramBase + (k - (vm.input.startAddr - ramBase)) = k by omega] at this
      rw [this, List.getD_eq_getElem?_getD, show ramBase + k - (ramBase + (vm.input.startAddr - ramBase)) = k - (vm.input.startAddr - ramBase) by omega,
        List.getElem?_eq_getElem (by omega)]
      rfl
    · rw [if_neg hin, hp.2.2.2 k (by omega)]
      exact old

/-! ### Sessions -/

theorem session_aux (chk : Bool) (rom : TMem) (inp out : TapeInfo) (n : Nat) (fetch : Word → Option Instr)
    (ho : rom.offset = 0) (hz : rom.size = rom.data.length) (hf : FetchTest rom.data fetch)
    (hlo : ramBase ≤ inp.startAddr) (hhi : inp.startAddr + inp.size ≤ ramBase + 4096)
    (hb : ramBase ≤ out.startAddr) (he : out.startAddr + out.size ≤ ramBase + 4096) (cs : List VmCall) (vm : TestVM) (s : Arch)
    (hw : vm.WF) (hs : vm.Shows s) (hfr : vm.frame = (rom, inp, out, n, ramBase, 4096)) :
    ((∃ r, vm.session chk cs = some r) ↔ ∃ s' o, Session fetch (fun i s => ¬ stuck i s chk ramBase) (execTest ramBase 4096) n
      (inp.startAddr - ramBase) inp.size (out.startAddr - ramBase) out.size cs s s' o) ∧
    ∀ r, vm.session chk cs = some r → ∃ s', Session fetch (fun i s => ¬ stuck i s chk ramBase) (execTest ramBase 4096) n
      (inp.startAddr - ramBase) inp.size (out.startAddr - ramBase) out.size cs s s' r.2 ∧ r.1.Shows s' ∧ r.1.WF ∧ r.1.frame = vm.frame := by
  induction cs generalizing vm s with
  | nil => exact ⟨⟨fun _ => ⟨s, [], .nil s⟩, fun _ => ⟨_, rfl⟩⟩, fun r h => by cases h; exact ⟨s, .nil s, hs, hw, rfl⟩⟩
  | cons c cs ih =>
    have f1 : vm.rom = rom := congrArg (·.1) hfr
    have f2 : vm.input = inp := congrArg (·.2.1) hfr
    have f3 : vm.output = out := congrArg (·.2.2.1) hfr
    have f4 : vm.maxCycles = n := congrArg (·.2.2.2.1) hfr
    have f5 : vm.ram.offset = ramBase := congrArg (·.2.2.2.2.1) hfr
    have f6 : vm.ram.size = 4096 := congrArg (·.2.2.2.2.2) hfr
    have steps (m : Nat) : ((∃ vm', vm.steps chk m = some vm') ↔
          ∃ u, RunsIf fetch (fun i s => ¬ stuck i s chk ramBase) (execTest ramBase 4096) m s u) ∧
        ∀ vm', vm.steps chk m = some vm' → ∃ u, RunsIf fetch (fun i s => ¬ stuck i s chk ramBase) (execTest ramBase 4096) m s u ∧
          vm'.Shows u ∧ vm'.WF ∧ vm'.frame = vm.frame := by
      have h := C97_steps chk m vm s fetch hw hs (by rw [f1]; exact ho) (by rw [f1]; exact hz) (by rw [f1]; exact hf)
      rw [f5, f6] at h
      refine ⟨h.1, fun vm' e => ?_⟩
      obtain ⟨a, u, b, c⟩ := h.2 vm' e
      exact ⟨u, b, c, steps_wf chk m vm s fetch hw hs (by rw [f1]; exact ho) (by rw [f1]; exact hz) (by rw [f1]; exact hf) e, a⟩
    cases c with
    | tape t =>
      obtain ⟨a, b⟩ := C102_tape chk vm s t hw hs f5 f6 (by rw [f2]; exact hlo) (by rw [f2]; exact hhi)
      rw [f2] at a b
      constructor
      · constructor
        · rintro ⟨r, h⟩
          obtain ⟨v, h1, h2⟩ := Option.bind_eq_some_iff.mp h
          obtain ⟨w1, w2, w3⟩ := b v h1
          obtain ⟨s', o, hh⟩ := (ih v _ w1 w3 (w2.trans hfr)).1.mp ⟨r, h2⟩
          exact ⟨s', o, .tape (a.mp ⟨v, h1⟩) hh⟩
        · rintro ⟨s', o, h⟩
          cases h with
          | tape hl h =>
            obtain ⟨v, h1⟩ := a.mpr hl
            obtain ⟨w1, w2, w3⟩ := b v h1
            obtain ⟨r, h2⟩ := (ih v _ w1 w3 (w2.trans hfr)).1.mpr ⟨s', o, h⟩
            exact ⟨r, Option.bind_eq_some_iff.mpr ⟨v, h1, h2⟩⟩
      · intro r h
        obtain ⟨v, h1, h2⟩ := Option.bind_eq_some_iff.mp h
        obtain ⟨w1, w2, w3⟩ := b v h1
        obtain ⟨s', q1, q2, q3, q4⟩ := (ih v _ w1 w3 (w2.trans hfr)).2 r h2
        exact ⟨s', .tape (a.mp ⟨v, h1⟩) q1, q2, q3, q4.trans w2⟩
    | run =>
      obtain ⟨a, b⟩ := steps 1
      have e1 : vm.steps chk 1 = vm.run chk := by
        show (vm.run chk).bind _ = _
        cases vm.run chk <;> rfl
      rw [e1] at a b
      constructor
      · constructor
        · rintro ⟨r, h⟩
          obtain ⟨v, h1, h2⟩ := Option.bind_eq_some_iff.mp h
          obtain ⟨u, w0, w1, w2, w3⟩ := b v h1
          obtain ⟨s', o, hh⟩ := (ih v _ w2 w1 (w3.trans hfr)).1.mp ⟨r, h2⟩
          exact ⟨s', o, .run w0 hh⟩
        · rintro ⟨s', o, h⟩
          cases h with
          | run hr h =>
            obtain ⟨v, h1⟩ := a.mpr ⟨_, hr⟩
            obtain ⟨u, w0, w1, w2, w3⟩ := b v h1
            cases runsIf_unique w0 hr
            obtain ⟨r, h2⟩ := (ih v _ w2 w1 (w3.trans hfr)).1.mpr ⟨s', o, h⟩
            exact ⟨r, Option.bind_eq_some_iff.mpr ⟨v, h1, h2⟩⟩
      · intro r h
        obtain ⟨v, h1, h2⟩ := Option.bind_eq_some_iff.mp h
        obtain ⟨u, w0, w1, w2, w3⟩ := b v h1
        obtain ⟨s', q1, q2, q3, q4⟩ := (ih v _ w2 w1 (w3.trans hfr)).2 r h2
        exact ⟨s', .run w0 q1, q2, q3, q4.trans w3⟩
    | execute =>
      obtain ⟨a, b⟩ := steps n
      have e1 : vm.execute chk = vm.steps chk n := by
        unfold TestVM.execute
        rw [f4]
      rw [← e1] at a b
      constructor
      · constructor
        · rintro ⟨r, h⟩
          obtain ⟨v, h1, h2⟩ := Option.bind_eq_some_iff.mp h
          obtain ⟨u, w0, w1, w2, w3⟩ := b v h1
          obtain ⟨s', o, hh⟩ := (ih v _ w2 w1 (w3.trans hfr)).1.mp ⟨r, h2⟩
          exact ⟨s', o, .execute w0 hh⟩
        · rintro ⟨s', o, h⟩
          cases h with
          | execute hr h =>
            obtain ⟨v, h1⟩ := a.mpr ⟨_, hr⟩
            obtain ⟨u, w0, w1, w2, w3⟩ := b v h1
            cases runsIf_unique w0 hr
            obtain ⟨r, h2⟩ := (ih v _ w2 w1 (w3.trans hfr)).1.mpr ⟨s', o, h⟩
            exact ⟨r, Option.bind_eq_some_iff.mpr ⟨v, h1, h2⟩⟩
      · intro r h
        obtain ⟨v, h1, h2⟩ := Option.bind_eq_some_iff.mp h
        obtain ⟨u, w0, w1, w2, w3⟩ := b v h1
        obtain ⟨s', q1, q2, q3, q4⟩ := (ih v _ w2 w1 (w3.trans hfr)).2 r h2
        exact ⟨s', .execute w0 q1, q2, q3, q4.trans w3⟩
    | output =>
      have eo : vm.outputTape chk = some (ramBytes s (out.startAddr - ramBase) out.size) :=
        test_output (p := ⟨⟨[], 0, 0⟩, ⟨[], 0, 0⟩, out, inp⟩) hs f3 f5 f6 hb he
      have es : vm.session chk (.output :: cs) =
          (vm.session chk cs).map fun r => (r.1, ramBytes s (out.startAddr - ramBase) out.size :: r.2) := by
        show (vm.outputTape chk).bind _ = _
        rw [eo]; rfl
      obtain ⟨a, b⟩ := ih vm s hw hs hfr
      rw [es]
      constructor
      · constructor
        · rintro ⟨r, h⟩
          obtain ⟨r', h1, -⟩ := Option.map_eq_some_iff.mp h
          obtain ⟨s', o, hh⟩ := a.mp ⟨r', h1⟩
          exact ⟨s', _, .output hh⟩
        · rintro ⟨s', o, h⟩
          cases h with
          | output h =>
            obtain ⟨r, h1⟩ := a.mpr ⟨s', _, h⟩
            exact ⟨_, Option.map_eq_some_iff.mpr ⟨r, h1, rfl⟩⟩
      · intro r h
        obtain ⟨r', h1, rfl⟩ := Option.map_eq_some_iff.mp h
        obtain ⟨s', q1, q2, q3, q4⟩ := b r' h1
        exact ⟨s', .output q1, q2, q3, q4⟩

theorem testVm_fresh (chk : Bool) (n : Nat) {e : Elf} {p : Phantom} (hfile : e.bytes.length < 2 ^ 63) (hp : Phantom.fromElf e = some p)
    (hbase : p.bootRam.offset = ramBase) :
    ∃ vm0, p.testVm chk n = some vm0 ∧ vm0.WF ∧ vm0.Shows (startState p.bootRam.data) ∧
      vm0.frame = (⟨p.bootRom.data, 0, p.bootRom.data.length⟩, p.input, p.output, n, ramBase, 4096) := by
  obtain ⟨z1, z2, -⟩ := C39_zero e p hp
  obtain ⟨_, txt, _, -, -, -, -, -, r1, r2, r3, -⟩ := C39_rom e p hp
  have hromlt : p.bootRom.size < 2 ^ 63 := by
    obtain ⟨txt', -, -, -, hsl, -, hsz, -⟩ := fromElf_inv hp
    have := (slice_get hsl).1
    omega
  have key (b : BootMemory) (hs : b.size = b.data.length) (hlt : b.size < 2 ^ 63) :
      (TMem.new b.offset b.size).loadMemory chk b.offset b.data = some ⟨b.data, b.offset, b.size⟩ := by
    unfold TMem.loadMemory TMem.new usizeSub usizeAdd
    simp only [Nat.le_refl, if_true, Nat.sub_self, Option.bind_some, Nat.zero_add]
    rw [if_pos (by omega), Option.bind_some, if_pos ⟨by omega, by simp; omega⟩]
    simp [hs]
  have hvm : p.testVm chk n = some { registers := List.replicate 32 0#32, rom := ⟨p.bootRom.data, 0, p.bootRom.data.length⟩
                                     ram := ⟨p.bootRam.data, ramBase, 4096⟩, pc := 0#32, input := p.input
                                     output := p.output, maxCycles := n } := by
    unfold Phantom.testVm TestVM.init
    rw [key _ (r2.trans r3.symm) hromlt, key _ (z1.trans z2.symm) (by rw [z1]; decide), hbase, r1, z1, r2.trans r3.symm]
    rfl
  refine ⟨_, hvm, ⟨by simp, z2, by simp, by simp [ramBase]⟩, ⟨rfl, fun r => ?_, fun k hk => ?_⟩, rfl⟩
  · rw [startState_x]
    show (List.replicate 32 0#32)[r.toNat]? = _
    rw [List.getElem?_replicate, if_pos r.isLt]
  · have hk : k < 4096 := hk
    show p.bootRam.data[k]? = some ((startState p.bootRam.data).mem (BitVec.ofNat 32 (ramBase + k)))
    rw [startState_mem _ _ (by unfold ramBase; omega), List.getD_eq_getElem?_getD, List.getElem?_eq_getElem (by omega)]
    rfl

/-- The test VM of any ELF file the loader accepts, and every sequence of calls on it: it completes exactly if the machine does, started on
the RAM of the file, and then it returns the outputs of the machine. -/
theorem C102_session (chk : Bool) (n : Nat) (e : Elf) (p : Phantom) (hfile : e.bytes.length < 2 ^ 63)
    (hp : Phantom.fromElf e = some p) (hbase : p.bootRam.offset = ramBase)
    (hlo : ramBase ≤ p.input.startAddr) (hhi : p.input.startAddr + p.input.size ≤ ramBase + 4096)
    (hb : ramBase ≤ p.output.startAddr) (he : p.output.startAddr + p.output.size ≤ ramBase + 4096) :
    ∃ fetch vm0, FetchTest p.bootRom.data fetch ∧ p.testVm chk n = some vm0 ∧ ∀ cs,
      ((∃ r, vm0.session chk cs = some r) ↔ ∃ s' o, Session fetch (fun i s => ¬ stuck i s chk ramBase) (execTest ramBase 4096) n
        (p.input.startAddr - ramBase) p.input.size (p.output.startAddr - ramBase) p.output.size cs (startState p.bootRam.data) s' o) ∧
      ∀ r, vm0.session chk cs = some r → ∃ s', Session fetch (fun i s => ¬ stuck i s chk ramBase) (execTest ramBase 4096) n
        (p.input.startAddr - ramBase) p.input.size (p.output.startAddr - ramBase) p.output.size cs (startState p.bootRam.data) s' r.2 := by
  obtain ⟨vm0, e0, hw, hs, hfr⟩ := testVm_fresh chk n hfile hp hbase
  obtain ⟨fetch, hf, -⟩ := C97_fetch p.bootRom.data
  refine ⟨fetch, vm0, hf, e0, fun cs => ?_⟩
  obtain ⟨a, b⟩ := session_aux chk ⟨p.bootRom.data, 0, p.bootRom.data.length⟩ p.input p.output n fetch rfl rfl hf hlo hhi hb he cs vm0 _ hw hs hfr
  exact ⟨a, fun r h => by
    obtain ⟨s', h1, -⟩ := b r h
    exact ⟨s', h1⟩⟩

section
variable {fetch : Word → Option Instr} {ok : Instr → Arch → Prop} {step : Instr → Arch → Arch} {n inOff inSize outOff outSize : Nat}

/-- The machine is deterministic. -/
theorem session_unique {cs : List VmCall} {s a b : Arch} {o q : List (List Byte)}
    (h1 : Session fetch ok step n inOff inSize outOff outSize cs s a o)
    (h2 : Session fetch ok step n inOff inSize outOff outSize cs s b q) : a = b ∧ o = q := by
  induction h1 generalizing b q with
  | nil s => cases h2; exact ⟨rfl, rfl⟩
  | tape _ _ ih => cases h2 with | tape _ h => exact ih h
  | run hr _ ih => cases h2 with | run hr' h => cases runsIf_unique hr hr'; exact ih h
  | execute hr _ ih => cases h2 with | execute hr' h => cases runsIf_unique hr hr'; exact ih h
  | output _ ih => cases h2 with | output h => obtain ⟨e1, e2⟩ := ih h; exact ⟨e1, by rw [e2]⟩

theorem runsIf_split {a b : Nat} {s u : Arch} (h : RunsIf fetch ok step (a + b) s u) :
    ∃ t, RunsIf fetch ok step a s t ∧ RunsIf fetch ok step b t u := by
  induction a generalizing s with
  | zero => exact ⟨s, .zero s, by rw [Nat.zero_add] at h; exact h⟩
  | succ a ih =>
    rw [Nat.add_right_comm] at h
    cases h with
    | succ hf ho h =>
      obtain ⟨t, h1, h2⟩ := ih h
      exact ⟨t, .succ hf ho h1, h2⟩

/-- Executing `r` times is executing once with `r` times the cycles. -/
theorem C102_again (r : Nat) (s s' : Arch) :
    Session fetch ok step n inOff inSize outOff outSize (List.replicate r .execute) s s' [] ↔ RunsIf fetch ok step (r * n) s s' := by
  induction r generalizing s with
  | zero =>
    rw [Nat.zero_mul]
    exact ⟨fun h => by cases h; exact .zero _, fun h => by cases h; exact .nil _⟩
  | succ r ih =>
    rw [Nat.succ_mul, Nat.add_comm (r * n) n]
    constructor
    · intro h
      cases h with
      | execute hr h => exact runsIf_append hr ((ih _).mp h)
    · intro h
      obtain ⟨t, h1, h2⟩ := runsIf_split h
      exact .execute h1 ((ih t).mpr h2)

end

/-! ### The encrypted VM -/

section
variable {B : Backend} (C : Cipher B) (decU : B.Uint → U32) (decP : B.Prep → U32)

/-- The VM with another number of cycles. -/
def limited (k : Nat) (vm : EncVM B) : EncVM B := { vm with maxCycles := k }

theorem cycle_limited (k : Nat) (vm : EncVM B) : (limited k vm).cycle C decU decP = (vm.cycle C decU decP).map (limited k) := by
  unfold EncVM.cycle limited
  cases vm with
  | mk i m o r x =>
    cases m with
    | none => show Option.map _ _ = (Option.map _ _).map _; rw [Option.map_map]; rfl
    | some d => show Option.map _ _ = (Option.map _ _).map _; rw [Option.map_map]; rfl

theorem cycle_keeps {vm vm' : EncVM B} (h : vm.cycle C decU decP = some vm') : vm'.maxCycles = vm.maxCycles := by
  unfold EncVM.cycle at h
  split at h <;> obtain ⟨_, -, rfl⟩ := Option.map_eq_some_iff.mp h <;> rfl

theorem cycles_limited (k n : Nat) (vm : EncVM B) :
    EncVM.cycles C decU decP n (limited k vm) = (EncVM.cycles C decU decP n vm).map (limited k) := by
  induction n generalizing vm with
  | zero => rfl
  | succ n ih =>
    show ((limited k vm).cycle C decU decP).bind _ = ((vm.cycle C decU decP).bind _).map _
    rw [cycle_limited]
    cases vm.cycle C decU decP with
    | none => rfl
    | some v => exact ih v

theorem cycles_keeps {n : Nat} {vm vm' : EncVM B} (h : EncVM.cycles C decU decP n vm = some vm') : vm'.maxCycles = vm.maxCycles := by
  induction n generalizing vm with
  | zero => cases h; rfl
  | succ n ih =>
    obtain ⟨v, h1, h2⟩ := Option.bind_eq_some_iff.mp h
    exact (ih h2).trans (cycle_keeps C decU decP h1)

theorem encCycles_add (a b : Nat) (vm : EncVM B) :
    EncVM.cycles C decU decP (a + b) vm = (EncVM.cycles C decU decP a vm).bind (EncVM.cycles C decU decP b) := by
  induction a generalizing vm with
  | zero => rw [Nat.zero_add]; rfl
  | succ a ih =>
    rw [Nat.add_right_comm]
    show (vm.cycle C decU decP).bind _ = ((vm.cycle C decU decP).bind _).bind _
    cases vm.cycle C decU decP with
    | none => rfl
    | some v => exact ih v

theorem again_cycles (r : Nat) (vm : EncVM B) : vm.again C decU decP r = EncVM.cycles C decU decP (r * vm.maxCycles) vm := by
  induction r generalizing vm with
  | zero => rw [Nat.zero_mul]; rfl
  | succ r ih =>
    rw [Nat.succ_mul, Nat.add_comm (r * _) _, encCycles_add]
    show (EncVM.cycles C decU decP vm.maxCycles vm).bind _ = _
    cases h : EncVM.cycles C decU decP vm.maxCycles vm with
    | none => rfl
    | some v =>
      show v.again C decU decP r = _
      rw [ih, cycles_keeps C decU decP h]
      rfl

/-- Whatever the library does, with and without the comparison with the mirror: executing `r` times is executing once with `r` times the
cycles, also in whether it panics. -/
theorem C102_encrypted (rand : Nat → Nat → Nat → C.Rand) (chk dbg phantomDebug : Bool) (threads n r : Nat) (p : Phantom) (tape : List Byte)
    (ev : EncVM B) (hev : p.encryptedVm C rand dbg phantomDebug threads tape n = some ev) :
    ∃ fv, p.encryptedVm C rand dbg phantomDebug threads tape (r * n) = some fv ∧
      (ev.again C decU decP r).bind (EncVM.outputTape C chk) = (fv.execute C decU decP).bind (EncVM.outputTape C chk) := by
  have hm : ev.maxCycles = n := by
    obtain ⟨-, -, -, -, -, -, -, -, -, -, -, -, h, -⟩ := encryptedVm_inv hev
    exact h
  have hset : p.encryptedVm C rand dbg phantomDebug threads tape (r * n) =
      (p.encryptedVm C rand dbg phantomDebug threads tape n).map (limited (r * n)) := by
    unfold Phantom.encryptedVm
    split
    · cases Parser.new.addAll dbg (packWords p.bootRom.data) with
      | none => rfl
      | some q =>
        simp only [Option.bind_some]
        split
        · cases copyInto p.bootRam.data p.bootRam.offset p.input.startAddr tape with
          | none => rfl
          | some b =>
            simp only [Option.bind_some]
            cases Interp.load C rand dbg (p.bootRom.size / 4) (p.bootRam.size / 4) threads q (packWords b) with
            | none => rfl
            | some vm =>
              simp only [Option.bind_some]
              split
              · cases (Debug.new (p.bootRom.size / 4) (p.bootRam.size / 4)).setInstructions dbg q with
                | none => rfl
                | some d =>
                  simp only [Option.bind_some]
                  rw [Option.map_map]; rfl
              · rfl
        · rfl
    · rfl
  refine ⟨limited (r * n) ev, by rw [hset, hev]; rfl, ?_⟩
  rw [again_cycles, hm]
  show _ = (EncVM.cycles C decU decP (r * n) (limited (r * n) ev)).bind _
  rw [cycles_limited]
  cases EncVM.cycles C decU decP (r * n) ev <;> rfl

end

/-! ### A second tape -/

theorem start_with {data t bytes : List Byte} {off : Nat} (h : Placed data off t bytes) :
    (startState data).withBytes off t = startState bytes := by
  unfold Arch.withBytes startState
  congr 1
  funext a
  obtain ⟨h1, h2, h3, h4⟩ := h
  split
  · next hin =>
    rw [if_pos (by omega), List.getD_eq_getElem?_getD, List.getD_eq_getElem?_getD]
    have := h3 (a.toNat - (ramBase + off)) (by omega)
    rw [show off + (a.toNat - (ramBase + off)) = a.toNat - ramBase by omega] at this
    rw [this]
  · next hin =>
    by_cases hb : ramBase ≤ a.toNat
    · show (if _ then _ else _) = _
      rw [if_pos hb, if_pos hb, List.getD_eq_getElem?_getD, List.getD_eq_getElem?_getD, h4 (a.toNat - ramBase) (by omega)]
    · show (if _ then _ else _) = _
      rw [if_neg hb, if_neg hb]

theorem output_with {s : Arch} {inOff outOff outSize : Nat} {t : List Byte} (hd : inOff + t.length ≤ outOff ∨ outOff + outSize ≤ inOff)
    (ho : outOff + outSize ≤ 4096) : ramBytes (s.withBytes inOff t) outOff outSize = ramBytes s outOff outSize := by
  unfold ramBytes
  refine List.map_congr_left fun i hi => ?_
  have hi := List.mem_range.mp hi
  have hR : ramBase = 262144 := rfl
  have e : (BitVec.ofNat 32 (ramBase + (outOff + i))).toNat = ramBase + (outOff + i) := by
    rw [BitVec.toNat_ofNat, Nat.mod_eq_of_lt (by omega)]
  unfold Arch.withBytes
  simp only [e]
  rw [if_neg (by omega)]

theorem spin_fine {s : Arch} {chk : Bool} (h4 : s.pc.toNat % 4 = 0) : ¬ stuck (.jal 0#5 0#20) s chk ramBase := by
  rintro (⟨t, ht, hm⟩ | ha | hd | ⟨-, ⟨a, n, hb, -⟩ | hf⟩)
  · have := Option.some.inj ht
    rw [← this, show immJ 0#20 = 0#32 by decide, BitVec.add_zero] at hm
    exact hm h4
  · exact ha
  · exact hd
  · cases hb
  · cases hf.1

theorem spin_stays {s : Arch} : execTest ramBase 4096 (.jal 0#5 0#20) s = s := exec_spin s

theorem spin_runs {rom : List Byte} {fetch : Word → Option Instr} {chk : Bool} (hf : FetchTest rom fetch) {u : Arch}
    (hu : fetch u.pc = some (.jal 0#5 0#20)) (m : Nat) :
    RunsIf fetch (fun i s => ¬ stuck i s chk ramBase) (execTest ramBase 4096) m u u := by
  induction m with
  | zero => exact .zero u
  | succ m ih => exact .succ hu (spin_fine ((hf _ _).mp hu).1) (by rw [spin_stays]; exact ih)

/-- Once the machine is in the final loop `loop {}`, whatever is called with tapes of the right length: it completes, and every output is
the one it had. -/
theorem stale_session {rom : List Byte} {fetch : Word → Option Instr} {chk : Bool} {n inOff inSize outOff outSize : Nat}
    (hf : FetchTest rom fetch) (hd : inOff + inSize ≤ outOff ∨ outOff + outSize ≤ inOff) (ho : outOff + outSize ≤ 4096) (cs : List VmCall)
    (hcs : ∀ t, .tape t ∈ cs → t.length = inSize) (u : Arch) (hu : fetch u.pc = some (.jal 0#5 0#20)) :
    ∃ s' o, Session fetch (fun i s => ¬ stuck i s chk ramBase) (execTest ramBase 4096) n inOff inSize outOff outSize cs u s' o ∧
      o = answers (ramBytes u outOff outSize) cs := by
  induction cs generalizing u with
  | nil => exact ⟨u, [], .nil u, rfl⟩
  | cons c cs ih =>
    have hcs' : ∀ t, .tape t ∈ cs → t.length = inSize := fun t h => hcs t (List.mem_cons_of_mem _ h)
    cases c with
    | tape t =>
      have hl := hcs t List.mem_cons_self
      obtain ⟨s', o, h1, h2⟩ := ih hcs' (u.withBytes inOff t) hu
      rw [output_with (by rw [hl]; exact hd) ho] at h2
      exact ⟨s', o, .tape hl h1, h2⟩
    | run =>
      obtain ⟨s', o, h1, h2⟩ := ih hcs' u hu
      exact ⟨s', o, .run (spin_runs hf hu 1) h1, h2⟩
    | execute =>
      obtain ⟨s', o, h1, h2⟩ := ih hcs' u hu
      exact ⟨s', o, .execute (spin_runs hf hu n) h1, h2⟩
    | output =>
      obtain ⟨s', o, h1, h2⟩ := ih hcs' u hu
      exact ⟨s', _, .output h1, by rw [h2]; rfl⟩

/-- A test VM that has come to the final loop on one tape does not compute anything any more: given any further tapes and executed as often
as one likes it returns the output of the first tape. -/
theorem C102_stale (chk : Bool) (n : Nat) (e : Elf) (p : Phantom) (t : List Byte) (hfile : e.bytes.length < 2 ^ 63)
    (hp : Phantom.fromElf e = some p) (hbase : p.bootRam.offset = ramBase) (hlen : t.length = p.input.size)
    (hlo : ramBase ≤ p.input.startAddr) (hhi : p.input.startAddr + p.input.size ≤ ramBase + 4096)
    (hb : ramBase ≤ p.output.startAddr) (he : p.output.startAddr + p.output.size ≤ ramBase + 4096)
    (hd : p.input.startAddr + p.input.size ≤ p.output.startAddr ∨ p.output.startAddr + p.output.size ≤ p.input.startAddr) :
    ∃ fetch bytes vm0, FetchTest p.bootRom.data fetch ∧ Placed p.bootRam.data (p.input.startAddr - ramBase) t bytes ∧
      p.testVm chk n = some vm0 ∧
      ∀ u, RunsIf fetch (fun i s => ¬ stuck i s chk ramBase) (execTest ramBase 4096) n (startState bytes) u →
        fetch u.pc = some (.jal 0#5 0#20) → ∀ cs, (∀ t, .tape t ∈ cs → t.length = p.input.size) →
        ∃ r, vm0.session chk (.tape t :: .execute :: cs) = some r ∧
          r.2 = answers (ramBytes u (p.output.startAddr - ramBase) p.output.size) cs := by
  obtain ⟨fetch, vm0, hf, e0, hall⟩ := C102_session chk n e p hfile hp hbase hlo hhi hb he
  obtain ⟨bytes, hcp⟩ : ∃ b, copyInto p.bootRam.data p.bootRam.offset p.input.startAddr t = some b := by
    obtain ⟨-, z2, -⟩ := C39_zero e p hp
    unfold copyInto
    rw [hbase, if_pos ⟨hlo, by omega⟩]
    exact ⟨_, rfl⟩
  have hin := (placed_copyInto hcp).2
  rw [hbase] at hin
  refine ⟨fetch, bytes, vm0, hf, hin, e0, fun u hr hu cs hcs => ?_⟩
  obtain ⟨s', o, h1, h2⟩ := stale_session (chk := chk) (n := n) (inOff := p.input.startAddr - ramBase) (inSize := p.input.size)
    (outOff := p.output.startAddr - ramBase) (outSize := p.output.size) hf (by omega) (by omega) cs hcs u hu
  have hfull := Session.tape (inOff := p.input.startAddr - ramBase) (s := startState p.bootRam.data) hlen
    (.execute (by rw [start_with hin]; exact hr) h1)
  obtain ⟨r, h3⟩ := (hall _).1.mpr ⟨s', o, hfull⟩
  obtain ⟨s'', h4⟩ := (hall _).2 r h3
  obtain ⟨-, h5⟩ := session_unique hfull h4
  exact ⟨r, h3, by rw [← h5]; exact h2⟩

theorem answers_two (z t : List Byte) (r : Nat) :
    answers z ([.output, .tape t] ++ List.replicate r VmCall.execute ++ [.output]) = [z, z] := by
  have (r : Nat) : answers z (List.replicate r VmCall.execute ++ [.output]) = [z] := by
    induction r with
    | zero => rfl
    | succ r ih => exact ih
  exact congrArg (z :: ·) (this r)

/-- The program of C100 returns its input when it has at least `4 x + 4` cycles; on a VM that was used for `x`, it returns `x` also for
any other input `y`, however long it is executed. -/
theorem C102_countdown (chk : Bool) (n r x y : Nat) (hx : x < 2 ^ 32) (hn : 4 * x + 4 ≤ n) :
    ∃ vm0 vm, downGuest.testVm chk n = some vm0 ∧
      vm0.session chk ([.tape (fourBytes (BitVec.ofNat 32 x)), .execute, .output, .tape (fourBytes (BitVec.ofNat 32 y))] ++
        List.replicate r .execute ++ [.output]) = some (vm, [fourBytes (BitVec.ofNat 32 x), fourBytes (BitVec.ofNat 32 x)]) := by
  obtain ⟨fetch, bytes, vm0, hf, hin, e0, hall⟩ := C102_stale chk n downElf downGuest (fourBytes (BitVec.ofNat 32 x)) (by decide +kernel) down_elf
    (by decide +kernel) ((show (fourBytes (BitVec.ofNat 32 x)).length = 4 from rfl).trans (by decide +kernel)) (by decide +kernel)
    (by decide +kernel) (by decide +kernel) (by decide +kernel) (by decide +kernel)
  obtain ⟨s, k, j, hr, hd⟩ := down_runs chk hx hf hin n
  have hk : k = 7 := by have := hd.time; omega
  subst hk
  obtain ⟨i, w, hi, h2, h3, -⟩ := down_words 7 (by decide)
  cases Option.some.inj hi
  have hpc : s.pc = 28#32 := hd.pc
  have ho : ramBytes s (downGuest.output.startAddr - ramBase) downGuest.output.size = fourBytes (BitVec.ofNat 32 x) := by
    rw [show downGuest.output.startAddr - ramBase = 4 by decide +kernel, show downGuest.output.size = 4 by decide +kernel]
    refine List.map_congr_left fun q hq => ?_
    have := hd.out q (List.mem_range.mp hq)
    rw [show 0x40004 + q = ramBase + (4 + q) by unfold ramBase; omega] at this
    rw [this, if_pos rfl]
  have hsz : downGuest.input.size = 4 := by decide +kernel
  obtain ⟨r', h4, h5⟩ := hall s (runsIf_mono (fun _ _ h => h.1.1) hr)
    ((hf _ _).mpr ⟨by rw [hpc]; rfl, w, by rw [hpc]; exact h3, h2⟩)
    ([.output, .tape (fourBytes (BitVec.ofNat 32 y))] ++ List.replicate r .execute ++ [.output]) (fun t ht => by
      rw [hsz]
      simp only [List.cons_append, List.nil_append, List.mem_cons, List.mem_append, List.mem_replicate] at ht
      rcases ht with h | h | ⟨-, h⟩ | h | h
      · cases h
      · cases h; rfl
      · cases h
      · cases h
      · cases h)
  refine ⟨vm0, r'.1, e0, h4.trans ?_⟩
  have hr2 : r'.2 = [fourBytes (BitVec.ofNat 32 x), fourBytes (BitVec.ofNat 32 x)] := by
    rw [h5, ho, answers_two]
  rw [← hr2]

/-- Three for the first tape, and three again for the second tape, which holds five; a VM of its own returns five for it. -/
example (chk : Bool) : (∃ vm0 vm, downGuest.testVm chk 100 = some vm0 ∧
      vm0.session chk [.tape (fourBytes 3#32), .execute, .output, .tape (fourBytes 5#32), .execute, .output] =
        some (vm, [fourBytes 3#32, fourBytes 3#32])) ∧
    ∃ vm0 vm1 vm2, downGuest.testVm chk 100 = some vm0 ∧ vm0.readInputTape chk (fourBytes 5#32) = some vm1 ∧ vm1.execute chk = some vm2 ∧
      vm2.outputTape chk = some (fourBytes 5#32) := by
  refine ⟨C102_countdown chk 100 1 3 5 (by decide) (by decide), ?_⟩
  obtain ⟨vm0, vm1, vm2, -, -, h0, h1, h2, -, -, h3, -⟩ :=
    C100_countdown sampleFhe (fun _ _ _ => ()) chk false 1 100 5 (by decide) (by decide) (by decide)
  exact ⟨vm0, vm1, vm2, h0, h1, h2, h3⟩

/-- A tape of the wrong length panics, whatever was called before. -/
example (chk : Bool) (cs : List VmCall) (vm : TestVM) (h : downGuest.testVm chk 100 = some vm) : vm.session chk (cs ++ [.tape []]) = none := by
  obtain ⟨fetch, vm0, -, h0, hall⟩ := C102_session chk 100 downElf downGuest (by decide +kernel) down_elf (by decide +kernel) (by decide +kernel)
    (by decide +kernel) (by decide +kernel) (by decide +kernel)
  cases h0.symm.trans h
  cases hr : vm.session chk (cs ++ [.tape []]) with
  | none => rfl
  | some r =>
    obtain ⟨s', hs⟩ := (hall _).2 r hr
    have hz : downGuest.input.size = 4 := by decide +kernel
    rw [hz] at hs
    have key : ∀ (cs : List VmCall) (s : Arch) (o : List (List Byte)), ¬ Session fetch (fun i s => ¬ stuck i s chk ramBase)
        (execTest ramBase 4096) 100 (downGuest.input.startAddr - ramBase) 4 (downGuest.output.startAddr - ramBase) downGuest.output.size
        (cs ++ [.tape []]) s s' o := by
      intro cs
      induction cs with
      | nil => intro s o h; cases h with | tape hl _ => exact absurd hl (by decide)
      | cons c cs ih =>
        intro s o h
        rw [List.cons_append] at h
        cases h with
        | tape _ h => exact ih _ _ h
        | run _ h => exact ih _ _ h
        | execute _ h => exact ih _ _ h
        | output h => exact ih _ _ h
    exact absurd hs (key cs _ _)

/-- Thirteen cycles, three and four times, on input 12: the encrypted VM has returned 0 after 39 cycles and returns 12 after 52. -/
example (F : Fhe) (rand : Nat → Nat → Nat → F.C.Rand) (chk dbg : Bool) : ∃ ev, downGuest.encryptedVm F.C rand dbg false 1
      (fourBytes (BitVec.ofNat 32 12)) 13 = some ev ∧
    (ev.again F.C F.decU F.decP 3).bind (EncVM.outputTape F.C chk) = some (fourBytes 0#32) ∧
    (ev.again F.C F.decU F.decP 4).bind (EncVM.outputTape F.C chk) = some (fourBytes (BitVec.ofNat 32 12)) := by
  obtain ⟨-, -, -, ev, -, -, -, -, hev, -⟩ := C100_countdown F rand chk dbg 1 13 12 (by decide) (by decide) (by decide)
  refine ⟨ev, hev, ?_, ?_⟩
  · obtain ⟨fv, h1, h2⟩ := C102_encrypted F.C F.decU F.decP rand chk dbg false 1 13 3 downGuest _ ev hev
    rw [show 3 * 13 = 39 from rfl] at h1
    obtain ⟨-, -, -, ev', ev2, -, -, -, h3, h4, -, h5⟩ := C100_countdown F rand chk dbg 1 39 12 (by decide) (by decide) (by decide)
    rw [h3] at h1
    rw [h2, ← Option.some.inj h1, h4, Option.bind_some, h5, if_neg (by decide)]
  · obtain ⟨fv, h1, h2⟩ := C102_encrypted F.C F.decU F.decP rand chk dbg false 1 13 4 downGuest _ ev hev
    rw [show 4 * 13 = 52 from rfl] at h1
    obtain ⟨-, -, -, ev', ev2, -, -, -, h3, h4, -, h5⟩ := C100_countdown F rand chk dbg 1 52 12 (by decide) (by decide) (by decide)
    rw [h3] at h1
    rw [h2, ← Option.some.inj h1, h4, Option.bind_some, h5, if_pos (by decide)]

end Verif.Props
