import Verif.Spec.Timing
import Verif.Props.Interp
/-
  C71: timing measurements.
-/
namespace Verif.Props
open Model Spec

variable {B : Backend}

theorem bind_eq {α β : Type} (m : Timed α) (f : α → Timed β) (c : Nat → Nat) (k : Nat) :
    (m >>= f) c k = (m c k).bind fun x => f x.1 c x.2 := rfl

theorem work_eq {α : Type} (o : Option α) (c : Nat → Nat) (k : Nat) : Timed.work o c k = o.map fun a => (a, k) := rfl

theorem pure_eq {α : Type} (a : α) (c : Nat → Nat) (k : Nat) : (pure a : Timed α) c k = some (a, k) := rfl

theorem now_eq (c : Nat → Nat) (k : Nat) : Timed.now c k = some (c k, k + 1) := rfl

theorem some_now_eq (c : Nat → Nat) (k : Nat) : (some <$> Timed.now) c k = some (some (c k), k + 1) := rfl

theorem measure_eq {α : Type} (op : Timed α) (c : Nat → Nat) (k : Nat) :
    measureDuration op c k = (op c (k + 1)).map fun x => ((x.1, c x.2 - c k), x.2 + 1) := by
  unfold measureDuration
  rw [bind_eq, now_eq, Option.bind_some, bind_eq, Option.map_eq_bind]
  rfl

section stages
variable (vm : Interp B) (m : Measurement) (c : Nat → Nat) (k : Nat)

theorem timedFetch_eq (pcP : B.Prep) :
    vm.timedFetch pcP m c k = (vm.fetch pcP).map fun f =>
      ((f, { m with rom := c (k + 5) - c k, readRom := c (k + 2) - c (k + 1), prepareRom := c (k + 4) - c (k + 3) }),
        k + 6) := by
  simp [Interp.timedFetch, Interp.fetch, measure_eq, bind_eq, work_eq, pure_eq, Option.map_eq_bind, Option.bind_assoc,
    Function.comp_def]

theorem timedRegisters_eq (f : Fetch B) :
    vm.timedRegisters f m c k = (vm.readRegisters f).map fun s =>
      ((s, { m with registers := c (k + 5) - c k, readRegisters := c (k + 2) - c (k + 1)
                    prepareRegisters := c (k + 4) - c (k + 3) }), k + 6) := by
  simp [Interp.timedRegisters, Interp.readRegisters, measure_eq, bind_eq, work_eq, pure_eq, Option.map_eq_bind,
    Option.bind_assoc, Function.comp_def]

theorem timedRam_eq (f : Fetch B) (s : Sources B) :
    vm.timedRam f s m c k = (vm.readRam f s).map fun q =>
      ((q, { m with readRam := c (k + 7) - c k, deriveAddr := c (k + 2) - c (k + 1)
                    prepareAddr := c (k + 4) - c (k + 3), readStatefull := c (k + 6) - c (k + 5) }), k + 8) := by
  simp [Interp.timedRam, Interp.readRam, measure_eq, bind_eq, work_eq, pure_eq, Option.map_eq_bind,
    Option.bind_assoc, Function.comp_def]

theorem timedUpdateRegisters_eq (ops : List RdUpdate) (f : Fetch B) (s : Sources B) (v : B.Uint) :
    vm.timedUpdateRegisters ops f s v m c k = (vm.updateRegisters ops f s v).map fun x =>
      ((x, { m with updateRegisters := c (k + 9) - c k, evaluateRd := c (k + 2) - c (k + 1)
                    selectRd := c (k + 4) - c (k + 3), refreshRd := c (k + 6) - c (k + 5)
                    writeRd := c (k + 8) - c (k + 7) }), k + 10) := by
  simp [Interp.timedUpdateRegisters, Interp.updateRegisters, measure_eq, bind_eq, work_eq, pure_eq, Option.map_eq_bind,
    Option.bind_assoc, Function.comp_def]

theorem timedUpdateRam_eq (f : Fetch B) (s : Sources B) (q : RamRead B) :
    vm.timedUpdateRam f s q m c k = (vm.updateRam f s q).map fun x =>
      ((x, { m with updateRam := c (k + 9) - c k, evaluateRam := c (k + 2) - c (k + 1)
                    selectRam := c (k + 4) - c (k + 3), refreshRam := c (k + 6) - c (k + 5)
                    writeRam := c (k + 8) - c (k + 7) }), k + 10) := by
  simp [Interp.timedUpdateRam, Interp.updateRam, measure_eq, bind_eq, work_eq, pure_eq, Option.map_eq_bind,
    Option.bind_assoc, Function.comp_def]

theorem timedUpdatePc_eq (f : Fetch B) (s : Sources B) :
    timedUpdatePc f s m c k = (updatePc B s.rs1P s.rs2P f.pcP f.immP f.pcuP).map fun pc =>
      ((pc, { m with updatePc := c (k + 1) - c k }), k + 2) := by
  simp [timedUpdatePc, measure_eq, bind_eq, work_eq, pure_eq, Option.map_eq_bind, Option.bind_assoc, Function.comp_def]

end stages

/-- The measurement of a cycle whose readings are numbered from `k`; from `b` on after the preparation of the
program counter, which took `p`. -/
def measured (c : Nat → Nat) (k b p : Nat) : Measurement where
  total := c (b + 42) - c k
  preparePc := p
  rom := c (b + 5) - c b
  readRom := c (b + 2) - c (b + 1)
  prepareRom := c (b + 4) - c (b + 3)
  registers := c (b + 11) - c (b + 6)
  readRegisters := c (b + 8) - c (b + 7)
  prepareRegisters := c (b + 10) - c (b + 9)
  readRam := c (b + 19) - c (b + 12)
  deriveAddr := c (b + 14) - c (b + 13)
  prepareAddr := c (b + 16) - c (b + 15)
  readStatefull := c (b + 18) - c (b + 17)
  updateRegisters := c (b + 29) - c (b + 20)
  evaluateRd := c (b + 22) - c (b + 21)
  selectRd := c (b + 24) - c (b + 23)
  refreshRd := c (b + 26) - c (b + 25)
  writeRd := c (b + 28) - c (b + 27)
  updateRam := c (b + 39) - c (b + 30)
  evaluateRam := c (b + 32) - c (b + 31)
  selectRam := c (b + 34) - c (b + 33)
  refreshRam := c (b + 36) - c (b + 35)
  writeRam := c (b + 38) - c (b + 37)
  updatePc := c (b + 41) - c (b + 40)

/-- The cycle that prepares the program counter with timings. -/
def timesPc (vm : Interp B) (verbose : Bool) : Bool := verbose && vm.cycle != 0#32

theorem timedTrace_eq (vm : Interp B) (verbose : Bool) (c : Nat → Nat) (k : Nat) :
    vm.timedTrace verbose c k = vm.trace.map fun t =>
      if timesPc vm verbose then ((t, measured c k (k + 3) (c (k + 2) - c (k + 1))), k + 46)
      else ((t, measured c k (k + 1) 0), k + 44) := by
  unfold Interp.timedTrace Interp.trace timesPc
  by_cases hc : vm.cycle = 0#32
  · simp [hc, bind_eq, now_eq, some_now_eq, pure_eq, timedFetch_eq, timedRegisters_eq, timedRam_eq, timedUpdateRegisters_eq,
      timedUpdateRam_eq, timedUpdatePc_eq, Option.map_eq_bind, Option.bind_assoc, Measurement.new, measured]
  · cases verbose <;>
    simp [hc, bind_eq, now_eq, some_now_eq, pure_eq, timedFetch_eq, timedRegisters_eq, timedRam_eq, timedUpdateRegisters_eq,
      timedUpdateRam_eq, timedUpdatePc_eq, Option.map_eq_bind, Option.bind_assoc, Measurement.new, measured, work_eq]

/-! ### One cycle -/

theorem measured_nested (c : Nat → Nat) (hc : Monotone c) (k b p : Nat) (hp : k ≤ b) (hq : p ≤ c b - c k) :
    Nested (measured c k b p) := by
  have h (i : Nat) : c (b + i) ≤ c (b + i + 1) := hc _ _ (by omega)
  have h0 := hc k b hp
  have s1 := hc (b + 5) (b + 6) (by omega)
  have s2 := hc (b + 11) (b + 12) (by omega)
  have s3 := hc (b + 19) (b + 20) (by omega)
  have s4 := hc (b + 29) (b + 30) (by omega)
  have s5 := hc (b + 39) (b + 40) (by omega)
  have s6 := hc (b + 41) (b + 42) (by omega)
  have t1 := hc b (b + 5) (by omega)
  have t2 := hc (b + 6) (b + 11) (by omega)
  have t3 := hc (b + 12) (b + 19) (by omega)
  have t4 := hc (b + 20) (b + 29) (by omega)
  have t5 := hc (b + 30) (b + 39) (by omega)
  have t6 := hc (b + 40) (b + 41) (by omega)
  refine ⟨?_, ?_, ?_, ?_, ?_, ?_⟩ <;> simp only [measured]
  · omega
  · have := h 0; have := h 1; have := h 2; have := h 3; have := h 4
    simp only [Nat.add_assoc, Nat.reduceAdd, Nat.add_zero] at *
    omega
  · have := h 6; have := h 7; have := h 8; have := h 9; have := h 10
    simp only [Nat.add_assoc, Nat.reduceAdd] at *
    omega
  · have := h 12; have := h 13; have := h 14; have := h 15; have := h 16; have := h 17; have := h 18
    simp only [Nat.add_assoc, Nat.reduceAdd] at *
    omega
  · have := h 20; have := h 21; have := h 22; have := h 23; have := h 24; have := h 25; have := h 26; have := h 27
    have := h 28
    simp only [Nat.add_assoc, Nat.reduceAdd] at *
    omega
  · have := h 30; have := h 31; have := h 32; have := h 33; have := h 34; have := h 35; have := h 36; have := h 37
    have := h 38
    simp only [Nat.add_assoc, Nat.reduceAdd] at *
    omega

/-- Measuring changes nothing else: the cycle computes and panics as without a clock, whatever the clock shows.  With
a clock that never goes back the parts of every measured stretch fit into it; the first cycle and cycles without
`verbose_timings` report no time for the preparation of the program counter. -/
theorem C71_cycle (vm : Interp B) (verbose : Bool) (clock : Nat → Nat) (k : Nat) :
    (vm.timedTrace verbose clock k).map (·.1.1) = vm.trace ∧
    ∀ t m k', vm.timedTrace verbose clock k = some ((t, m), k') →
      (Monotone clock → Nested m) ∧ (verbose = false ∨ vm.cycle = 0#32 → m.preparePc = 0) := by
  rw [timedTrace_eq]
  constructor
  · rw [Option.map_map]
    cases vm.trace with
    | none => rfl
    | some t => simp only [Option.map_some, Function.comp_apply]; split <;> rfl
  · intro t m k' h
    cases ht : vm.trace with
    | none => rw [ht] at h; cases h
    | some t' =>
      rw [ht, Option.map_some] at h
      have h := Option.some.inj h
      cases hv : timesPc vm verbose with
      | true =>
        rw [hv, if_pos rfl] at h
        obtain ⟨h, -⟩ := Prod.mk.inj h
        obtain ⟨-, rfl⟩ := Prod.mk.inj h
        refine ⟨fun hc => measured_nested clock hc k _ _ (by omega) ?_, fun h => ?_⟩
        · have := hc k (k + 1) (by omega); have := hc (k + 1) (k + 2) (by omega); have := hc (k + 2) (k + 3) (by omega)
          omega
        · simp [timesPc] at hv
          rcases h with h | h
          · rw [h] at hv; exact absurd hv.1 (by decide)
          · exact absurd h hv.2
      | false =>
        rw [hv, if_neg (by decide)] at h
        obtain ⟨h, -⟩ := Prod.mk.inj h
        obtain ⟨-, rfl⟩ := Prod.mk.inj h
        exact ⟨fun hc => measured_nested clock hc k _ _ (by omega) (Nat.zero_le _), fun _ => rfl⟩

/-- The gaps between the readings of a cycle with measurement `m`. -/
def gaps (m : Measurement) : List Nat :=
  [ 0, m.readRom, 0, m.prepareRom, m.rom - (m.readRom + m.prepareRom), 0
  , 0, m.readRegisters, 0, m.prepareRegisters, m.registers - (m.readRegisters + m.prepareRegisters), 0
  , 0, m.deriveAddr, 0, m.prepareAddr, 0, m.readStatefull, m.readRam - (m.deriveAddr + m.prepareAddr + m.readStatefull), 0
  , 0, m.evaluateRd, 0, m.selectRd, 0, m.refreshRd, 0, m.writeRd
  , m.updateRegisters - (m.evaluateRd + m.selectRd + m.refreshRd + m.writeRd), 0
  , 0, m.evaluateRam, 0, m.selectRam, 0, m.refreshRam, 0, m.writeRam
  , m.updateRam - (m.evaluateRam + m.selectRam + m.refreshRam + m.writeRam), 0
  , m.updatePc
  , m.total - (m.preparePc + m.rom + m.registers + m.readRam + m.updateRegisters + m.updateRam + m.updatePc) ]

/-- The clock with given gaps after reading `k`. -/
def clockOf (k : Nat) (g : List Nat) (j : Nat) : Nat := (g.take (j - k)).sum

theorem sum_take_mono (g : List Nat) : ∀ i j, i ≤ j → (g.take i).sum ≤ (g.take j).sum := by
  induction g with
  | nil => intro i j _; simp
  | cons x g ih =>
    intro i j h
    cases i with
    | zero => simp
    | succ i =>
      cases j with
      | zero => omega
      | succ j => simp only [List.take_succ_cons, List.sum_cons]; have := ih i j (by omega); omega

theorem clockOf_mono (k : Nat) (g : List Nat) : Monotone (clockOf k g) := fun i j h => sum_take_mono g _ _ (by omega)

theorem sum_take_split (g : List Nat) : ∀ i j, i ≤ j → (g.take j).sum = (g.take i).sum + ((g.drop i).take (j - i)).sum := by
  intro i j h
  rw [show j = i + (j - i) by omega, List.take_add, List.sum_append, show i + (j - i) - i = j - i by omega]

theorem clockOf_sub (k : Nat) (g : List Nat) (i j : Nat) (h : i ≤ j) :
    clockOf k g (k + j) - clockOf k g (k + i) = ((g.drop i).take (j - i)).sum := by
  unfold clockOf
  rw [show k + j - k = j by omega, show k + i - k = i by omega, sum_take_split g i j h]
  omega

theorem clockOf_sub0 (k : Nat) (g : List Nat) (j : Nat) :
    clockOf k g (k + j) - clockOf k g k = (g.take j).sum := by
  unfold clockOf
  rw [show k + j - k = j by omega, Nat.sub_self]
  rfl

theorem measured_with (k : Nat) (m : Measurement) (hm : Nested m) :
    measured (clockOf k (0 :: m.preparePc :: 0 :: gaps m)) k (k + 3)
      (clockOf k (0 :: m.preparePc :: 0 :: gaps m) (k + 2) - clockOf k (0 :: m.preparePc :: 0 :: gaps m) (k + 1)) = m := by
  obtain ⟨h1, h2, h3, h4, h5, h6⟩ := hm
  simp only [measured, Nat.add_assoc, Nat.reduceAdd, clockOf_sub0]
  repeat rw [clockOf_sub _ _ _ _ (by decide)]
  cases m
  dsimp only at h1 h2 h3 h4 h5 h6
  obtain ⟨e2, rfl⟩ := Nat.exists_eq_add_of_le h2
  obtain ⟨e3, rfl⟩ := Nat.exists_eq_add_of_le h3
  obtain ⟨e4, rfl⟩ := Nat.exists_eq_add_of_le h4
  obtain ⟨e5, rfl⟩ := Nat.exists_eq_add_of_le h5
  obtain ⟨e6, rfl⟩ := Nat.exists_eq_add_of_le h6
  obtain ⟨e1, rfl⟩ := Nat.exists_eq_add_of_le h1
  clear h1 h2 h3 h4 h5 h6
  simp only [gaps, Nat.add_sub_cancel_left, List.drop_succ_cons, List.drop_zero, Nat.reduceSub, List.take_succ_cons,
    List.take_zero, List.sum_cons, List.sum_nil, Nat.zero_add, Nat.add_zero, Measurement.mk.injEq, true_and, and_true]
  refine ⟨?_, ?_, ?_, ?_, ?_, ?_⟩ <;> omega

theorem measured_without (k : Nat) (m : Measurement) (hm : Nested m) (hp : m.preparePc = 0) :
    measured (clockOf k (0 :: gaps m)) k (k + 1) 0 = m := by
  obtain ⟨h1, h2, h3, h4, h5, h6⟩ := hm
  simp only [measured, Nat.add_assoc, Nat.reduceAdd, clockOf_sub0]
  repeat rw [clockOf_sub _ _ _ _ (by decide)]
  cases m
  dsimp only at h1 h2 h3 h4 h5 h6 hp
  obtain ⟨e2, rfl⟩ := Nat.exists_eq_add_of_le h2
  obtain ⟨e3, rfl⟩ := Nat.exists_eq_add_of_le h3
  obtain ⟨e4, rfl⟩ := Nat.exists_eq_add_of_le h4
  obtain ⟨e5, rfl⟩ := Nat.exists_eq_add_of_le h5
  obtain ⟨e6, rfl⟩ := Nat.exists_eq_add_of_le h6
  obtain ⟨e1, rfl⟩ := Nat.exists_eq_add_of_le h1
  clear h1 h2 h3 h4 h5 h6
  subst hp
  simp only [gaps, Nat.add_sub_cancel_left, List.drop_succ_cons, List.drop_zero, Nat.reduceSub, List.take_succ_cons,
    List.take_zero, List.sum_cons, List.sum_nil, Nat.zero_add, Nat.add_zero, Measurement.mk.injEq, true_and, and_true]
  refine ⟨?_, ?_, ?_, ?_, ?_, ?_⟩ <;> omega

/-- No other relation holds between the times: every measurement whose parts fit is the outcome of a cycle, for some
clock that never goes back. -/
theorem C71_any (vm : Interp B) (verbose : Bool) (k : Nat) (t : Trace B) (m : Measurement) (ht : vm.trace = some t)
    (hm : Nested m) (hp : verbose = false ∨ vm.cycle = 0#32 → m.preparePc = 0) :
    ∃ clock k', Monotone clock ∧ vm.timedTrace verbose clock k = some ((t, m), k') := by
  cases hv : timesPc vm verbose with
  | true =>
    refine ⟨clockOf k (0 :: m.preparePc :: 0 :: gaps m), k + 46, clockOf_mono _ _, ?_⟩
    rw [timedTrace_eq, ht, Option.map_some, hv, if_pos rfl]
    exact congrArg (fun x => some ((t, x), k + 46)) (measured_with k m hm)
  | false =>
    have hp : m.preparePc = 0 := by
      refine hp ?_
      cases verbose with
      | false => left; rfl
      | true => right; simpa [timesPc] using hv
    refine ⟨clockOf k (0 :: gaps m), k + 44, clockOf_mono _ _, ?_⟩
    rw [timedTrace_eq, ht, Option.map_some, hv, if_neg (by decide)]
    exact congrArg (fun x => some ((t, x), k + 44)) (measured_without k m hm hp)

/-! ### Many cycles -/

theorem cycle_eq (v : TimedVm B) (c : Nat → Nat) (k : Nat) (hl : v.vm.cycle.toNat ≤ v.log.length) :
    ∀ r, v.cycle c k = r → (v.vm.trace = none ∧ r = none) ∨
      ∃ t m k' this, v.vm.trace = some t ∧ v.vm.timedTrace v.verbose c k = some ((t, m), k') ∧
        (v.log ++ [m])[v.vm.cycle.toNat]? = some this ∧
        r = some ({ v with vm := v.vm.next t, log := v.log ++ [m]
                           printed := if v.verbose then v.printed ++ [this] else v.printed }, k') := by
  intro r hr
  have h1 := (C71_cycle v.vm v.verbose c k).1
  unfold TimedVm.cycle at hr
  rw [bind_eq] at hr
  cases ht : v.vm.timedTrace v.verbose c k with
  | none =>
    rw [ht] at h1 hr
    exact .inl ⟨h1.symm, hr.symm⟩
  | some x =>
    obtain ⟨⟨t, m⟩, k'⟩ := x
    rw [ht] at h1 hr
    have hlt : v.vm.cycle.toNat < (v.log ++ [m]).length := by rw [List.length_append, List.length_singleton]; omega
    refine .inr ⟨t, m, k', _, h1.symm, rfl, List.getElem?_eq_getElem hlt, ?_⟩
    rw [← hr]
    cases hv : v.verbose <;> simp [bind_eq, pure_eq, work_eq, List.getElem?_eq_getElem hlt, hv]

/-- `n` cycles: the machine is where it would be without measurements, and panics when it would.  The log grows by
one entry per cycle, each of which is nested, and with `verbose_timings` exactly these entries are printed as
long as the cycle counter does not overflow. -/
theorem C71_log (n : Nat) (v : TimedVm B) (clock : Nat → Nat) (k : Nat) (hl : v.vm.cycle.toNat ≤ v.log.length) :
    (v.run n clock k).map (·.1.vm) = v.vm.run n ∧
    ∀ v' k', v.run n clock k = some (v', k') →
      ∃ new, v'.log = v.log ++ new ∧ new.length = n ∧ (Monotone clock → ∀ m ∈ new, Nested m) ∧
        (v.vm.cycle.toNat = v.log.length → v.log.length + n ≤ 2 ^ 32 →
          v'.printed = if v.verbose then v.printed ++ new else v.printed) := by
  induction n generalizing v k with
  | zero =>
    refine ⟨rfl, fun v' k' h => ⟨[], ?_, rfl, fun _ m hm => absurd hm (List.not_mem_nil), fun _ _ => ?_⟩⟩
    · rw [← (Prod.mk.inj (Option.some.inj h)).1, List.append_nil]
    · rw [← (Prod.mk.inj (Option.some.inj h)).1, List.append_nil, ite_self]
  | succ n ih =>
    have hrun : v.run (n + 1) clock k = (v.cycle clock k).bind fun x => x.1.run n clock x.2 := rfl
    rw [hrun]
    unfold Interp.run Interp.step
    rcases cycle_eq v clock k hl _ rfl with ⟨h1, h2⟩ | ⟨t, m, k1, this, h1, h2, h3, h4⟩
    · rw [h1, h2]
      exact ⟨rfl, fun v' k' h => by cases h⟩
    · rw [h1, h4]
      have hl1 : (v.vm.next t).cycle.toNat ≤ (v.log ++ [m]).length := by
        show (v.vm.cycle + 1#32).toNat ≤ _
        rw [List.length_append, List.length_singleton, BitVec.toNat_add]
        have : (1#32).toNat = 1 := rfl
        have := Nat.mod_le (v.vm.cycle.toNat + (1#32).toNat) (2 ^ 32)
        omega
      have key := ih { v with vm := v.vm.next t, log := v.log ++ [m]
                              printed := if v.verbose then v.printed ++ [this] else v.printed } k1 hl1
      refine ⟨key.1, fun v' k' h => ?_⟩
      obtain ⟨new, e1, e2, e3, e4⟩ := key.2 v' k' h
      refine ⟨m :: new, by rw [e1]; simp, by rw [List.length_cons, e2], fun hc x hx => ?_, fun h5 h6 => ?_⟩
      · rcases List.mem_cons.mp hx with rfl | hx
        · exact ((C71_cycle v.vm v.verbose clock k).2 t _ k1 h2).1 hc
        · exact e3 hc x hx
      · have hthis : this = m := by
          rw [h5, List.getElem?_append_right (Nat.le_refl _), Nat.sub_self] at h3
          exact (Option.some.inj h3).symm
        cases n with
        | zero =>
          have : new = [] := List.eq_nil_of_length_eq_zero e2
          rw [← (Prod.mk.inj (Option.some.inj h)).1, this, hthis]
        | succ n =>
          have e5 := e4 (by
            show (v.vm.cycle + 1#32).toNat = _
            rw [List.length_append, List.length_singleton, BitVec.toNat_add, h5]
            exact Nat.mod_eq_of_lt (by show _ + 1 < 2 ^ 32; omega))
            (by rw [List.length_append, List.length_singleton]; omega)
          rw [e5, hthis]
          cases v.verbose <;> simp

/-! ### Averages -/

theorem foldl_sum (l : List Nat) : ∀ a, l.foldl (· + ·) a = a + l.sum := by
  induction l with
  | nil => intro a; rfl
  | cons x l ih => intro a; rw [List.foldl_cons, ih, List.sum_cons, Nat.add_assoc]

theorem average_eq (f : Measurement → Nat) (log : List Measurement) (h0 : log ≠ []) (h1 : log.length < 2 ^ 32)
    (h2 : (log.map f).sum < durationEnd) : average f log = some ((log.map f).sum / log.length) := by
  unfold average
  rw [foldl_sum, Nat.zero_add]
  have hm : log.length % 2 ^ 32 = log.length := Nat.mod_eq_of_lt h1
  have : log.length ≠ 0 := fun h => h0 (List.eq_nil_of_length_eq_zero h)
  simp only [hm, if_pos h2, if_neg this]

theorem sum_bounds (f : Measurement → Nat) (lo hi : Nat) (log : List Measurement) (h : ∀ m ∈ log, lo ≤ f m ∧ f m ≤ hi) :
    lo * log.length ≤ (log.map f).sum ∧ (log.map f).sum ≤ hi * log.length := by
  induction log with
  | nil => exact ⟨Nat.le_refl _, Nat.le_refl _⟩
  | cons m log ih =>
    have := h m List.mem_cons_self
    have := ih fun x hx => h x (List.mem_cons_of_mem _ hx)
    rw [List.map_cons, List.sum_cons, List.length_cons, Nat.mul_succ, Nat.mul_succ]
    omega

theorem sum_le (f g : Measurement → Nat) (log : List Measurement) (h : ∀ m ∈ log, f m ≤ g m) :
    (log.map f).sum ≤ (log.map g).sum := by
  induction log with
  | nil => exact Nat.le_refl _
  | cons m log ih =>
    have := h m List.mem_cons_self
    have := ih fun x hx => h x (List.mem_cons_of_mem _ hx)
    rw [List.map_cons, List.map_cons, List.sum_cons, List.sum_cons]
    omega

theorem average_inv {f : Measurement → Nat} {log : List Measurement} {a : Nat} (h : average f log = some a) :
    (log.map f).sum < durationEnd ∧ log.length % 2 ^ 32 ≠ 0 ∧ a = (log.map f).sum / (log.length % 2 ^ 32) := by
  unfold average at h
  rw [foldl_sum, Nat.zero_add] at h
  simp only at h
  split at h
  · split at h
    · cases h
    · exact ⟨‹_›, ‹_›, (Option.some.inj h).symm⟩
  · cases h

theorem div_add_le (a b n : Nat) : a / n + b / n ≤ (a + b) / n := by
  rcases Nat.eq_zero_or_pos n with h | h
  · subst h; simp
  · rw [Nat.le_div_iff_mul_le h, Nat.add_mul]
    have := Nat.div_mul_le_self a n
    have := Nat.div_mul_le_self b n
    omega

/-- An average exists exactly for a log that is not empty (up to 2^32 - 1 entries and sums within `Duration`), and lies
between any bounds of the entries. -/
theorem C71_average (f : Measurement → Nat) (log : List Measurement) (h1 : log.length < 2 ^ 32)
    (h2 : (log.map f).sum < durationEnd) :
    (average f log = none ↔ log = []) ∧
    ∀ a lo hi, average f log = some a → (∀ m ∈ log, lo ≤ f m ∧ f m ≤ hi) → lo ≤ a ∧ a ≤ hi := by
  constructor
  · constructor
    · intro h
      apply Classical.byContradiction
      intro h0
      rw [average_eq f log h0 h1 h2] at h
      cases h
    · rintro rfl; rfl
  · intro a lo hi h hb
    obtain ⟨-, h3, h4⟩ := average_inv h
    rw [Nat.mod_eq_of_lt h1] at h3 h4
    obtain ⟨b1, b2⟩ := sum_bounds f lo hi log hb
    subst h4
    exact ⟨(Nat.le_div_iff_mul_le (by omega)).mpr b1, Nat.div_le_of_le_mul (by rw [Nat.mul_comm]; exact b2)⟩

/-- The averages of the stages fit into the average of the cycle, in spite of the rounding. -/
theorem C71_average_nested (log : List Measurement) (a : Nat) (hn : ∀ m ∈ log, Nested m)
    (h : average (·.total) log = some a) :
    ∃ a1 a2 a3 a4 a5 a6 a7, average (·.preparePc) log = some a1 ∧ average (·.rom) log = some a2 ∧
      average (·.registers) log = some a3 ∧ average (·.readRam) log = some a4 ∧
      average (·.updateRegisters) log = some a5 ∧ average (·.updateRam) log = some a6 ∧
      average (·.updatePc) log = some a7 ∧ a1 + a2 + a3 + a4 + a5 + a6 + a7 ≤ a := by
  obtain ⟨h1, h2, rfl⟩ := average_inv h
  have get (f : Measurement → Nat) (hf : ∀ m ∈ log, f m ≤ m.total) :
      average f log = some ((log.map f).sum / (log.length % 2 ^ 32)) := by
    unfold average
    rw [foldl_sum, Nat.zero_add]
    simp only [if_pos (Nat.lt_of_le_of_lt (sum_le f (·.total) log hf) h1), if_neg h2]
  refine ⟨_, _, _, _, _, _, _, get _ fun m hm => ?_, get _ fun m hm => ?_, get _ fun m hm => ?_, get _ fun m hm => ?_,
    get _ fun m hm => ?_, get _ fun m hm => ?_, get _ fun m hm => ?_, ?_⟩
  rotate_right
  · have hs : (log.map (·.preparePc)).sum + (log.map (·.rom)).sum + (log.map (·.registers)).sum +
        (log.map (·.readRam)).sum + (log.map (·.updateRegisters)).sum + (log.map (·.updateRam)).sum +
        (log.map (·.updatePc)).sum ≤ (log.map (·.total)).sum := by
      clear get h h1 h2
      induction log with
      | nil => exact Nat.le_refl _
      | cons m log ih =>
        have := (hn m List.mem_cons_self).total
        have := ih fun x hx => hn x (List.mem_cons_of_mem _ hx)
        simp only [List.map_cons, List.sum_cons]
        omega
    refine Nat.le_trans ?_ (Nat.div_le_div_right hs)
    refine Nat.le_trans ?_ (div_add_le _ _ _)
    refine Nat.add_le_add_right (Nat.le_trans ?_ (div_add_le _ _ _)) _
    refine Nat.add_le_add_right (Nat.le_trans ?_ (div_add_le _ _ _)) _
    refine Nat.add_le_add_right (Nat.le_trans ?_ (div_add_le _ _ _)) _
    refine Nat.add_le_add_right (Nat.le_trans ?_ (div_add_le _ _ _)) _
    exact Nat.add_le_add_right (div_add_le _ _ _) _
  all_goals
    have := (hn m hm).total
    omega

/-- doc/costs.md says that the time of a cycle is the sum along the longest path of its graph, and gives 165, 144, 79, 210,
81 and 81 ms for the six blocks, so 165 + 144 + 79 + 210 = 598 ms.  No log has these averages: with stages as long as
that, the average cycle takes at least 760 ms. -/
theorem C71_costs (log : List Measurement) (a : Nat) (hn : ∀ m ∈ log, Nested m) (h : average (·.total) log = some a)
    (h1 : ∀ x, average (·.rom) log = some x → 165000000 ≤ x)
    (h2 : ∀ x, average (·.registers) log = some x → 144000000 ≤ x)
    (h3 : ∀ x, average (·.readRam) log = some x → 79000000 ≤ x)
    (h4 : ∀ x, average (·.updateRegisters) log = some x → 210000000 ≤ x)
    (h5 : ∀ x, average (·.updateRam) log = some x → 81000000 ≤ x)
    (h6 : ∀ x, average (·.updatePc) log = some x → 81000000 ≤ x) : 760000000 ≤ a := by
  obtain ⟨a1, a2, a3, a4, a5, a6, a7, -, e2, e3, e4, e5, e6, e7, hs⟩ := C71_average_nested log a hn h
  have := h1 _ e2; have := h2 _ e3; have := h3 _ e4; have := h4 _ e5; have := h5 _ e6; have := h6 _ e7
  omega

/-! ### The hypotheses are met -/

/-- Three cycles of the example of C30 with timings: three entries, all nested, all printed. -/
example : ∃ (vm : Interp sampleFhe.B) (v : TimedVm sampleFhe.B) (k : Nat),
    TimedVm.run 3 ⟨vm, true, [], []⟩ (fun j => 7 * j) 0 = some (v, k) ∧ v.log.length = 3 ∧ (∀ m ∈ v.log, Nested m) ∧
      v.printed = v.log := by
  obtain ⟨vm, h⟩ := demo_load
  obtain ⟨hr, hc⟩ := C29_start sampleFhe _ true 4 4 3 demoParser _ vm demoDecoded (by decide) demo_decoded h
  obtain ⟨d2, hs⟩ : ∃ d2, Spec.cycles 3 (Debug.image 4 4 demoDecoded [9#32, 8#32]) = some d2 :=
    Option.isSome_iff_exists.mp (by decide +kernel)
  obtain ⟨vm2, e1, -⟩ := C30_exact sampleFhe _ true 4 4 3 demoParser _ vm demoDecoded
    (by decide) demo_decoded h 3 (by decide) d2 hs
  have hz : vm.cycle.toNat = 0 := by rw [hc]; rfl
  obtain ⟨h1, h2⟩ := C71_log 3 ⟨vm, true, [], []⟩ (fun j => 7 * j) 0 (Nat.le_of_eq hz)
  rw [e1] at h1
  cases hrun : TimedVm.run 3 ⟨vm, true, [], []⟩ (fun j => 7 * j) 0 with
  | none => rw [hrun] at h1; cases h1
  | some x =>
    obtain ⟨new, a1, a2, a3, a4⟩ := h2 x.1 x.2 hrun
    have hl : x.1.log = new := a1
    exact ⟨vm, x.1, x.2, hrun, by rw [hl, a2], by rw [hl]; exact a3 (fun i j h => Nat.mul_le_mul_left 7 h), by
      rw [hl]; exact a4 hz (by show 0 + 3 ≤ 2 ^ 32; decide)⟩

/-- The averages of the document. -/
def documented : Measurement :=
  { Measurement.new with
    total := 763000000, rom := 165000000, registers := 144000000, readRam := 79000000
    updateRegisters := 210000000, updateRam := 81000000, updatePc := 81000000 }

example : Nested documented := by constructor <;> decide
example : average (·.total) [documented] = some 763000000 := by decide
example : average (·.total) [] = none := by decide
-- two cycles, one nanosecond apart: the average is rounded down
example : average (·.total) [documented, { documented with total := 763000001 }] = some 763000000 := by decide
-- a clock that goes back breaks the nesting
example : ¬ Nested (measured (fun j => if j = 42 then 0 else j) 0 0 0) := by
  intro h; have := h.total; revert this; decide

end Verif.Props
