import Verif.Spec.Host
import Verif.Model.Host
import Verif.Props.ElfFile
import Verif.Props.Matcher
/-
  C74: the host programs of compiler-tests, their settings, and what their checks establish.
-/
namespace Verif.Props
open Model Spec Model.ElfBytes Model.Link Spec.ElfFile

/-! ### Settings -/

theorem toDigit_char (d : Nat) (h : d < 10) : Host.toDigit (digitChar d) = some (BitVec.ofNat 64 d) := by
  have : ∀ d : Fin 10, Host.toDigit (digitChar d) = some (BitVec.ofNat 64 d) := by decide
  exact this ⟨d, h⟩

theorem toDigit_inv (b : Byte) (x : BitVec 64) (h : Host.toDigit b = some x) :
    x.toNat < 10 ∧ b = digitChar x.toNat := by
  have : ∀ b : Byte, ∀ x, Host.toDigit b = some x → x.toNat < 10 ∧ b = digitChar x.toNat := by
    intro b x h
    have : ∀ b : Byte, (Host.toDigit b).all (fun x => decide (x.toNat < 10 ∧ b = digitChar x.toNat)) := by
      decide +kernel
    have := this b
    rw [h] at this
    simpa using this
  exact this b x h

/-- Digits and their values. -/
def DigitsOf (cs : List Byte) (ds : List Nat) : Prop := (∀ d ∈ ds, d < 10) ∧ cs = ds.map digitChar

theorem DigitsOf.cons {c : Byte} {cs : List Byte} {ds : List Nat} (h : DigitsOf (c :: cs) ds) :
    ∃ d ds', ds = d :: ds' ∧ d < 10 ∧ c = digitChar d ∧ DigitsOf cs ds' := by
  obtain ⟨h1, h2⟩ := h
  cases ds with
  | nil => cases h2
  | cons d ds =>
    rw [List.map_cons, List.cons.injEq] at h2
    exact ⟨d, ds, rfl, h1 d List.mem_cons_self, h2.1, fun x hx => h1 x (List.mem_cons_of_mem _ hx), h2.2⟩

theorem decimal_lt (ds : List Nat) (h : ∀ d ∈ ds, d < 10) : decimal ds < 10 ^ ds.length := by
  induction ds with
  | nil => decide
  | cons d ds ih =>
    have h1 := h d List.mem_cons_self
    have h2 := ih fun x hx => h x (List.mem_cons_of_mem _ hx)
    show d * 10 ^ ds.length + decimal ds < 10 ^ (ds.length + 1)
    rw [Nat.pow_succ]
    have : d * 10 ^ ds.length ≤ 9 * 10 ^ ds.length := Nat.mul_le_mul_right _ (by omega)
    omega

/-- The loop with checks computes the number if it fits. -/
theorem slowLoop_iff (cs : List Byte) : ∀ (r : BitVec 64) (n : BitVec 64), Host.slowLoop cs r = some n ↔
    ∃ ds, DigitsOf cs ds ∧ n.toNat = r.toNat * 10 ^ ds.length + decimal ds := by
  induction cs with
  | nil =>
    intro r n
    constructor
    · intro h
      cases h
      exact ⟨[], ⟨by simp, rfl⟩, by simp [decimal]⟩
    · rintro ⟨ds, ⟨-, h⟩, e⟩
      cases ds with
      | nil => exact congrArg some (BitVec.eq_of_toNat_eq (by simpa [decimal] using e.symm))
      | cons => cases h
  | cons c cs ih =>
    intro r n
    unfold Host.slowLoop
    constructor
    · intro h
      obtain ⟨x, hx, h⟩ := Option.bind_eq_some_iff.mp h
      obtain ⟨x1, x2⟩ := toDigit_inv c x hx
      split at h
      · cases h
      · next h1 =>
        split at h
        · cases h
        · next h2 =>
          obtain ⟨ds, hd, e⟩ := (ih _ _).mp h
          have hm : (r * 10#64).toNat = r.toNat * 10 := by
            rw [BitVec.toNat_mul]; exact Nat.mod_eq_of_lt (by simpa using h1)
          rw [BitVec.toNat_add, Nat.mod_eq_of_lt (by omega), hm] at e
          refine ⟨x.toNat :: ds, ⟨fun d hd' => ?_, by rw [List.map_cons, ← x2, ← hd.2]⟩, ?_⟩
          · rcases List.mem_cons.mp hd' with rfl | h'
            · exact x1
            · exact hd.1 d h'
          · rw [e, List.length_cons, decimal, Nat.pow_succ, Nat.add_mul, Nat.mul_assoc, Nat.mul_comm 10, Nat.add_assoc]
    · rintro ⟨ds, hd, e⟩
      obtain ⟨d, ds', rfl, hd1, rfl, hd2⟩ := hd.cons
      rw [toDigit_char d hd1, Option.bind_some]
      have hn := n.isLt
      have hdl : (BitVec.ofNat 64 d).toNat = d := by rw [BitVec.toNat_ofNat]; exact Nat.mod_eq_of_lt (by omega)
      have he : n.toNat = (r.toNat * 10 + d) * 10 ^ ds'.length + decimal ds' := by
        rw [e, List.length_cons, decimal, Nat.pow_succ, Nat.add_mul, Nat.mul_assoc, Nat.mul_comm 10, Nat.add_assoc]
      have hp : 1 ≤ 10 ^ ds'.length := Nat.one_le_pow _ _ (by decide)
      have hle : r.toNat * 10 + d ≤ n.toNat := by
        rw [he]
        exact Nat.le_trans (Nat.le_mul_of_pos_right _ hp) (Nat.le_add_right _ _)
      have hm : (r * 10#64).toNat = r.toNat * 10 := by
        rw [BitVec.toNat_mul]; exact Nat.mod_eq_of_lt (by show r.toNat * 10 < _; omega)
      rw [if_neg (by omega), if_neg (by rw [hm, hdl]; omega)]
      refine (ih _ _).mpr ⟨ds', hd2, ?_⟩
      rw [BitVec.toNat_add, hm, hdl, Nat.mod_eq_of_lt (by omega), he]

/-- The loop without checks does the same as long as nothing overflows. -/
theorem fastLoop_eq (cs : List Byte) : ∀ (r : BitVec 64), (r.toNat + 1) * 10 ^ cs.length ≤ 2 ^ 64 →
    Host.fastLoop cs r = Host.slowLoop cs r := by
  induction cs with
  | nil => intro r _; rfl
  | cons c cs ih =>
    intro r hr
    unfold Host.fastLoop Host.slowLoop
    cases hx : Host.toDigit c with
    | none => rfl
    | some x =>
      obtain ⟨x1, -⟩ := toDigit_inv c x hx
      rw [Option.bind_some, Option.bind_some]
      rw [List.length_cons, Nat.pow_succ, Nat.mul_comm _ 10, ← Nat.mul_assoc] at hr
      have hp : 1 ≤ 10 ^ cs.length := Nat.one_le_pow _ _ (by decide)
      have hle : (r.toNat + 1) * 10 ≤ 2 ^ 64 := Nat.le_trans (Nat.le_mul_of_pos_right _ hp) hr
      have hm : (r * 10#64).toNat = r.toNat * 10 := by
        rw [BitVec.toNat_mul]; exact Nat.mod_eq_of_lt (by show r.toNat * 10 < _; omega)
      rw [if_neg (by omega), if_neg (by omega)]
      refine ih _ (Nat.le_trans (Nat.mul_le_mul_right _ ?_) hr)
      rw [BitVec.toNat_add, hm, Nat.mod_eq_of_lt (by omega)]
      omega

/-- A number is accepted exactly if it is written in decimal and fits 64 bits: both loops of the parser are right. -/
theorem C74_parse (v : List Byte) (n : Nat) : Host.parseUsize v = some n ↔ IsDecimal v n ∧ n < 2 ^ 64 := by
  have key : ∀ ds : List Byte, ((if ds.length ≤ 16 then Host.fastLoop ds 0#64 else Host.slowLoop ds 0#64).map
      fun r => r.toNat) = some n ↔ n < 2 ^ 64 ∧ ∃ xs, DigitsOf ds xs ∧ n = decimal xs := by
    intro ds
    have e : (if ds.length ≤ 16 then Host.fastLoop ds 0#64 else Host.slowLoop ds 0#64) = Host.slowLoop ds 0#64 := by
      split
      · next h =>
        refine fastLoop_eq ds _ ?_
        show 1 * _ ≤ _
        rw [Nat.one_mul]
        exact Nat.le_trans (Nat.pow_le_pow_right (by decide) h) (by decide)
      · rfl
    rw [e]
    constructor
    · intro h
      obtain ⟨r, h1, rfl⟩ := Option.map_eq_some_iff.mp h
      obtain ⟨xs, hx, e⟩ := (slowLoop_iff ds _ _).mp h1
      exact ⟨r.isLt, xs, hx, by simpa using e⟩
    · rintro ⟨hn, xs, hx, e⟩
      refine Option.map_eq_some_iff.mpr ⟨BitVec.ofNat 64 n, (slowLoop_iff ds _ _).mpr ⟨xs, hx, ?_⟩, ?_⟩
      · rw [BitVec.toNat_ofNat, Nat.mod_eq_of_lt hn, e]; simp
      · rw [BitVec.toNat_ofNat, Nat.mod_eq_of_lt hn]
  have noPlus : ∀ (d : Nat), d < 10 → digitChar d ≠ 0x2B#8 ∧ digitChar d ≠ 0x2D#8 := by
    intro d h
    have : ∀ d : Fin 10, digitChar d ≠ 0x2B#8 ∧ digitChar d ≠ 0x2D#8 := by decide
    exact this ⟨d, h⟩
  unfold Host.parseUsize Host.digits
  by_cases h0 : v = [] ∨ v = [0x2B#8] ∨ v = [0x2D#8]
  · rw [if_pos h0]
    refine iff_of_false (by simp) ?_
    rintro ⟨⟨ds, hne, hd, -, hv⟩, -⟩
    cases ds with
    | nil => exact hne rfl
    | cons d ds =>
      have := noPlus d (hd d List.mem_cons_self)
      rcases hv with rfl | rfl
      · rcases h0 with h | h | h
        · cases h
        · rw [List.map_cons, List.cons.injEq] at h; exact this.1 h.1
        · rw [List.map_cons, List.cons.injEq] at h; exact this.2 h.1
      · rcases h0 with h | h | h <;> simp at h
  · rw [if_neg h0]
    by_cases h1 : v.head? = some 0x2B#8
    · rw [if_pos h1, Option.bind_some, key]
      obtain ⟨ds, rfl⟩ : ∃ ds, v = 0x2B#8 :: ds := by
        cases v with
        | nil => cases h1
        | cons a ds => exact ⟨ds, by rw [Option.some.inj h1]⟩
      constructor
      · rintro ⟨hn, xs, ⟨hx1, hx2⟩, e⟩
        refine ⟨⟨xs, ?_, hx1, e, Or.inr (by rw [← hx2]; rfl)⟩, hn⟩
        rintro rfl
        apply h0
        right; left
        rw [show ds = [] from hx2]
      · rintro ⟨⟨xs, hne, hx, e, hv⟩, hn⟩
        refine ⟨hn, xs, ⟨hx, ?_⟩, e⟩
        rcases hv with hv | hv
        · cases xs with
          | nil => exact absurd rfl hne
          | cons d xs =>
            rw [List.map_cons, List.cons.injEq] at hv
            exact absurd hv.1.symm (noPlus d (hx d List.mem_cons_self)).1
        · exact (List.cons.inj hv).2
    · rw [if_neg h1, Option.bind_some, key]
      constructor
      · rintro ⟨hn, xs, ⟨hx1, hx2⟩, e⟩
        refine ⟨⟨xs, ?_, hx1, e, Or.inl hx2⟩, hn⟩
        rintro rfl
        exact h0 (Or.inl hx2)
      · rintro ⟨⟨xs, hne, hx, e, hv⟩, hn⟩
        refine ⟨hn, xs, ⟨hx, ?_⟩, e⟩
        rcases hv with hv | hv
        · exact hv
        · exact absurd (by rw [hv]; rfl) h1

/-- A flag is set by exactly the seventeen texts that say yes. -/
theorem C74_yes (v : List Byte) : Host.isYes v = true ↔ IsYes v := by
  have lo : ∀ (x b : Byte), (x = 0x74#8 ∨ x = 0x72#8 ∨ x = 0x75#8 ∨ x = 0x65#8) →
      ((Host.toLower b == Host.toLower x) = true ↔ b = x - 0x20#8 ∨ b = x) := by
    intro x b hx
    have : ∀ b : Byte, ((Host.toLower b == Host.toLower 0x74#8) = true ↔ b = 0x54#8 ∨ b = 0x74#8) ∧
        ((Host.toLower b == Host.toLower 0x72#8) = true ↔ b = 0x52#8 ∨ b = 0x72#8) ∧
        ((Host.toLower b == Host.toLower 0x75#8) = true ↔ b = 0x55#8 ∨ b = 0x75#8) ∧
        ((Host.toLower b == Host.toLower 0x65#8) = true ↔ b = 0x45#8 ∨ b = 0x65#8) := by decide +kernel
    obtain ⟨h1, h2, h3, h4⟩ := this b
    rcases hx with rfl | rfl | rfl | rfl
    · exact h1
    · exact h2
    · exact h3
    · exact h4
  unfold Host.isYes IsYes
  rw [Bool.or_eq_true, beq_iff_eq]
  refine or_congr Iff.rfl ?_
  unfold Host.eqIgnoreCase
  rw [Bool.and_eq_true, decide_eq_true_eq]
  constructor
  · rintro ⟨hl, ha⟩
    match v, hl with
    | [t, r, u, e], _ =>
      simp only [List.zip_cons_cons, List.zip_nil_right, List.all_cons, List.all_nil, Bool.and_true, Bool.and_eq_true] at ha
      obtain ⟨h1, h2, h3, h4⟩ := ha
      exact ⟨t, r, u, e, rfl, (lo _ _ (by simp)).mp h1, (lo _ _ (by simp)).mp h2, (lo _ _ (by simp)).mp h3,
        (lo _ _ (by simp)).mp h4⟩
  · rintro ⟨t, r, u, e, rfl, h1, h2, h3, h4⟩
    refine ⟨rfl, ?_⟩
    simp only [List.zip_cons_cons, List.zip_nil_right, List.all_cons, List.all_nil, Bool.and_true, Bool.and_eq_true]
    exact ⟨(lo _ _ (by simp)).mpr h1, (lo _ _ (by simp)).mpr h2, (lo _ _ (by simp)).mpr h3, (lo _ _ (by simp)).mpr h4⟩

/-- All settings.  `MAX_CYCLES` and `PHANTOM_THREADS` are the numbers written there, and the default if there is no
number below 2^64; a flag is set by a text that says yes, and by no other.  Nothing is assumed on what counts as
Unicode, except that ASCII does. -/
theorem C74_settings (utf8 : List Byte → Bool) (hu : ∀ v : List Byte, (∀ b ∈ v, b.toNat < 128) → utf8 v = true)
    (env : Host.Env) (default cpus : Nat) (name : String) :
    (∀ v n, env "MAX_CYCLES" = some v → IsDecimal v n → n < 2 ^ 64 → Host.maxCycles utf8 env default = n) ∧
    ((∀ v n, env "MAX_CYCLES" = some v → IsDecimal v n → 2 ^ 64 ≤ n) → Host.maxCycles utf8 env default = default) ∧
    (∀ v n, env "PHANTOM_THREADS" = some v → IsDecimal v n → n < 2 ^ 64 → Host.threads utf8 env cpus = n) ∧
    ((∀ v n, env "PHANTOM_THREADS" = some v → IsDecimal v n → 2 ^ 64 ≤ n) → Host.threads utf8 env cpus = cpus) ∧
    (Host.flag utf8 env name = true ↔ ∃ v, env name = some v ∧ IsYes v) := by
  have hdec : ∀ v n, IsDecimal v n → utf8 v = true := by
    rintro v n ⟨ds, -, hd, -, hv⟩
    apply hu
    intro b hb
    have hc : ∀ b ∈ ds.map digitChar, b.toNat < 128 := by
      intro b hb
      obtain ⟨d, hm, rfl⟩ := List.mem_map.mp hb
      have := hd d hm
      unfold digitChar
      rw [BitVec.toNat_ofNat]
      omega
    rcases hv with rfl | rfl
    · exact hc b hb
    · rcases List.mem_cons.mp hb with rfl | hb
      · decide
      · exact hc b hb
  have hnone : ∀ v, (∀ n, IsDecimal v n → 2 ^ 64 ≤ n) → Host.parseUsize v = none := by
    intro v h
    cases hp : Host.parseUsize v with
    | none => rfl
    | some n =>
      obtain ⟨h1, h2⟩ := (C74_parse v n).mp hp
      exact absurd (h n h1) (by omega)
  have hsome : ∀ v n, IsDecimal v n → n < 2 ^ 64 → Host.parseUsize v = some n := fun v n h1 h2 =>
    (C74_parse v n).mpr ⟨h1, h2⟩
  refine ⟨fun v n hv hd hn => ?_, fun h => ?_, fun v n hv hd hn => ?_, fun h => ?_, ?_⟩
  · unfold Host.maxCycles Host.Env.var
    rw [hv, Option.filter_some, if_pos (hdec v n hd), Option.bind_some, hsome v n hd hn]; rfl
  · unfold Host.maxCycles Host.Env.var
    cases hv : env "MAX_CYCLES" with
    | none => rfl
    | some v =>
      rw [Option.filter_some]
      split
      · rw [Option.bind_some, hnone v fun n => h v n hv]; rfl
      · rfl
  · unfold Host.threads Host.Env.var
    rw [hv, Option.filter_some, if_pos (hdec v n hd)]
    simp only [hsome v n hd hn, Option.getD_some]
  · unfold Host.threads Host.Env.var
    cases hv : env "PHANTOM_THREADS" with
    | none => rfl
    | some v =>
      rw [Option.filter_some]
      by_cases hu' : utf8 v = true
      · rw [if_pos hu']
        simp only [hnone v fun n => h v n hv, Option.getD_none]
      · rw [if_neg hu']
  · unfold Host.flag Host.Env.var
    have hy : ∀ v, IsYes v → utf8 v = true := by
      intro v hv
      apply hu
      rcases hv with rfl | ⟨t, r, u, e, rfl, h1, h2, h3, h4⟩
      · decide
      · intro b hb
        simp only [List.mem_cons, List.not_mem_nil, or_false] at hb
        rcases hb with rfl | rfl | rfl | rfl
        · rcases h1 with rfl | rfl <;> decide
        · rcases h2 with rfl | rfl <;> decide
        · rcases h3 with rfl | rfl <;> decide
        · rcases h4 with rfl | rfl <;> decide
    cases hv : env name with
    | none => simp
    | some v =>
      rw [Option.filter_some]
      by_cases hu' : utf8 v = true
      · rw [if_pos hu', Option.map_some, Option.getD_some, C74_yes]
        simp
      · rw [if_neg hu']
        simp only [Option.map_none, Option.getD_none, Bool.false_eq_true, Option.some.injEq, false_iff]
        rintro ⟨w, rfl, hw⟩
        exact hu' (hy _ hw)

/-! ### The comparison of the tapes -/

theorem fetch_no_threads {B : Backend} (vm : Interp B) (pcP : B.Prep) (h : vm.threads = 0) : vm.fetch pcP = none := by
  have : vm.immRom.readStateless vm.threads pcP 2 = none := by
    unfold Memory.readStateless parallel threadOrder
    rw [h, if_pos rfl]
    simp
  unfold Interp.fetch
  rw [this]; rfl

theorem load_threads {B : Backend} {C : Cipher B} {rand : Nat → Nat → Nat → C.Rand} {dbg : Bool} {romSize ramSize threads : Nat}
    {p : Parser} {data : List Word} {vm : Interp B} (h : Interp.load C rand dbg romSize ramSize threads p data = some vm) :
    vm.threads = threads := by
  unfold Interp.load at h
  obtain ⟨_, -, h⟩ := Option.bind_eq_some_iff.mp h
  obtain ⟨_, -, h⟩ := Option.bind_eq_some_iff.mp h
  obtain ⟨_, -, rfl⟩ := Option.map_eq_some_iff.mp h
  rfl

/-- With `PHANTOM_THREADS=0` no host gets through a single cycle, whatever the guest, the input and the library. -/
theorem C74_no_threads {B : Backend} (C : Cipher B) (rand : Nat → Nat → Nat → C.Rand) (decU : B.Uint → U32)
    (decP : B.Prep → U32) (chk dbg phantomDebug : Bool) (p : Phantom) (tape : List Byte) (n : Nat) (hn : 0 < n) :
    Host.bothTapes C rand decU decP chk dbg phantomDebug 0 p tape n = none := by
  unfold Host.bothTapes
  cases hev : p.encryptedVm C rand dbg phantomDebug 0 tape n with
  | none => rfl
  | some ev =>
    obtain ⟨-, -, parser, ds, bytes, -, -, -, -, hl, -, -, hmc, -⟩ := encryptedVm_inv hev
    have ht := load_threads hl
    have htr : ev.interp.trace = none := by
      unfold Interp.trace
      simp only [fetch_no_threads _ _ ht, Option.bind_none]
    have : ev.execute C decU decP = none := by
      unfold EncVM.execute
      rw [hmc]
      obtain ⟨k, rfl⟩ : ∃ k, n = k + 1 := ⟨n - 1, by omega⟩
      show (ev.cycle C decU decP).bind _ = none
      have : ev.cycle C decU decP = none := by
        unfold EncVM.cycle cycleDebug Interp.step
        rw [htr]
        cases ev.mirror <;> rfl
      rw [this]; rfl
    rw [Option.bind_some, this]; rfl

/-- If the common part of a host gets through, both VMs have run to the end and left the same tape. -/
theorem C74_equal {B : Backend} (C : Cipher B) (rand : Nat → Nat → Nat → C.Rand) (decU : B.Uint → U32)
    (decP : B.Prep → U32) (chk dbg phantomDebug : Bool) (threads : Nat) (p : Phantom) (tape out : List Byte) (n : Nat) :
    Host.bothTapes C rand decU decP chk dbg phantomDebug threads p tape n = some out ↔
      (∃ ev ev2, p.encryptedVm C rand dbg phantomDebug threads tape n = some ev ∧ ev.execute C decU decP = some ev2 ∧
        ev2.outputTape C chk = some out) ∧
      ∃ vm0 vm1 vm2, p.testVm chk n = some vm0 ∧ vm0.readInputTape chk tape = some vm1 ∧ vm1.execute chk = some vm2 ∧
        vm2.outputTape chk = some out := by
  unfold Host.bothTapes
  constructor
  · intro h
    obtain ⟨ev, h1, h⟩ := Option.bind_eq_some_iff.mp h
    obtain ⟨ev2, h2, h⟩ := Option.bind_eq_some_iff.mp h
    obtain ⟨t, h3, h⟩ := Option.bind_eq_some_iff.mp h
    obtain ⟨vm0, h4, h⟩ := Option.bind_eq_some_iff.mp h
    obtain ⟨vm1, h5, h⟩ := Option.bind_eq_some_iff.mp h
    obtain ⟨vm2, h6, h⟩ := Option.bind_eq_some_iff.mp h
    obtain ⟨t2, h7, h⟩ := Option.bind_eq_some_iff.mp h
    split at h
    · next e =>
      cases h
      exact ⟨⟨ev, ev2, h1, h2, by rw [h3, e]⟩, vm0, vm1, vm2, h4, h5, h6, h7⟩
    · cases h
  · rintro ⟨⟨ev, ev2, h1, h2, h3⟩, vm0, vm1, vm2, h4, h5, h6, h7⟩
    rw [h1, Option.bind_some, h2, Option.bind_some, h3, Option.bind_some, h4, Option.bind_some, h5, Option.bind_some,
      h6, Option.bind_some, h7, Option.bind_some, if_pos rfl]

/-- And it gets through, with the tape of the test VM, for every linked guest whose run meets only what the encrypted VM
supports. -/
theorem C74_passes (F : Fhe) (rand : Nat → Nat → Nat → F.C.Rand) (chk dbg phantomDebug : Bool)
    (threads n : Nat) (ht : 0 < threads) (hn : n < 2 ^ 32) {g : Guest} {l : Layout}
    (hv : Guest.Valid g) (h : link g = some l) (c : Contents) (hc : c.Of l) (hne : ∃ s ∈ l.ramSections, 0 < s.size)
    (htext : 0 < l.text.size) (tape : List Byte) (hlen : tape.length = l.inp.size) (parser : Parser)
    (hp : Parser.new.addAll dbg (packWords c.text) = some parser) :
    ∃ p vm0 vm1, fromBytes (guestFile l c).write = some p ∧ p.testVm chk n = some vm0 ∧ vm0.readInputTape chk tape = some vm1 ∧
      ∀ vm2, (∀ k v, k < n → vm1.steps chk k = some v → v.Executes chk (encOk 4096)) → vm1.execute chk = some vm2 →
        Host.bothTapes F.C rand F.decU F.decP chk dbg phantomDebug threads p tape n = vm2.outputTape chk := by
  obtain ⟨p, ev, vm0, vm1, h1, h2, h3, h4, h5⟩ := C73_output F rand chk dbg phantomDebug threads n ht hn hv h c hc hne htext
    tape hlen parser hp
  refine ⟨p, vm0, vm1, h1, h3, h4, fun vm2 hx hr => ?_⟩
  obtain ⟨ev2, h6, h7⟩ := h5 vm2 hx hr
  cases ho : vm2.outputTape chk with
  | none =>
    unfold Host.bothTapes
    rw [h2, Option.bind_some, h6, Option.bind_some, h7, ho]; rfl
  | some out =>
    exact (C74_equal _ _ _ _ _ _ _ _ _ _ _ _).mpr ⟨⟨ev, ev2, h2, h6, h7.trans ho⟩, vm0, vm1, vm2, h3, h4, hr, ho⟩

/-- With `MAX_CYCLES=0` it gets through for every linked guest, with the initial contents of `.outdata`. -/
theorem C74_zero_cycles (F : Fhe) (rand : Nat → Nat → Nat → F.C.Rand) (chk dbg phantomDebug : Bool)
    (threads : Nat) (ht : 0 < threads) {g : Guest} {l : Layout}
    (hv : Guest.Valid g) (h : link g = some l) (c : Contents) (hc : c.Of l) (hne : ∃ s ∈ l.ramSections, 0 < s.size)
    (htext : 0 < l.text.size) (tape : List Byte) (hlen : tape.length = l.inp.size) (parser : Parser)
    (hp : Parser.new.addAll dbg (packWords c.text) = some parser) :
    ∃ p, fromBytes (guestFile l c).write = some p ∧
      Host.bothTapes F.C rand F.decU F.decP chk dbg phantomDebug threads p tape 0 = some c.out := by
  obtain ⟨p, vm0, vm1, h1, h3, h4, h5⟩ := C74_passes F rand chk dbg phantomDebug threads 0 ht (by decide) hv h c hc hne htext
    tape hlen parser hp
  refine ⟨p, h1, ?_⟩
  obtain ⟨e, p', g1, -, g3, g4, g5, g6, g7, g8, g9, -⟩ := C73_guest hv h c hc hne
  obtain rfl : p = p' := Option.some.inj (h1.symm.trans g3)
  have hpe : Phantom.fromElf e = some p := by
    unfold fromBytes at h1
    rw [g1, Option.bind_some] at h1
    exact h1
  have heb : e.bytes = (guestFile l c).write := by
    rw [C73_written _ (guest_fits hv h c hc)] at g1
    rw [← Option.some.inj g1]
  have hfit := (guest_fits hv h c hc).total
  obtain ⟨r1, r2, r3, -⟩ := C64_ram hv h
  have ri := r1 l.inp (by simp [Layout.ramSections])
  have ro := r1 l.out (by simp [Layout.ramSections])
  have rio : l.inp.addr + l.inp.size ≤ l.out.addr := (List.pairwise_cons.mp r3).1 l.out (by simp)
  obtain ⟨bytes, hb⟩ : ∃ bytes, copyInto p.bootRam.data p.bootRam.offset p.input.startAddr tape = some bytes := by
    unfold copyInto
    rw [g5, g7, g6, if_pos (by simp only; omega)]
    exact ⟨_, rfl⟩
  obtain ⟨hlo, hpl⟩ := placed_copyInto hb
  rw [g5] at hpl
  obtain ⟨vm2, e1, e2⟩ := C70_testvm chk 0 e p tape bytes vm0 vm1 (fun _ => none) (startState bytes) (by rw [heb]; omega) hpe g5 h3 h4
    hpl (by rw [g7]; exact ri.2.1) (by rw [g7]; exact hlen) (by
      rw [g4, hc.1]
      obtain ⟨_, _, t3, -⟩ := C64_text hv h
      omega)
    (by intro pc i h; cases h) (.zero _) (by rw [g8]; exact ro.2.1)
    (by rw [g8]; show l.out.addr + l.out.size ≤ 0x40000 + 4096; omega)
  rw [h5 vm2 (by intro k v hk; omega) e1, e2]
  congr 1
  have hco : c.out.length = l.out.size := hc.2 (l.out, c.out) (by simp [Contents.ram])
  apply List.ext_getElem?
  intro i
  unfold ramBytes
  rw [g8, show ramBase = 0x40000 from rfl]
  by_cases hi : i < l.out.size
  · rw [List.getElem?_map, List.getElem?_range hi, Option.map_some]
    have := startState_mem bytes (l.out.addr - 0x40000 + i) (by show 0x40000 + _ < 2 ^ 32; omega)
    rw [show ramBase = 0x40000 from rfl] at this
    rw [this, List.getD_eq_getElem?_getD, hpl.2.2.2 _ (by rw [g7]; show _ ∨ l.inp.addr - 0x40000 + _ ≤ _; omega)]
    have := g9 (l.out, c.out) (by simp [Contents.ram]) i hi
    simp only at this
    rw [show l.out.addr - 0x40000 + i = l.out.addr + i - 0x40000 by omega, this,
      List.getElem?_eq_getElem (show i < c.out.length by omega)]; rfl
  · rw [List.getElem?_eq_none_iff.mpr (by simp; omega), List.getElem?_eq_none_iff.mpr (by omega)]

/-! ### The hosts -/

/-- The host of string-match passes exactly if the tapes agree and their first byte says whether the string is
`"mississippi"`, up to zeros at its end. -/
theorem C74_match {B : Backend} (C : Cipher B) (rand : Nat → Nat → Nat → C.Rand) (decU : B.Uint → U32)
    (decP : B.Prep → U32) (utf8 : List Byte → Bool) (env : Host.Env) (cpus : Nat) (chk dbg : Bool) (p : Phantom)
    (s : List Byte) (b : Bool) : Host.matchHost C rand decU decP utf8 env cpus chk dbg p s = some b ↔
      s.length ≤ 20 ∧ (b = true ↔ s ++ List.replicate (20 - s.length) 0#8 = secret) ∧
      ∃ tape, Host.runGuest C rand decU decP utf8 env cpus chk dbg p (s ++ List.replicate (20 - s.length) 0#8) 100 = some tape ∧
        (b = true ↔ tape.getD 0 0#8 ≠ 0#8) := by
  unfold Host.matchHost
  rw [show Guest.boundedString s = if s.length ≤ 20 then some (s ++ List.replicate (20 - s.length) 0#8) else none from
    C47_bounded s]
  have hs : Guest.boundedString Guest.hidden = some secret := by decide +kernel
  by_cases hl : s.length ≤ 20
  · rw [if_pos hl, Option.bind_some]
    have hb : Guest.boundedEq (s ++ List.replicate (20 - s.length) 0#8) secret = true ↔
        s ++ List.replicate (20 - s.length) 0#8 = secret := boundedEq_iff _ _ (by simp; omega) (by decide)
    have hg : ∀ tape : List Byte, Guest.getBool tape 0 = true ↔ tape.getD 0 0#8 ≠ 0#8 := by
      intro tape
      unfold Guest.getBool
      rw [bne_iff_ne]; rfl
    constructor
    · intro h
      obtain ⟨tape, h1, h⟩ := Option.bind_eq_some_iff.mp h
      rw [hs, Option.bind_some] at h
      split at h
      · next e =>
        cases h
        exact ⟨hl, by rw [e, hb], tape, h1, hg tape⟩
      · cases h
    · rintro ⟨-, h2, tape, h3, h4⟩
      have e1 : Guest.getBool tape 0 = b := Bool.eq_iff_iff.mpr ((hg tape).trans h4.symm)
      have e2 : Guest.boundedEq (s ++ List.replicate (20 - s.length) 0#8) secret = b := Bool.eq_iff_iff.mpr (hb.trans h2.symm)
      rw [h3, Option.bind_some, hs, Option.bind_some, e1, e2, if_pos rfl]
  · rw [if_neg hl]
    exact iff_of_false (by simp) fun h => hl h.1

/-- Built with overflow checks, the host of template never passes, whatever the guest: its own computation of the
expected value overflows at 123. -/
theorem C74_template_checked {B : Backend} (C : Cipher B) (rand : Nat → Nat → Nat → C.Rand) (decU : B.Uint → U32)
    (decP : B.Prep → U32) (utf8 : List Byte → Bool) (env : Host.Env) (cpus : Nat) (dbg : Bool) (p : Phantom) :
    Host.polyHost C rand decU decP utf8 env cpus true dbg p 123#32 = none := by
  unfold Host.polyHost
  have : Guest.polyLoop true 123#32 Guest.coefficients 0#32 1#32 = none := by decide +kernel
  rw [this]
  cases Host.runGuest C rand decU decP utf8 env cpus true dbg p (Guest.putWord 123#32) 700 <;> rfl

/-- Without overflow checks it passes exactly if the tapes agree and hold the value of the polynomial modulo 2^32. -/
theorem C74_template {B : Backend} (C : Cipher B) (rand : Nat → Nat → Nat → C.Rand) (decU : B.Uint → U32)
    (decP : B.Prep → U32) (utf8 : List Byte → Bool) (env : Host.Env) (cpus : Nat) (dbg : Bool) (p : Phantom)
    (x w : Word) : Host.polyHost C rand decU decP utf8 env cpus false dbg p x = some w ↔
      w.toNat = (123 + 456 * x.toNat + 789 * x.toNat ^ 2 + 12 * x.toNat ^ 3 + 3456 * x.toNat ^ 4 + 7 * x.toNat ^ 5 +
        89 * x.toNat ^ 6) % 2 ^ 32 ∧
      ∃ tape, Host.runGuest C rand decU decP utf8 env cpus false dbg p (Guest.putWord x) 700 = some tape ∧
        Guest.getWord tape 0 = w := by
  have hw : Guest.polyLoop false x Guest.coefficients 0#32 1#32 = some (BitVec.ofNat 32
      (123 + 456 * x.toNat + 789 * x.toNat ^ 2 + 12 * x.toNat ^ 3 + 3456 * x.toNat ^ 4 + 7 * x.toNat ^ 5 + 89 * x.toNat ^ 6)) := by
    have h := C54_template x
    unfold Guest.polyMain at h
    have e0 : Guest.getWord (Guest.putWord x) 0 = x := getWord_at [] [] rfl rfl
    rw [e0] at h
    obtain ⟨v, h1, h2⟩ := Option.map_eq_some_iff.mp h
    rw [h1]
    congr 1
    have : Guest.getWord (Guest.putWord v) 0 = Guest.getWord (Guest.putWord (BitVec.ofNat 32 _)) 0 :=
      congrArg (fun t => Guest.getWord t 0) h2
    rwa [show Guest.getWord (Guest.putWord v) 0 = v from getWord_at [] [] rfl rfl, 
      show Guest.getWord (Guest.putWord (BitVec.ofNat 32 _)) 0 = _ from getWord_at [] [] rfl rfl] at this
  unfold Host.polyHost
  constructor
  · intro h
    obtain ⟨tape, h1, h⟩ := Option.bind_eq_some_iff.mp h
    rw [hw, Option.bind_some] at h
    split at h
    · next e =>
      cases h
      exact ⟨BitVec.toNat_ofNat _ _, tape, h1, e⟩
    · cases h
  · rintro ⟨h1, tape, h2, h3⟩
    have e : BitVec.ofNat 32 (123 + 456 * x.toNat + 789 * x.toNat ^ 2 + 12 * x.toNat ^ 3 + 3456 * x.toNat ^ 4 +
        7 * x.toNat ^ 5 + 89 * x.toNat ^ 6) = w := BitVec.eq_of_toNat_eq (by rw [BitVec.toNat_ofNat, h1])
    rw [h2, Option.bind_some, hw, Option.bind_some, e, if_pos h3]

/-- What the host of uniswap expects is what the guest computes, except that without overflow checks the host goes on
where the balance does not suffice. -/
theorem C74_swap_want (p : Guest.Pool) (t : Guest.Trade) (a : Guest.Account) :
    Guest.swap true p t a = Host.wantSwap true p t a ∧
    Guest.swap false p t a = if (holdings t.direction p a).traderSold < t.amount.toNat then none else
      Host.wantSwap false p t a := by
  obtain ⟨am, dir⟩ := t
  have hsub : ∀ x y : Word, x < y → Guest.sub true x y = none := by
    intro x y h
    unfold Guest.sub
    rw [if_pos (by simpa [BitVec.lt_def] using h)]
  unfold Guest.swap Host.wantSwap holdings
  cases dir
  · simp only [Bool.false_eq_true, if_false]
    refine ⟨?_, rfl⟩
    split
    · next h =>
      simp only [hsub _ _ h, Option.bind_eq_bind, Option.bind_none]
      simp
    · rfl
  · simp only [if_true]
    refine ⟨?_, rfl⟩
    split
    · next h =>
      simp only [hsub _ _ h, Option.bind_eq_bind, Option.bind_none]
      simp
    · rfl

/-- With the numbers in the source the host of uniswap passes exactly if the tapes agree and hold the pool 150, 333 and
the account 10, 167; overflow checks make no difference. -/
theorem C74_uniswap {B : Backend} (C : Cipher B) (rand : Nat → Nat → Nat → C.Rand) (decU : B.Uint → U32)
    (decP : B.Prep → U32) (utf8 : List Byte → Bool) (env : Host.Env) (cpus : Nat) (chk dbg : Bool) (pad : List Byte) (p : Phantom) :
    (Host.swapHost C rand decU decP utf8 env cpus chk dbg pad p Host.swapPool Host.swapTrade Host.swapAccount).isSome ↔
      ∃ tape, Host.runGuest C rand decU decP utf8 env cpus chk dbg p
          (Guest.swapInput ⟨100#32, 500#32⟩ ⟨50#32, true⟩ ⟨60#32, 0#32⟩ pad) 300 = some tape ∧
        Guest.getWord tape 0 = 150#32 ∧ Guest.getWord tape 4 = 333#32 ∧ Guest.getWord tape 8 = 10#32 ∧
        Guest.getWord tape 12 = 167#32 := by
  have hw : Host.wantSwap chk Host.swapPool Host.swapTrade Host.swapAccount = some (⟨150#32, 333#32⟩, ⟨10#32, 167#32⟩) := by
    cases chk <;> decide +kernel
  unfold Host.swapHost
  rw [hw]
  show (Option.bind (Host.runGuest C rand decU decP utf8 env cpus chk dbg p
          (Guest.swapInput ⟨100#32, 500#32⟩ ⟨50#32, true⟩ ⟨60#32, 0#32⟩ pad) 300) _).isSome ↔ _
  constructor
  · intro h
    obtain ⟨x, h⟩ := Option.isSome_iff_exists.mp h
    obtain ⟨tape, h1, h⟩ := Option.bind_eq_some_iff.mp h
    rw [Option.bind_some] at h
    split at h
    · next e =>
      simp only [Guest.Account.mk.injEq, Guest.Pool.mk.injEq] at e
      exact ⟨tape, h1, e.2.1, e.2.2, e.1.1, e.1.2⟩
    · cases h
  · rintro ⟨tape, h1, e1, e2, e3, e4⟩
    rw [h1, Option.bind_some, Option.bind_some, e1, e2, e3, e4, if_pos ⟨rfl, rfl⟩]
    rfl

/-! ### How much the checks see -/

/-- The host of string-match passes without a single cycle: `MAX_CYCLES=0`, any linked guest whose output byte starts
as zero. -/
theorem C74_match_idle (F : Fhe) (rand : Nat → Nat → Nat → F.C.Rand) (utf8 : List Byte → Bool) (env : Host.Env) (cpus : Nat)
    (chk dbg : Bool) (hu : utf8 [0x30#8] = true) (he : env "MAX_CYCLES" = some [0x30#8])
    (ht : 0 < Host.threads utf8 env cpus) {g : Guest} {l : Layout}
    (hv : Guest.Valid g) (h : link g = some l) (c : Contents) (hc : c.Of l)
    (htext : 0 < l.text.size) (hlen : l.inp.size = 20) (hout : c.out = [0#8]) (parser : Parser)
    (hp : Parser.new.addAll dbg (packWords c.text) = some parser) :
    (fromBytes (guestFile l c).write).bind (fun p => Host.matchHost F.C rand F.decU F.decP utf8 env cpus chk dbg p
      Host.notMississippi) = some false := by
  obtain ⟨p, h1, h2⟩ := C74_zero_cycles F rand chk dbg (Host.flag utf8 env "PHANTOM_DEBUG") (Host.threads utf8 env cpus) ht
    hv h c hc ⟨l.inp, by simp [Layout.ramSections], by omega⟩ htext
    (Host.notMississippi ++ List.replicate (20 - Host.notMississippi.length) 0#8) (by rw [hlen]; rfl) parser hp
  rw [h1, Option.bind_some, C74_match]
  have hm : Host.maxCycles utf8 env 100 = 0 := by
    unfold Host.maxCycles Host.Env.var
    rw [he, Option.filter_some, if_pos hu]
    rfl
  refine ⟨by decide, by decide +kernel, c.out, ?_, by rw [hout]; decide⟩
  unfold Host.runGuest
  rw [hm]
  exact h2

/-- A correct guest passes with the settings as they are, for every string: the guest of C70 with word loads. -/
theorem C74_match_words (F : Fhe) (rand : Nat → Nat → Nat → F.C.Rand) (utf8 : List Byte → Bool) (env : Host.Env) (cpus : Nat)
    (chk dbg : Bool) (he : env "MAX_CYCLES" = none) (ht : 0 < Host.threads utf8 env cpus) (s : List Byte) (hs : s.length ≤ 20) :
    Host.matchHost F.C rand F.decU F.decP utf8 env cpus chk dbg wordImage s =
      some (decide (s ++ List.replicate (20 - s.length) 0#8 = secret)) := by
  rw [C74_match]
  have hl : (s ++ List.replicate (20 - s.length) 0#8).length = 20 := by simp; omega
  have hm : Host.maxCycles utf8 env 100 = 100 := by
    unfold Host.maxCycles Host.Env.var
    rw [he]; rfl
  obtain ⟨⟨vm0, vm1, vm2, a1, a2, a3, a4⟩, ev, ev2, b1, b2, b3⟩ := C70_words F rand chk dbg (Host.flag utf8 env "PHANTOM_DEBUG")
    (Host.threads utf8 env cpus) 100 ht (by decide) (by decide) _ hl
  rw [matchMain_secret _ hl] at a4 b3
  refine ⟨hs, by simp, [if s ++ List.replicate (20 - s.length) 0#8 = secret then 1#8 else 0#8], ?_, ?_⟩
  · unfold Host.runGuest
    rw [hm]
    exact (C74_equal _ _ _ _ _ _ _ _ _ _ _ _).mpr ⟨⟨ev, ev2, b1, b2, b3⟩, vm0, vm1, vm2, a1, a2, a3, a4⟩
  · by_cases e : s ++ List.replicate (20 - s.length) 0#8 = secret
    · rw [if_pos e]; simp [e]
    · rw [if_neg e]; simp [e]

/-- A wrong one passes too: the guest of C70 with byte loads, which under encryption looks at every fourth character
only, passes with the string of the source, and with every string that differs from the hidden one in such a place.
With a string that agrees there but differs elsewhere the comparison of the tapes stops the host. -/
theorem C74_match_blind (F : Fhe) (rand : Nat → Nat → Nat → F.C.Rand) (utf8 : List Byte → Bool) (env : Host.Env) (cpus : Nat)
    (chk dbg : Bool) (hn : 147 ≤ Host.maxCycles utf8 env 100) (hn' : Host.maxCycles utf8 env 100 < 2 ^ 32)
    (ht : 0 < Host.threads utf8 env cpus) (s : List Byte) (hs : s.length ≤ 20) :
    Host.matchHost F.C rand F.decU F.decP utf8 env cpus chk dbg byteImage s =
      if s ++ List.replicate (20 - s.length) 0#8 = secret then some true
      else if ∀ k, k < 5 → (s ++ List.replicate (20 - s.length) 0#8)[4 * k]? = secret[4 * k]? then none
      else some false := by
  have hl : (s ++ List.replicate (20 - s.length) 0#8).length = 20 := by simp; omega
  obtain ⟨⟨vm0, vm1, vm2, a1, a2, a3, a4⟩, ev, ev2, b1, b2, b3⟩ := C70_bytes F rand chk dbg (Host.flag utf8 env "PHANTOM_DEBUG")
    (Host.threads utf8 env cpus) _ ht hn hn' _ hl
  rw [matchMain_secret _ hl] at a4
  by_cases e : s ++ List.replicate (20 - s.length) 0#8 = secret
  · rw [if_pos e, C74_match]
    rw [if_pos (by rw [e]; exact fun _ _ => rfl)] at b3
    rw [if_pos e] at a4
    refine ⟨hs, by simp [e], [1#8], ?_, by simp⟩
    exact (C74_equal _ _ _ _ _ _ _ _ _ _ _ _).mpr ⟨⟨ev, ev2, b1, b2, b3⟩, vm0, vm1, vm2, a1, a2, a3, a4⟩
  · rw [if_neg e]
    rw [if_neg e] at a4
    split
    · next h4 =>
      rw [if_pos h4] at b3
      cases hm : Host.matchHost F.C rand F.decU F.decP utf8 env cpus chk dbg byteImage s with
      | none => rfl
      | some b =>
        exfalso
        obtain ⟨-, -, tape, h1, -⟩ := (C74_match _ _ _ _ _ _ _ _ _ _ _ _).mp hm
        obtain ⟨⟨ev', ev2', c1, c2, c3⟩, vm0', vm1', vm2', d1, d2, d3, d4⟩ := (C74_equal _ _ _ _ _ _ _ _ _ _ _ _).mp h1
        rw [b1] at c1; cases c1
        rw [b2] at c2; cases c2
        rw [a1] at d1; cases d1
        rw [a2] at d2; cases d2
        rw [a3] at d3; cases d3
        rw [b3] at c3
        rw [a4] at d4
        have := c3.trans d4.symm
        revert this
        decide
    · next h4 =>
      rw [if_neg h4] at b3
      rw [C74_match]
      refine ⟨hs, by simp [e], [0#8], ?_, by simp⟩
      exact (C74_equal _ _ _ _ _ _ _ _ _ _ _ _).mpr ⟨⟨ev, ev2, b1, b2, b3⟩, vm0, vm1, vm2, a1, a2, a3, a4⟩

/-- The host of otc checks no price: without a single cycle it passes with whatever `.outdata` held.  The hosts of template and
uniswap notice, if that was zero. -/
theorem C74_idle (F : Fhe) (rand : Nat → Nat → Nat → F.C.Rand) (utf8 : List Byte → Bool) (env : Host.Env) (cpus : Nat)
    (chk dbg : Bool) (hu : utf8 [0x30#8] = true) (he : env "MAX_CYCLES" = some [0x30#8])
    (ht : 0 < Host.threads utf8 env cpus) {g : Guest} {l : Layout}
    (hv : Guest.Valid g) (h : link g = some l) (c : Contents) (hc : c.Of l) (hne : 0 < l.inp.size)
    (htext : 0 < l.text.size) (parser : Parser)
    (hp : Parser.new.addAll dbg (packWords c.text) = some parser) :
    ∃ p, fromBytes (guestFile l c).write = some p ∧
      (l.inp.size = 20 → ∀ mid window volatility amount k,
        Host.otcHost F.C rand F.decU F.decP utf8 env cpus chk dbg p mid window volatility amount k = some c.out) ∧
      (l.inp.size = 4 → c.out = List.replicate 4 0#8 →
        Host.polyHost F.C rand F.decU F.decP utf8 env cpus chk dbg p 123#32 = none) ∧
      (l.inp.size = 24 → c.out = List.replicate 16 0#8 → ∀ pad, pad.length = 3 →
        Host.swapHost F.C rand F.decU F.decP utf8 env cpus chk dbg pad p Host.swapPool Host.swapTrade Host.swapAccount = none) := by
  have hm : ∀ d, Host.maxCycles utf8 env d = 0 := by
    intro d
    unfold Host.maxCycles Host.Env.var
    rw [he, Option.filter_some, if_pos hu]
    rfl
  have key : ∀ tape : List Byte, tape.length = l.inp.size → ∀ d, ∃ p, fromBytes (guestFile l c).write = some p ∧
      Host.runGuest F.C rand F.decU F.decP utf8 env cpus chk dbg p tape d = some c.out := by
    intro tape hlen d
    obtain ⟨p, h1, h2⟩ := C74_zero_cycles F rand chk dbg (Host.flag utf8 env "PHANTOM_DEBUG") (Host.threads utf8 env cpus) ht
      hv h c hc ⟨l.inp, by simp [Layout.ramSections], hne⟩ htext tape hlen parser hp
    refine ⟨p, h1, ?_⟩
    unfold Host.runGuest
    rw [hm]
    exact h2
  obtain ⟨p, hp1, -⟩ := key (List.replicate l.inp.size 0#8) (by simp) 0
  have run : ∀ tape : List Byte, tape.length = l.inp.size → ∀ d,
      Host.runGuest F.C rand F.decU F.decP utf8 env cpus chk dbg p tape d = some c.out := by
    intro tape hlen d
    obtain ⟨p', h1, h2⟩ := key tape hlen d
    rw [hp1] at h1
    cases h1
    exact h2
  refine ⟨p, hp1, fun hl mid window volatility amount k => run _ (by rw [hl]; rfl) _, fun hl ho => ?_, fun hl ho pad hpad => ?_⟩
  · cases chk
    · cases hh : Host.polyHost F.C rand F.decU F.decP utf8 env cpus false dbg p 123#32 with
      | none => rfl
      | some w =>
        exfalso
        obtain ⟨h1, tape, h2, h3⟩ := (C74_template _ _ _ _ _ _ _ _ _ _ _).mp hh
        rw [run _ (by rw [hl]; rfl)] at h2
        cases h2
        rw [ho] at h3
        rw [← h3] at h1
        revert h1
        decide +kernel
    · exact C74_template_checked _ _ _ _ _ _ _ _ _
  · cases hh : Host.swapHost F.C rand F.decU F.decP utf8 env cpus chk dbg pad p Host.swapPool Host.swapTrade Host.swapAccount with
    | none => rfl
    | some w =>
      exfalso
      obtain ⟨tape, h2, h3, -⟩ := (C74_uniswap _ _ _ _ _ _ _ _ _ _ _).mp (Option.isSome_of_eq_some hh)
      rw [run _ (by rw [hl]; match pad, hpad with | [_, _, _], _ => rfl)] at h2
      cases h2
      rw [ho] at h3
      revert h3
      decide +kernel

/-! ### Non-vacuity -/

/-- ASCII text. -/
def text (s : String) : List Byte := s.toUTF8.toList.map (fun b => b.toBitVec)

example : Host.parseUsize (text "100") = some 100 ∧ Host.parseUsize (text "+007") = some 7 ∧
    Host.parseUsize (text "0000000000000000000000009") = some 9 ∧
    Host.parseUsize (text "18446744073709551615") = some (2 ^ 64 - 1) ∧ Host.parseUsize (text "18446744073709551616") = none ∧
    Host.parseUsize (text "") = none ∧ Host.parseUsize (text "+") = none ∧ Host.parseUsize (text "-") = none ∧
    Host.parseUsize (text "-1") = none ∧ Host.parseUsize (text "++1") = none ∧ Host.parseUsize (text " 1") = none ∧
    Host.parseUsize (text "9_000") = none ∧ Host.parseUsize (text "1e3") = none := by decide +kernel

example : IsDecimal (text "+042") 42 :=
  ⟨[0, 4, 2], by decide, by decide, by decide, Or.inr (by decide +kernel)⟩

example : Host.isYes (text "1") = true ∧ Host.isYes (text "true") = true ∧ Host.isYes (text "TrUe") = true ∧
    Host.isYes (text "TRUE") = true ∧ Host.isYes (text "yes") = false ∧ Host.isYes (text "01") = false ∧
    Host.isYes (text "true ") = false ∧ Host.isYes (text "0") = false ∧ Host.isYes (text "") = false := by decide +kernel

/-- An environment. -/
def exEnv : Host.Env := fun name =>
  if name = "MAX_CYCLES" then some (text "200") else if name = "PHANTOM_THREADS" then some (text "3") else
  if name = "PHANTOM_DEBUG" then some (text "True") else none

theorem exEnv_settings : Host.maxCycles (fun _ => true) exEnv 100 = 200 ∧ Host.threads (fun _ => true) exEnv 8 = 3 ∧
    Host.flag (fun _ => true) exEnv "PHANTOM_DEBUG" = true ∧ Host.flag (fun _ => true) exEnv "PHANTOM_VERBOSE_TIMINGS" = false := by
  decide +kernel

/-- The string of the source, with the wrong guest and with the right one. -/
example : Host.matchHost sampleFhe.C (fun _ _ _ => ()) sampleFhe.decU sampleFhe.decP (fun _ => true) exEnv 8 true true byteImage
    Host.notMississippi = some false := by
  exact (C74_match_blind sampleFhe (fun _ _ _ => ()) _ _ _ _ _ (by rw [exEnv_settings.1]; decide) (by rw [exEnv_settings.1]; decide)
    (by rw [exEnv_settings.2.1]; decide) _ (by decide)).trans (by decide +kernel)

example : Host.matchHost sampleFhe.C (fun _ _ _ => ()) sampleFhe.decU sampleFhe.decP (fun _ => true) exEnv 8 true true byteImage
    (text "mxxxixxxpxx") = none := by
  exact (C74_match_blind sampleFhe _ _ _ _ _ _ (by rw [exEnv_settings.1]; decide) (by rw [exEnv_settings.1]; decide)
    (by rw [exEnv_settings.2.1]; decide) _ (by decide +kernel)).trans (by decide +kernel)

example : Host.matchHost sampleFhe.C (fun _ _ _ => ()) sampleFhe.decU sampleFhe.decP (fun _ => true) (fun _ => none) 8 true true wordImage
    (text "mississippi") = some true := by
  exact (C74_match_words sampleFhe _ _ _ _ _ _ rfl (by decide) _ (by decide +kernel)).trans (by decide +kernel)

/-- The wanted results differ from the guest's only where the balance does not suffice. -/
example : Host.wantSwap false ⟨100, 500⟩ ⟨50, true⟩ ⟨40, 0⟩ = some (⟨150, 333⟩, ⟨4294967286, 167⟩) ∧
    Guest.swap false ⟨100, 500⟩ ⟨50, true⟩ ⟨40, 0⟩ = none ∧ Host.wantSwap true ⟨100, 500⟩ ⟨50, true⟩ ⟨40, 0⟩ = none := by
  decide +kernel

/-- The conditions of C74_idle are met by the guest of C64 (whose input has 4 bytes). -/
example : exContents4.Of exLayout4 ∧ exLayout4.inp.size = 4 ∧ exContents4.out = List.replicate 4 0#8 ∧ 0 < exLayout4.text.size := by
  refine ⟨⟨rfl, ?_⟩, by decide, rfl, by decide⟩
  intro x hx
  simp only [Contents.ram, List.mem_cons, List.not_mem_nil, or_false] at hx
  rcases hx with rfl | rfl | rfl | rfl <;> rfl

end Verif.Props
