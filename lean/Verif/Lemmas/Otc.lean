import Verif.Spec.Otc
import Verif.Lemmas.F32
import Mathlib.Tactic.IntervalCases
/-
  Helper lemmas for C59-C61: the quotes of the `otc` guest as chains of roundings.
-/
namespace Verif
open Model Model.F32 Model.Otc

/-! ### Values that are not negative -/

/-- The value of a number that is not negative, or of `+∞`. -/
def ofN : WithTop ℚ → F32
  | none => .inf false
  | some a => .fin false a

def rN (x : ℚ) : WithTop ℚ := if roundMag x < 2 ^ (128 : ℕ) then (roundMag x : WithTop ℚ) else ⊤

theorem round_ofN (x : ℚ) : F32.round false x = ofN (rN x) := by
  unfold F32.round rN; split <;> rfl

def stepN (f : ℚ → ℚ) : WithTop ℚ → WithTop ℚ
  | none => ⊤
  | some a => rN (f a)

theorem mul_ofN {c : ℚ} (hc : 0 < c) (x : WithTop ℚ) : (ofN x).mul (.fin false c) = ofN (stepN (· * c) x) := by
  cases x with
  | top => show (if c = 0 then nan else inf (false ^^ false)) = _; rw [if_neg hc.ne']; rfl
  | coe a => exact round_ofN _

theorem div_ofN {c : ℚ} (hc : 0 < c) (x : WithTop ℚ) : (ofN x).div (.fin false c) = ofN (stepN (· / c) x) := by
  cases x with
  | top => rfl
  | coe a =>
    show (if c = 0 then _ else F32.round (false ^^ false) (a / c)) = _
    rw [if_neg hc.ne']; exact round_ofN _

theorem rN_mono {x y : ℚ} (hx : 0 ≤ x) (h : x ≤ y) : rN x ≤ rN y := by
  have hm := roundMag_mono hx h
  unfold rN
  split_ifs with h1 h2
  · exact WithTop.coe_le_coe.mpr hm
  · exact le_top
  · exact absurd (lt_of_le_of_lt hm ‹_›) h1
  · exact le_refl _

theorem rN_nonneg {x : ℚ} (hx : 0 ≤ x) : 0 ≤ rN x := by
  unfold rN
  split
  · exact WithTop.coe_nonneg.mpr (roundMag_nonneg hx)
  · exact le_top

theorem stepN_mono {f : ℚ → ℚ} (hf : ∀ a b, 0 ≤ a → a ≤ b → 0 ≤ f a ∧ f a ≤ f b) {x y : WithTop ℚ} (hx : 0 ≤ x)
    (h : x ≤ y) : stepN f x ≤ stepN f y := by
  cases y with
  | top => exact le_top
  | coe b =>
    cases x with
    | top => exact absurd h (by simp)
    | coe a =>
      have h1 := hf a b (WithTop.coe_nonneg.mp hx) (WithTop.coe_le_coe.mp h)
      exact rN_mono h1.1 h1.2

theorem stepN_nonneg {f : ℚ → ℚ} (hf : ∀ a, 0 ≤ a → 0 ≤ f a) {x : WithTop ℚ} (hx : 0 ≤ x) : 0 ≤ stepN f x := by
  cases x with
  | top => exact le_top
  | coe a => exact rN_nonneg (hf a (WithTop.coe_nonneg.mp hx))

/-- Adding to a positive price. -/
def addE (m : ℚ) : WithTop ℚ → Ext
  | none => ((⊤ : WithTop ℚ) : Ext)
  | some a => rnd (m + a)

def subE (m : ℚ) : WithTop ℚ → Ext
  | none => ⊥
  | some a => rnd (m - a)

theorem val_add_fin (s t : Bool) (a b : ℚ) :
    ((F32.fin s a).add (.fin t b)).val = some (rnd (signed s a + signed t b)) := by
  simp only [F32.add]
  generalize signed s a + signed t b = v
  split
  · rename_i h
    subst h
    have : rnd 0 = ((0 : ℚ) : WithTop ℚ) := rnd_rep ⟨0, 0, by norm_num, by norm_num, by simp⟩ (le_refl _) (by positivity)
    rw [this]
    cases s <;> cases t <;> simp [F32.val]
  · rename_i h
    rw [val_round _ (abs_nonneg v)]
    congr 2
    unfold signed
    by_cases hv : v < 0
    · simp [hv, abs_of_neg hv]
    · simp [hv, abs_of_nonneg (not_lt.mp hv)]

theorem val_add_ofN (m : ℚ) (x : WithTop ℚ) : ((F32.fin false m).add (ofN x)).val = some (addE m x) := by
  cases x with
  | top => rfl
  | coe a => exact val_add_fin false false m a

theorem val_sub_ofN (m : ℚ) (x : WithTop ℚ) : ((F32.fin false m).sub (ofN x)).val = some (subE m x) := by
  cases x with
  | top => rfl
  | coe a => exact (val_add_fin false true m a).trans (by simp [signed, subE, sub_eq_add_neg])

theorem addE_mono (m : ℚ) {x y : WithTop ℚ} (h : x ≤ y) : addE m x ≤ addE m y := by
  cases y with
  | top => exact ext_le_top _
  | coe b =>
    cases x with
    | top => exact absurd h (by simp)
    | coe a => exact rnd_mono (by have := WithTop.coe_le_coe.mp h; linarith)

theorem subE_anti (m : ℚ) {x y : WithTop ℚ} (h : x ≤ y) : subE m y ≤ subE m x := by
  cases y with
  | top => exact bot_le
  | coe b =>
    cases x with
    | top => exact absurd h (by simp)
    | coe a => exact rnd_mono (by have := WithTop.coe_le_coe.mp h; linarith)

theorem addE_ge {m : ℚ} (hr : Rep m) (h0 : 0 ≤ m) (hl : m < 2 ^ (128 : ℕ)) {x : WithTop ℚ} (hx : 0 ≤ x) :
    ((m : WithTop ℚ) : Ext) ≤ addE m x := by
  have h1 := addE_mono m hx
  have h2 : addE m (0 : WithTop ℚ) = ((m : WithTop ℚ) : Ext) := (congrArg rnd (add_zero m)).trans (rnd_rep hr h0 hl)
  rwa [h2] at h1

theorem subE_le {m : ℚ} (hr : Rep m) (h0 : 0 ≤ m) (hl : m < 2 ^ (128 : ℕ)) {x : WithTop ℚ} (hx : 0 ≤ x) :
    subE m x ≤ ((m : WithTop ℚ) : Ext) := by
  have h1 := subE_anti m hx
  have h2 : subE m (0 : WithTop ℚ) = ((m : WithTop ℚ) : Ext) := (congrArg rnd (sub_zero m)).trans (rnd_rep hr h0 hl)
  rwa [h2] at h1

/-! ### The spread before volatility takes 19 values -/

/-- `base * size * discount` as computed. -/
def coef (c : ClientType) (size disc : F32) : F32 := ((Guest.baseSpread c).mul size).mul disc

def sizes : List F32 := [.lit 1, .lit (3 / 2), .lit (5 / 2)]
def discs : List F32 := [.lit (7 / 10), .lit (9 / 10), .lit 1]
def mag : F32 → ℚ
  | .fin _ a => a
  | _ => 0

theorem size_mem (a : F32) (m : MarketData) : Guest.sizeAdj a m ∈ sizes := by
  unfold Guest.sizeAdj sizes
  simp only
  split
  · simp
  · split <;> simp

theorem disc_mem (c : ClientType) (a : F32) : Guest.volumeDisc c a ∈ discs := by
  unfold Guest.volumeDisc discs
  cases c <;> simp only
  · simp
  · split
    · simp
    · split <;> simp
  · split
    · simp
    · split <;> simp

theorem coef_table : ∀ s ∈ sizes, ∀ d ∈ discs,
    coef .PRIME s d = .fin false (mag (coef .PRIME s d)) ∧
    coef .INSTITUTIONAL s d = .fin false (mag (coef .INSTITUTIONAL s d)) ∧
    coef .RETAIL s d = .fin false (mag (coef .RETAIL s d)) ∧
    0 < mag (coef .PRIME s d) ∧ mag (coef .PRIME s d) ≤ mag (coef .INSTITUTIONAL s d) ∧
    mag (coef .INSTITUTIONAL s d) ≤ mag (coef .RETAIL s (.lit 1)) ∧
    mag (coef .INSTITUTIONAL s d) ≤ mag (coef .RETAIL s d) := by decide +kernel

theorem coef_fin (c : ClientType) {s d : F32} (hs : s ∈ sizes) (hd : d ∈ discs) :
    coef c s d = .fin false (mag (coef c s d)) ∧ 0 < mag (coef c s d) := by
  obtain ⟨h1, h2, h3, h4, h5, _, h7⟩ := coef_table s hs d hd
  cases c
  · exact ⟨h3, by linarith⟩
  · exact ⟨h2, by linarith⟩
  · exact ⟨h1, h4⟩

/-- Half the spread, as computed, from the spread before volatility. -/
def halfN (q v m : ℚ) : WithTop ℚ := stepN (· / 2) (stepN (· * m) (stepN (· / 10000) (rN (q * v))))

theorem quote_eq (c : ClientType) (amount window : F32) {v m : ℚ} (hm : 0 < m) :
    Guest.quote c amount ⟨.fin false m, window, .fin false v⟩ =
      let q := mag (coef c (Guest.sizeAdj amount ⟨.fin false m, window, .fin false v⟩) (Guest.volumeDisc c amount))
      ⟨(F32.fin false m).add (ofN (halfN q v m)), (F32.fin false m).sub (ofN (halfN q v m))⟩ := by
  have h := (coef_fin c (size_mem amount ⟨.fin false m, window, .fin false v⟩) (disc_mem c amount)).1
  have e4 : F32.lit 10000 = .fin false 10000 := by decide +kernel
  have e2 : F32.lit 2 = .fin false 2 := by decide +kernel
  have key : ∀ q : ℚ, (((((F32.fin false q).mul (.fin false v)).div (.lit 10000)).mul (.fin false m)).div (.lit 2)) =
      ofN (halfN q v m) := by
    intro q
    have e1 : (F32.fin false q).mul (.fin false v) = ofN (rN (q * v)) := round_ofN _
    rw [e1, e4, div_ofN (by norm_num), mul_ofN hm, e2, div_ofN (by norm_num)]
    rfl
  have main : ∀ k : F32, k = .fin false (mag k) →
      (⟨(F32.fin false m).add ((((k.mul (.fin false v)).div (.lit 10000)).mul (.fin false m)).div (.lit 2)),
        (F32.fin false m).sub ((((k.mul (.fin false v)).div (.lit 10000)).mul (.fin false m)).div (.lit 2))⟩ : Quote) =
      ⟨(F32.fin false m).add (ofN (halfN (mag k) v m)), (F32.fin false m).sub (ofN (halfN (mag k) v m))⟩ := by
    intro k hk
    rw [← key, ← hk]
  exact main _ h

theorem halfN_mono {q q' v v' m : ℚ} (hq : 0 ≤ q) (hv : 0 ≤ v) (hm : 0 < m) (h1 : q ≤ q') (h2 : v ≤ v') :
    halfN q v m ≤ halfN q' v' m := by
  have h0 : 0 ≤ q * v := mul_nonneg hq hv
  unfold halfN
  have d : ∀ c : ℚ, 0 < c → ∀ a b : ℚ, 0 ≤ a → a ≤ b → 0 ≤ a / c ∧ a / c ≤ b / c :=
    fun c hc a b ha hab => ⟨by positivity, by gcongr⟩
  have mm : ∀ a b : ℚ, 0 ≤ a → a ≤ b → 0 ≤ a * m ∧ a * m ≤ b * m :=
    fun a b ha hab => ⟨by positivity, by gcongr⟩
  refine stepN_mono (d 2 (by norm_num)) ?_ (stepN_mono mm ?_ (stepN_mono (d 10000 (by norm_num)) ?_
    (rN_mono h0 (by gcongr; linarith))))
  · exact stepN_nonneg (fun a ha => (mm a a ha le_rfl).1) (stepN_nonneg (fun a ha => (d _ (by norm_num) a a ha le_rfl).1)
      (rN_nonneg h0))
  · exact stepN_nonneg (fun a ha => (d _ (by norm_num) a a ha le_rfl).1) (rN_nonneg h0)
  · exact rN_nonneg h0

theorem halfN_nonneg {q v m : ℚ} (hq : 0 ≤ q) (hv : 0 ≤ v) (hm : 0 < m) : 0 ≤ halfN q v m := by
  unfold halfN
  have h0 : 0 ≤ q * v := mul_nonneg hq hv
  exact stepN_nonneg (fun a ha => by positivity) (stepN_nonneg (fun a ha => by positivity)
    (stepN_nonneg (fun a ha => by positivity) (rN_nonneg h0)))

theorem le_of_val {a b : F32} {x y : Ext} (ha : a.val = some x) (hb : b.val = some y) (h : x ≤ y) : a.le b = true := by
  unfold F32.le
  rw [ha, hb]
  simpa using h

theorem le_iff {a b : F32} : a.le b = true ↔ ∃ x y, a.val = some x ∧ b.val = some y ∧ x ≤ y := by
  unfold F32.le
  split
  · rename_i x y h1 h2
    rw [decide_eq_true_iff]
    exact ⟨fun h => ⟨x, y, h1, h2, h⟩, fun ⟨x', y', e1, e2, h⟩ => by
      rw [h1] at e1; rw [h2] at e2
      rw [Option.some.inj e1, Option.some.inj e2]; exact h⟩
  · rename_i h
    simp only [Bool.false_eq_true, false_iff]
    rintro ⟨x, y, h1, h2, -⟩
    exact h x y h1 h2

theorem gt_iff {a b : F32} : a.gt b = true ↔ ∃ x y, a.val = some x ∧ b.val = some y ∧ y < x := by
  unfold F32.gt
  split
  · rename_i x y h1 h2
    rw [decide_eq_true_iff]
    exact ⟨fun h => ⟨x, y, h1, h2, h⟩, fun ⟨x', y', e1, e2, h⟩ => by
      rw [h1] at e1; rw [h2] at e2
      rw [Option.some.inj e1, Option.some.inj e2]; exact h⟩
  · rename_i h
    simp only [Bool.false_eq_true, false_iff]
    rintro ⟨x, y, h1, h2, -⟩
    exact h x y h1 h2

theorem gt_fin {a b : ℚ} : (F32.fin false a).gt (.fin false b) = decide (b < a) := by
  show decide (((b : WithTop ℚ) : Ext) < ((a : WithTop ℚ) : Ext)) = _
  simp only [ext_coe_lt]

/-! ### Relative errors -/

/-- `y` is `x` after `k` roundings. -/
def Near (k : ℕ) (x y : ℚ) : Prop := x * (1 - 1 / 2 ^ 24) ^ k ≤ y ∧ y ≤ x * (1 + 1 / 2 ^ 24) ^ k

theorem Near.scale {k : ℕ} {x y c : ℚ} (h : Near k x y) (hc : 0 ≤ c) : Near k (x * c) (y * c) := by
  obtain ⟨h1, h2⟩ := h
  constructor
  · calc x * c * (1 - 1 / 2 ^ 24) ^ k = x * (1 - 1 / 2 ^ 24) ^ k * c := by ring
      _ ≤ y * c := by gcongr
  · calc y * c ≤ x * (1 + 1 / 2 ^ 24) ^ k * c := by gcongr
      _ = x * c * (1 + 1 / 2 ^ 24) ^ k := by ring

theorem Near.round {k : ℕ} {x y : ℚ} (h : Near k x y) (hy : (2 : ℚ) ^ (-126 : ℤ) ≤ y) :
    Near (k + 1) x (roundMag y) := by
  obtain ⟨h1, h2⟩ := h
  have h3 := abs_le.mp (roundMag_err hy)
  constructor
  · calc x * (1 - 1 / 2 ^ 24) ^ (k + 1) = x * (1 - 1 / 2 ^ 24) ^ k * (1 - 1 / 2 ^ 24) := by ring
      _ ≤ y * (1 - 1 / 2 ^ 24) := by gcongr
      _ = y - y / 2 ^ 24 := by ring
      _ ≤ roundMag y := by linarith [h3.1]
  · calc roundMag y ≤ y + y / 2 ^ 24 := by linarith [h3.2]
      _ = y * (1 + 1 / 2 ^ 24) := by ring
      _ ≤ x * (1 + 1 / 2 ^ 24) ^ k * (1 + 1 / 2 ^ 24) := by gcongr
      _ = x * (1 + 1 / 2 ^ 24) ^ (k + 1) := by ring

theorem Near.bounds {k : ℕ} {x y : ℚ} (h : Near k x y) (hk : k ≤ 6) (hx : 0 ≤ x) : x / 2 ≤ y ∧ y ≤ 2 * x := by
  obtain ⟨h1, h2⟩ := h
  have e1 : (1 : ℚ) / 2 ≤ (1 - 1 / 2 ^ 24) ^ k := by interval_cases k <;> norm_num
  have e2 : (1 + 1 / 2 ^ 24 : ℚ) ^ k ≤ 2 := by interval_cases k <;> norm_num
  constructor <;> nlinarith

theorem rN_eq {x : ℚ} (h : roundMag x < 2 ^ (128 : ℕ)) : rN x = ((roundMag x : ℚ) : WithTop ℚ) := if_pos h

/-- One step of the computation, away from overflow and underflow. -/
theorem Near.step {k : ℕ} {x y : ℚ} (h : Near k x y) (hk : k ≤ 5) (hlo : (2 : ℚ) ^ (-125 : ℤ) ≤ x)
    (hhi : x ≤ 2 ^ (126 : ℕ)) : ∃ z, rN y = ((z : ℚ) : WithTop ℚ) ∧ Near (k + 1) x z := by
  have hp : (0 : ℚ) < 2 ^ (-125 : ℤ) := zpow_pos (by norm_num) _
  have hb := h.bounds (by omega) (by linarith)
  have e : (2 : ℚ) ^ (-126 : ℤ) = 2 ^ (-125 : ℤ) / 2 := by norm_num
  have h0 : (2 : ℚ) ^ (-126 : ℤ) ≤ y := by
    rw [e]
    exact le_trans (by gcongr) hb.1
  have h1 := h.round h0
  have hb2 := h1.bounds (by omega) (by linarith)
  exact ⟨roundMag y, rN_eq (by
    calc roundMag y ≤ 2 * x := hb2.2
      _ ≤ 2 * 2 ^ (126 : ℕ) := by linarith
      _ < 2 ^ (128 : ℕ) := by norm_num), h1⟩

/-- Half the spread as computed is the exact one up to six roundings. -/
theorem halfN_near {q Q v m : ℚ} (hq : Near 2 Q q) (h1 : 1 ≤ Q) (h2 : Q ≤ 256)
    (hv : (2 : ℚ) ^ (-40 : ℤ) ≤ v) (hv' : v ≤ 2 ^ 40) (hm : (2 : ℚ) ^ (-60 : ℤ) ≤ m) (hm' : m ≤ 2 ^ 60) :
    ∃ h, halfN q v m = ((h : ℚ) : WithTop ℚ) ∧ Near 6 (Q * v / 10000 * m / 2) h := by
  have pv : (0 : ℚ) < 2 ^ (-40 : ℤ) := zpow_pos (by norm_num) _
  have pm : (0 : ℚ) < 2 ^ (-60 : ℤ) := zpow_pos (by norm_num) _
  have v0 : 0 < v := by linarith
  have m0 : 0 < m := by linarith
  have lo3 : (2 : ℚ) ^ (-40 : ℤ) ≤ Q * v := by nlinarith
  have hi3 : Q * v ≤ 2 ^ 48 := by
    calc Q * v ≤ 256 * 2 ^ 40 := by gcongr
      _ = 2 ^ 48 := by norm_num
  have lo4 : (2 : ℚ) ^ (-54 : ℤ) ≤ Q * v / 10000 := by
    have : (2 : ℚ) ^ (-54 : ℤ) ≤ 2 ^ (-40 : ℤ) / 10000 := by norm_num
    calc _ ≤ (2 : ℚ) ^ (-40 : ℤ) / 10000 := this
      _ ≤ _ := by gcongr
  have hi4 : Q * v / 10000 ≤ 2 ^ 48 := by linarith
  have p4 : 0 < Q * v / 10000 := by positivity
  have lo5 : (2 : ℚ) ^ (-114 : ℤ) ≤ Q * v / 10000 * m := by
    have : (2 : ℚ) ^ (-114 : ℤ) = 2 ^ (-54 : ℤ) * 2 ^ (-60 : ℤ) := by norm_num
    rw [this]; gcongr
  have hi5 : Q * v / 10000 * m ≤ 2 ^ 108 := by
    calc _ ≤ (2 : ℚ) ^ 48 * 2 ^ 60 := by gcongr
      _ = 2 ^ 108 := by norm_num
  have lo6 : (2 : ℚ) ^ (-115 : ℤ) ≤ Q * v / 10000 * m / 2 := by
    have : (2 : ℚ) ^ (-115 : ℤ) = 2 ^ (-114 : ℤ) / 2 := by norm_num
    rw [this]; gcongr
  have w : ∀ a b : ℤ, a ≤ b → (2 : ℚ) ^ a ≤ 2 ^ b := fun a b h => zpow_le_zpow_right₀ (by norm_num) h
  obtain ⟨z3, e3, n3⟩ := (hq.scale v0.le).step (by omega) (le_trans (w _ _ (by norm_num)) lo3)
    (le_trans hi3 (by norm_num))
  have n3' : Near 3 (Q * v / 10000) (z3 / 10000) := by
    have := n3.scale (c := 1 / 10000) (by norm_num)
    simpa only [mul_one_div] using this
  obtain ⟨z4, e4, n4⟩ := n3'.step (by omega) (le_trans (w _ _ (by norm_num)) lo4) (le_trans hi4 (by norm_num))
  obtain ⟨z5, e5, n5⟩ := (n4.scale m0.le).step (by omega) (le_trans (w _ _ (by norm_num)) lo5)
    (le_trans hi5 (by norm_num))
  have n5' : Near 5 (Q * v / 10000 * m / 2) (z5 / 2) := by
    have := n5.scale (c := 1 / 2) (by norm_num)
    simpa only [mul_one_div] using this
  obtain ⟨z6, e6, n6⟩ := n5'.step (by omega) (le_trans (w _ _ (by norm_num)) lo6) (by
    calc _ ≤ Q * v / 10000 * m := by linarith [mul_pos p4 m0]
      _ ≤ 2 ^ 108 := hi5
      _ ≤ _ := by norm_num)
  refine ⟨z6, ?_, n6⟩
  unfold halfN
  rw [e3]
  change stepN (· / 2) (stepN (· * m) (rN (z3 / 10000))) = _
  rw [e4]
  change stepN (· / 2) (rN (z4 * m)) = _
  rw [e5]
  exact e6

/-- Error of rounding any number that is not too large. -/
theorem roundMag_err' {x b : ℚ} (hx : 0 ≤ x) (hb : x ≤ b) (hlo : (2 : ℚ) ^ (-126 : ℤ) ≤ b) :
    |roundMag x - x| ≤ b / 2 ^ 24 := by
  by_cases h : (2 : ℚ) ^ (-126 : ℤ) ≤ x
  · exact le_trans (roundMag_err h) (by gcongr)
  · rw [not_le] at h
    rcases eq_or_lt_of_le hx with h0 | h0
    · rw [← h0, roundMag_zero]
      have hp : (0 : ℚ) < 2 ^ (-126 : ℤ) := zpow_pos (by norm_num) _
      simp; linarith
    have hlog : Int.log 2 x < -126 := by
      have h1 := two_zpow_log_le h0
      exact (zpow_lt_zpow_iff_right₀ (by norm_num : (1 : ℚ) < 2)).mp (lt_of_le_of_lt h1 h)
    have hu : ulpExp x = -149 := by unfold ulpExp; omega
    have hup := ulp_pos x
    have h3 := roundInt_err (x / 2 ^ ulpExp x)
    have h4 : roundMag x - x = ((roundInt (x / 2 ^ ulpExp x) : ℚ) - x / 2 ^ ulpExp x) * 2 ^ ulpExp x := by
      unfold roundMag
      rw [sub_mul, div_mul_cancel₀ _ hup.ne']
    rw [h4, abs_mul, abs_of_pos hup]
    calc _ ≤ (1 / 2 : ℚ) * 2 ^ ulpExp x := by gcongr
      _ = (2 : ℚ) ^ (-126 : ℤ) / 2 ^ 24 := by rw [hu]; norm_num
      _ ≤ b / 2 ^ 24 := by gcongr

theorem rnd_err {x b : ℚ} (hb : |x| ≤ b) (hlo : (2 : ℚ) ^ (-126 : ℤ) ≤ b) (hhi : b ≤ 2 ^ (126 : ℕ)) :
    ∃ y : ℚ, rnd x = ((y : WithTop ℚ) : Ext) ∧ |y - x| ≤ b / 2 ^ 24 := by
  have fit : ∀ z, |roundMag z - z| ≤ b / 2 ^ 24 → z ≤ b → roundMag z < 2 ^ (128 : ℕ) := by
    intro z h1 h2
    have := (abs_le.mp h1).2
    have h3 : (2 : ℚ) ^ (126 : ℕ) + 2 ^ (126 : ℕ) / 2 ^ 24 < 2 ^ (128 : ℕ) := by norm_num
    have h4 : b / 2 ^ 24 ≤ 2 ^ (126 : ℕ) / 2 ^ 24 := by gcongr
    linarith
  unfold rnd
  by_cases hx : x < 0
  · rw [if_pos hx]
    rw [abs_of_neg hx] at hb
    have h1 := roundMag_err' (by linarith) hb hlo
    rw [if_pos (fit _ h1 hb)]
    refine ⟨_, rfl, ?_⟩
    rw [show -roundMag (-x) - x = -(roundMag (-x) - -x) by ring, abs_neg]
    exact h1
  · rw [if_neg hx]
    rw [abs_of_nonneg (by linarith)] at hb
    have h1 := roundMag_err' (by linarith) hb hlo
    rw [if_pos (fit _ h1 hb)]
    exact ⟨_, rfl, h1⟩

end Verif
