import Verif.Lemmas.Otc
import Verif.Props.Guests
/-
  C59-C61: the `otc` guest, which computes with `f32`.
-/
namespace Verif.Props
open Model Model.F32 Model.Otc

/-! ### C59: the quotes are ordered -/

theorem isF32_ofBits (w : BitVec 32) : IsF32 (.ofBits w) := ⟨w, rfl⟩

theorem isF32_quote (c : ClientType) {amount mid window vol : F32} (ha : IsF32 amount) (hm : IsF32 mid) (hv : IsF32 vol) :
    IsF32 (Guest.quote c amount ⟨mid, window, vol⟩).askPrice ∧ IsF32 (Guest.quote c amount ⟨mid, window, vol⟩).bidPrice := by
  have hs : ∀ s ∈ sizes, IsF32 s := by
    intro s hs
    simp only [sizes, List.mem_cons, List.not_mem_nil, or_false] at hs
    rcases hs with rfl | rfl | rfl <;> exact isF32_lit (by norm_num)
  have hd : ∀ s ∈ discs, IsF32 s := by
    intro s hs
    simp only [discs, List.mem_cons, List.not_mem_nil, or_false] at hs
    rcases hs with rfl | rfl | rfl <;> exact isF32_lit (by norm_num)
  have hb : IsF32 (Guest.baseSpread c) := by cases c <;> exact isF32_lit (by norm_num)
  have hh := ((((((hb.mul (hs _ (size_mem amount ⟨mid, window, vol⟩))).mul (hd _ (disc_mem c amount))).mul hv).div
    (isF32_lit (q := 10000) (by norm_num))).mul hm).div (isF32_lit (q := 2) (by norm_num)))
  exact ⟨hm.add hh, hm.sub hh⟩

/-- For a positive mid price and a volatility that is not negative, both finite, and for whatever the trade and the
traded volume are (infinite, negative and NaN included), both prices are numbers and the mid price lies between
them. -/
theorem C59_bid_mid_ask (c : ClientType) (amount window : F32) (m v : ℚ) (hm : IsF32 (.fin false m)) (m0 : 0 < m)
    (hv : IsF32 (.fin false v)) :
    let q := Guest.quote c amount ⟨.fin false m, window, .fin false v⟩
    q.bidPrice.le (.fin false m) = true ∧ (F32.fin false m).le q.askPrice = true := by
  obtain ⟨hr, h0, hl⟩ := hm.fin
  have hk := (coef_fin c (size_mem amount ⟨.fin false m, window, .fin false v⟩) (disc_mem c amount)).2
  have hn := halfN_nonneg hk.le hv.fin.2.1 m0
  rw [quote_eq c amount window m0]
  exact ⟨le_of_val (val_sub_ofN m _) rfl (subE_le hr h0 hl hn), le_of_val rfl (val_add_ofN m _) (addE_ge hr h0 hl hn)⟩

-- the sample of the repository: PRIME, 5 BTC at 1000, volume 100
example : Guest.quote .PRIME (.ofBits 0x40a00000#32)
    ⟨.ofBits 0x447a0000#32, .ofBits 0x42c80000#32, .ofBits 0x3f628f5c#32⟩ =
    ⟨.fin false (16394875 / 16384), .fin false (16373125 / 16384)⟩ := by decide +kernel
-- no traded volume at all: NaN as fraction, widest spread, still ordered
example : Guest.quote .RETAIL (.ofBits 0#32) ⟨.ofBits 0x447a0000#32, .ofBits 0#32, .ofBits 0x3f800000#32⟩ =
    ⟨.fin false (2025 / 2), .fin false (1975 / 2)⟩ := by decide +kernel
-- the sign of the volatility matters: with -1 the bid is above the ask
example : (Guest.quote .RETAIL (.ofBits 0x3f800000#32)
    ⟨.ofBits 0x447a0000#32, .ofBits 0x42c80000#32, .ofBits 0xbf800000#32⟩).bidPrice.le
    (Guest.quote .RETAIL (.ofBits 0x3f800000#32)
    ⟨.ofBits 0x447a0000#32, .ofBits 0x42c80000#32, .ofBits 0xbf800000#32⟩).askPrice = false := by decide +kernel

/-- The host's copy of the computation and the guest's agree on all inputs. -/
theorem C59_host_is_guest : Host.quote = Guest.quote := rfl

theorem ofCode_code (c : ClientType) : ClientType.ofCode c.code = some c := by cases c <;> decide

/-- From the bytes the host writes, the guest computes the host's own quote and writes eight bytes, and no other
output is possible. -/
theorem C59_tape (mid window vol amount : BitVec 32) (c : ClientType) (out : List (BitVec 8)) :
    Guest.Main (Host.input mid window vol amount c) out ↔
      ∃ a b, out = Model.Guest.putWord a ++ Model.Guest.putWord b ∧
        Host.quote c (.ofBits amount) ⟨.ofBits mid, .ofBits window, .ofBits vol⟩ = ⟨.ofBits a, .ofBits b⟩ := by
  have g0 : Model.Guest.getWord (Host.input mid window vol amount c) 0 = mid :=
    getWord_at [] _ (by simp [Host.input]; rfl) rfl
  have g1 : Model.Guest.getWord (Host.input mid window vol amount c) 4 = window :=
    getWord_at (Model.Guest.putWord mid) _ (by simp [Host.input]; rfl) rfl
  have g2 : Model.Guest.getWord (Host.input mid window vol amount c) 8 = vol :=
    getWord_at (Model.Guest.putWord mid ++ Model.Guest.putWord window) _ (by simp [Host.input]; rfl) rfl
  have g3 : Model.Guest.getWord (Host.input mid window vol amount c) 12 = c.code :=
    getWord_at (Model.Guest.putWord mid ++ Model.Guest.putWord window ++ Model.Guest.putWord vol) _
      (by simp [Host.input]; rfl) rfl
  have g4 : Model.Guest.getWord (Host.input mid window vol amount c) 16 = amount :=
    getWord_at (Model.Guest.putWord mid ++ Model.Guest.putWord window ++ Model.Guest.putWord vol ++
      Model.Guest.putWord c.code) [] (by simp [Host.input]) rfl
  unfold Guest.Main
  rw [g0, g1, g2, g3, g4, ofCode_code]
  constructor
  · rintro ⟨c', a, b, h1, h2, h3⟩
    rw [Option.some.inj h1]
    exact ⟨a, b, h2, h3⟩
  · rintro ⟨a, b, h2, h3⟩
    exact ⟨c, a, b, rfl, h2, h3⟩

/-- There is such an output: every result of the computation has a bit pattern. -/
theorem C59_output_exists (mid window vol amount : BitVec 32) (c : ClientType) :
    ∃ out, out.length = 8 ∧ Guest.Main (Host.input mid window vol amount c) out := by
  obtain ⟨⟨a, ha⟩, ⟨b, hb⟩⟩ := isF32_quote c (window := .ofBits window) (isF32_ofBits amount) (isF32_ofBits mid)
    (isF32_ofBits vol)
  exact ⟨_, rfl, (C59_tape mid window vol amount c _).mpr ⟨a, b, rfl, by
    rw [ha, hb]; rfl⟩⟩

/-- A tape whose client field is none of the three kinds is undefined behaviour of the guest: the model gives it no
output. -/
theorem C59_bad_client (tape out : List (BitVec 8)) (h : 3 ≤ (Model.Guest.getWord tape 12).toNat) :
    ¬ Guest.Main tape out := by
  rintro ⟨c, _, _, hc, _⟩
  unfold ClientType.ofCode at hc
  split at hc
  · rename_i e; rw [e] at h; exact absurd h (by decide)
  · split at hc
    · rename_i e; rw [e] at h; exact absurd h (by decide)
    · split at hc
      · rename_i e; rw [e] at h; exact absurd h (by decide)
      · exact absurd hc (by simp)

/-! ### C60: who gets the better price -/

/-- `q` is a better quote than `q'`: it asks no more and bids no less. -/
def Better (q q' : Quote) : Prop := q.askPrice.le q'.askPrice = true ∧ q'.bidPrice.le q.bidPrice = true

theorem better_of_half {m : ℚ} {x y : WithTop ℚ} (h : x ≤ y) :
    Better ⟨(F32.fin false m).add (ofN x), (F32.fin false m).sub (ofN x)⟩
      ⟨(F32.fin false m).add (ofN y), (F32.fin false m).sub (ofN y)⟩ :=
  ⟨le_of_val (val_add_ofN m _) (val_add_ofN m _) (addE_mono m h),
    le_of_val (val_sub_ofN m _) (val_sub_ofN m _) (subE_anti m h)⟩

theorem sizeAdj_indep (amount window mid mid' vol vol' : F32) :
    Guest.sizeAdj amount ⟨mid, window, vol⟩ = Guest.sizeAdj amount ⟨mid', window, vol'⟩ := rfl

/-- At the same trade and market a prime client's quote is at least as good as an institution's, and that at least as
good as a retail client's; the roundings do not upset this. -/
theorem C60_clients (amount window : F32) (m v : ℚ) (m0 : 0 < m) (v0 : 0 ≤ v) :
    let md : MarketData := ⟨.fin false m, window, .fin false v⟩
    Better (Guest.quote .PRIME amount md) (Guest.quote .INSTITUTIONAL amount md) ∧
      Better (Guest.quote .INSTITUTIONAL amount md) (Guest.quote .RETAIL amount md) := by
  intro md
  have hs := size_mem amount md
  have hd := disc_mem .PRIME amount
  obtain ⟨-, -, -, h4, h5, h6, -⟩ := coef_table _ hs _ hd
  rw [quote_eq _ _ _ m0, quote_eq _ _ _ m0, quote_eq _ _ _ m0]
  exact ⟨better_of_half (halfN_mono h4.le v0 m0 h5 le_rfl),
    better_of_half (halfN_mono (by linarith : (0 : ℚ) ≤ mag (coef .INSTITUTIONAL _ (Guest.volumeDisc .PRIME amount))) v0 m0 h6 le_rfl)⟩

example : Better (Guest.quote .PRIME (.lit 7) ⟨.lit 1000, .lit 100, .lit 1⟩)
    (Guest.quote .RETAIL (.lit 7) ⟨.lit 1000, .lit 100, .lit 1⟩) ∧
    ¬ Better (Guest.quote .RETAIL (.lit 7) ⟨.lit 1000, .lit 100, .lit 1⟩)
    (Guest.quote .PRIME (.lit 7) ⟨.lit 1000, .lit 100, .lit 1⟩) := by unfold Better; decide +kernel

/-- More volatility never improves a quote. -/
theorem C60_volatility (c : ClientType) (amount window : F32) (m v v' : ℚ) (m0 : 0 < m) (v0 : 0 ≤ v) (h : v ≤ v') :
    Better (Guest.quote c amount ⟨.fin false m, window, .fin false v⟩)
      (Guest.quote c amount ⟨.fin false m, window, .fin false v'⟩) := by
  have hk := (coef_fin c (size_mem amount ⟨.fin false m, window, .fin false v⟩) (disc_mem c amount)).2
  rw [quote_eq _ _ _ m0, quote_eq _ _ _ m0]
  exact better_of_half (halfN_mono hk.le v0 m0 le_rfl h)

theorem val_div_fin {s : Bool} {a w : ℚ} (ha : 0 ≤ a) (hw : 0 < w) :
    ((F32.fin s a).div (.fin false w)).val = some (rnd (signed s a / w)) := by
  show (if w = 0 then _ else F32.round (s ^^ false) (a / w)).val = _
  rw [if_neg hw.ne', val_round _ (by positivity)]
  congr 2
  cases s
  · rfl
  · simp [signed, neg_div]

theorem val_lit {q : ℚ} (h : 0 ≤ q) : (F32.lit q).val = some (rnd q) := val_round false h

theorem coef_retail : mag (coef .RETAIL (.lit 1) (.lit 1)) ≤ mag (coef .RETAIL (.lit (3 / 2)) (.lit 1)) ∧
    mag (coef .RETAIL (.lit (3 / 2)) (.lit 1)) ≤ mag (coef .RETAIL (.lit (5 / 2)) (.lit 1)) ∧
    0 < mag (coef .RETAIL (.lit 1) (.lit 1)) := by decide +kernel

/-- A retail client never gets a better quote for a larger trade. -/
theorem C60_retail_size (s s' : Bool) (a a' w m v : ℚ) (a0 : 0 ≤ a) (a0' : 0 ≤ a') (w0 : 0 < w) (m0 : 0 < m)
    (v0 : 0 ≤ v) (h : signed s a ≤ signed s' a') :
    Better (Guest.quote .RETAIL (.fin s a) ⟨.fin false m, .fin false w, .fin false v⟩)
      (Guest.quote .RETAIL (.fin s' a') ⟨.fin false m, .fin false w, .fin false v⟩) := by
  have hr : rnd (signed s a / w) ≤ rnd (signed s' a' / w) := rnd_mono (by gcongr)
  rw [quote_eq _ _ _ m0, quote_eq _ _ _ m0]
  have mono : ∀ t : ℚ, 0 ≤ t → ((F32.fin s' a').div (.fin false w)).le (.lit t) = true →
      ((F32.fin s a).div (.fin false w)).le (.lit t) = true := by
    intro t ht h1
    obtain ⟨x, y, e1, e2, h2⟩ := le_iff.mp h1
    rw [val_div_fin a0' w0] at e1
    refine le_of_val (val_div_fin a0 w0) e2 (le_trans hr ?_)
    rw [Option.some.inj e1]; exact h2
  obtain ⟨c1, c2, c3⟩ := coef_retail
  have key : mag (coef .RETAIL (Guest.sizeAdj (.fin s a) ⟨.fin false m, .fin false w, .fin false v⟩) (.lit 1)) ≤
      mag (coef .RETAIL (Guest.sizeAdj (.fin s' a') ⟨.fin false m, .fin false w, .fin false v⟩) (.lit 1)) ∧
      0 < mag (coef .RETAIL (Guest.sizeAdj (.fin s a) ⟨.fin false m, .fin false w, .fin false v⟩) (.lit 1)) := by
    have p1 := mono (1 / 100) (by norm_num)
    have p2 := mono (5 / 100) (by norm_num)
    unfold Guest.sizeAdj
    simp only
    generalize ((F32.fin s' a').div (.fin false w)).le (.lit (1 / 100)) = b1' at *
    generalize ((F32.fin s' a').div (.fin false w)).le (.lit (5 / 100)) = b2' at *
    generalize ((F32.fin s a).div (.fin false w)).le (.lit (1 / 100)) = b1 at *
    generalize ((F32.fin s a).div (.fin false w)).le (.lit (5 / 100)) = b2 at *
    cases b1' <;> cases b2' <;> cases b1 <;> cases b2 <;> simp at p1 p2 ⊢ <;> first | linarith | (constructor <;> linarith)
  exact better_of_half (halfN_mono key.2.le v0 m0 key.1 le_rfl)

/-- "A larger trade never gets a better quote." -/
def LargerNoBetter (c : ClientType) : Prop := ∀ a a' w m v : ℚ, IsF32 (.fin false a) → IsF32 (.fin false a') →
  IsF32 (.fin false w) → IsF32 (.fin false m) → IsF32 (.fin false v) → 0 < w → 0 < m → a ≤ a' →
  Better (Guest.quote c (.fin false a) ⟨.fin false m, .fin false w, .fin false v⟩)
    (Guest.quote c (.fin false a') ⟨.fin false m, .fin false w, .fin false v⟩)

theorem isF32_nat (n : ℕ) (h : n < 2 ^ 24) : IsF32 (.fin false (n : ℚ)) :=
  isF32_fin false (rep_nat n h) (by
    have : (n : ℚ) < 2 ^ 24 := by exact_mod_cast h
    exact lt_trans this (by norm_num))

/-- For prime clients and institutions it does not hold, because of the discount: 6 BTC cost less per coin than 5. -/
theorem C60_discount (c : ClientType) (hc : c ≠ .RETAIL) : ¬ LargerNoBetter c := by
  intro h
  have h1 := (h (5 : ℕ) (6 : ℕ) (1000 : ℕ) (1000 : ℕ) (1 : ℕ) (isF32_nat _ (by norm_num)) (isF32_nat _ (by norm_num))
    (isF32_nat _ (by norm_num)) (isF32_nat _ (by norm_num)) (isF32_nat _ (by norm_num)) (by norm_num) (by norm_num)
    (by norm_num)).1
  revert h1
  cases c
  · exact absurd rfl hc
  · decide +kernel
  · decide +kernel

/-! ### C61: accuracy -/

theorem near_table : ∀ s ∈ [((1 : ℚ), F32.lit 1), (3 / 2, .lit (3 / 2)), (5 / 2, .lit (5 / 2))],
    ∀ d ∈ [((7 : ℚ) / 10, F32.lit (7 / 10)), (9 / 10, .lit (9 / 10)), (1, .lit 1)],
    ∀ c ∈ [ClientType.RETAIL, .INSTITUTIONAL, .PRIME],
      (Spec.Otc.base c * s.1 * d.1) * (1 - 1 / 2 ^ 24) ^ 2 ≤ mag (coef c s.2 d.2) ∧
      mag (coef c s.2 d.2) ≤ (Spec.Otc.base c * s.1 * d.1) * (1 + 1 / 2 ^ 24) ^ 2 ∧
      1 ≤ Spec.Otc.base c * s.1 * d.1 ∧ Spec.Otc.base c * s.1 * d.1 ≤ 256 := by decide +kernel

theorem disc_exact (c : ClientType) (a : ℚ) :
    (Spec.Otc.discount c a, Guest.volumeDisc c (.fin false a)) ∈
      [((7 : ℚ) / 10, F32.lit (7 / 10)), (9 / 10, .lit (9 / 10)), (1, .lit 1)] := by
  have e10 : F32.lit 10 = .fin false 10 := by decide +kernel
  have e5 : F32.lit 5 = .fin false 5 := by decide +kernel
  unfold Spec.Otc.discount Guest.volumeDisc
  rw [e10, e5, gt_fin, gt_fin]
  cases c
  · simp
  all_goals
    simp only [reduceCtorEq, if_false, decide_eq_true_eq]
    split
    · simp
    · split <;> simp

/-- The size factor is the one of the exact fraction, up to the rounding of that fraction. -/
theorem size_ok (a w : ℚ) (a0 : 0 ≤ a) (w0 : 0 < w) (m : F32) (v : F32) :
    ∃ size, Spec.Otc.SizeOk (a / w) size ∧
      (size, Guest.sizeAdj (.fin false a) ⟨m, .fin false w, v⟩) ∈
        [((1 : ℚ), F32.lit 1), (3 / 2, .lit (3 / 2)), (5 / 2, .lit (5 / 2))] := by
  have hv := val_div_fin (s := false) a0 w0
  have hr0 : 0 ≤ a / w := by positivity
  have hle : ∀ t : ℚ, 0 ≤ t → (((F32.fin false a).div (.fin false w)).le (.lit t) = true ↔ rnd (a / w) ≤ rnd t) := by
    intro t ht
    constructor
    · intro h
      obtain ⟨x, y, e1, e2, h2⟩ := le_iff.mp h
      rw [hv] at e1; rw [val_lit ht] at e2
      have := Option.some.inj e1; have := Option.some.inj e2
      subst_vars; exact h2
    · intro h; exact le_of_val hv (val_lit ht) h
  have l1 : rnd (1 / 100) = (((10737418 / 2 ^ 30 : ℚ) : WithTop ℚ) : Ext) := by decide +kernel
  have l2 : rnd (5 / 100) = (((13421773 / 2 ^ 28 : ℚ) : WithTop ℚ) : Ext) := by decide +kernel
  generalize a / w = r at *
  -- what a rounded fraction says about the exact one
  have back : ∀ q : ℚ, q ≤ 1 → 1 / 100 < r → rnd r ≤ ((q : WithTop ℚ) : Ext) → r * (1 - 1 / 2 ^ 24) ≤ q := by
    intro q hq hr h
    have hn : ¬ r < 0 := by linarith
    unfold rnd at h
    rw [if_neg hn] at h
    split at h
    · have h1 := ext_coe_le.mp h
      have h2 := (abs_le.mp (roundMag_err (x := r) (le_trans (by norm_num) hr.le))).1
      calc r * (1 - 1 / 2 ^ 24) = r - r / 2 ^ 24 := by ring
        _ ≤ q := by linarith
    · exact absurd h (by
        rw [not_le, WithBot.coe_lt_coe]
        exact WithTop.coe_lt_top q)
  unfold Guest.sizeAdj
  simp only
  have d1 := hle (1 / 100) (by norm_num)
  have d2 := hle (5 / 100) (by norm_num)
  by_cases b1 : ((F32.fin false a).div (.fin false w)).le (.lit (1 / 100)) = true
  · rw [if_pos b1]
    refine ⟨1, ?_, by simp⟩
    by_cases hr : r ≤ 1 / 100
    · exact ⟨r, le_rfl, by nlinarith, by unfold Spec.Otc.tier; rw [if_pos hr]⟩
    · rw [not_le] at hr
      have h1 := d1.mp b1
      rw [l1] at h1
      have h2 := back _ (by norm_num) hr h1
      exact ⟨1 / 100, hr.le, by linarith, by unfold Spec.Otc.tier; rw [if_pos le_rfl]⟩
  · rw [if_neg b1]
    have hr1 : 1 / 100 < r := by
      by_contra hcon
      exact b1 (d1.mpr (rnd_mono (not_lt.mp hcon)))
    by_cases b2 : ((F32.fin false a).div (.fin false w)).le (.lit (5 / 100)) = true
    · rw [if_pos b2]
      refine ⟨3 / 2, ?_, by simp⟩
      by_cases hr : r ≤ 1 / 20
      · exact ⟨r, le_rfl, by nlinarith, by unfold Spec.Otc.tier; rw [if_neg (by linarith), if_pos hr]⟩
      · rw [not_le] at hr
        have h1 := d2.mp b2
        rw [l2] at h1
        have h2 := back _ (by norm_num) hr1 h1
        exact ⟨1 / 20, hr.le, by linarith, by unfold Spec.Otc.tier; rw [if_neg (by norm_num), if_pos le_rfl]⟩
    · rw [if_neg b2]
      have hr2 : 1 / 20 < r := by
        by_contra hcon
        exact b2 (d2.mpr (rnd_mono (by linarith)))
      refine ⟨5 / 2, ⟨r, le_rfl, by nlinarith, ?_⟩, by simp⟩
      unfold Spec.Otc.tier
      rw [if_neg (by linarith), if_neg (by linarith)]

theorem err_sum {m H h x : ℚ} (H0 : 0 ≤ H) (k1 : H - 7 * H / 2 ^ 24 ≤ h) (k2 : h ≤ H + 7 * H / 2 ^ 24)
    (r : |x - (m + h)| ≤ (m + h) / 2 ^ 24) : |x - (m + H)| ≤ (m + 9 * H) / 2 ^ 24 := by
  rw [abs_le] at r ⊢
  obtain ⟨r1, r2⟩ := r
  constructor <;> linarith

theorem err_diff {m H h x : ℚ} (H0 : 0 ≤ H) (k1 : H - 7 * H / 2 ^ 24 ≤ h) (k2 : h ≤ H + 7 * H / 2 ^ 24)
    (r : |x - (m - h)| ≤ (m + h) / 2 ^ 24) : |x - (m - H)| ≤ (m + 9 * H) / 2 ^ 24 := by
  rw [abs_le] at r ⊢
  obtain ⟨r1, r2⟩ := r
  constructor <;> linarith

/-- The prices computed in `f32` are those of the policy in exact arithmetic up to `2^-24` of the mid price and nine
times `2^-24` of half the spread: about one unit in the last place.  The size factor is that of the exact fraction,
unless the fraction exceeds one of the two thresholds by no more than a relative `2^-23`. -/
theorem C61_accuracy (c : ClientType) (a w m v : ℚ) (a0 : 0 ≤ a) (w0 : 0 < w)
    (m1 : (2 : ℚ) ^ (-60 : ℤ) ≤ m) (m2 : m ≤ 2 ^ 60) (v1 : (2 : ℚ) ^ (-40 : ℤ) ≤ v) (v2 : v ≤ 2 ^ 40) :
    ∃ size ask bid : ℚ, Spec.Otc.SizeOk (a / w) size ∧
      (Guest.quote c (.fin false a) ⟨.fin false m, .fin false w, .fin false v⟩).askPrice.val =
        some ((ask : WithTop ℚ) : Ext) ∧
      (Guest.quote c (.fin false a) ⟨.fin false m, .fin false w, .fin false v⟩).bidPrice.val =
        some ((bid : WithTop ℚ) : Ext) ∧
      |ask - (m + Spec.Otc.half c a size v m)| ≤ (m + 9 * Spec.Otc.half c a size v m) / 2 ^ 24 ∧
      |bid - (m - Spec.Otc.half c a size v m)| ≤ (m + 9 * Spec.Otc.half c a size v m) / 2 ^ 24 := by
  have pm : (0 : ℚ) < 2 ^ (-60 : ℤ) := zpow_pos (by norm_num) _
  have m0 : 0 < m := by linarith
  obtain ⟨size, hs, hmem⟩ := size_ok a w a0 w0 (.fin false m) (.fin false v)
  have hd := disc_exact c a
  have hc : c ∈ [ClientType.RETAIL, .INSTITUTIONAL, .PRIME] := by cases c <;> simp
  obtain ⟨t1, t2, t3, t4⟩ := near_table _ hmem _ hd c hc
  obtain ⟨h, e, n⟩ := halfN_near ⟨t1, t2⟩ t3 t4 v1 v2 m1 m2
  have eH : Spec.Otc.base c * size * Spec.Otc.discount c a * v / 10000 * m / 2 = Spec.Otc.half c a size v m := rfl
  simp only at n t3 t4
  rw [eH] at n
  have pv : (0 : ℚ) < 2 ^ (-40 : ℤ) := zpow_pos (by norm_num) _
  have v0 : 0 < v := by linarith
  have H0 : 0 ≤ Spec.Otc.half c a size v m := by rw [← eH]; positivity
  have Hhi : Spec.Otc.half c a size v m ≤ 2 ^ 108 := by
    rw [← eH]
    calc _ ≤ (256 : ℚ) * 2 ^ 40 / 1 * 2 ^ 60 / 1 := by gcongr <;> norm_num
      _ = 2 ^ 108 := by norm_num
  generalize hH : Spec.Otc.half c a size v m = H at *
  obtain ⟨n1, n2⟩ := n
  have k1 : H - 7 * H / 2 ^ 24 ≤ h := by
    have : (1 - 7 / 2 ^ 24 : ℚ) ≤ (1 - 1 / 2 ^ 24) ^ 6 := by norm_num
    nlinarith
  have k2 : h ≤ H + 7 * H / 2 ^ 24 := by
    have : (1 + 1 / 2 ^ 24 : ℚ) ^ 6 ≤ (1 + 7 / 2 ^ 24 : ℚ) := by norm_num
    nlinarith
  have h0 : 0 ≤ h := by
    have : 7 * H / 2 ^ 24 ≤ H := by linarith
    linarith
  have lo : (2 : ℚ) ^ (-126 : ℤ) ≤ m + h := by
    have : (2 : ℚ) ^ (-126 : ℤ) ≤ 2 ^ (-60 : ℤ) := zpow_le_zpow_right₀ (by norm_num) (by norm_num)
    linarith
  have hi : m + h ≤ 2 ^ (126 : ℕ) := by
    have : (2 : ℚ) ^ 60 + (2 ^ 108 + 7 * 2 ^ 108 / 2 ^ 24) ≤ 2 ^ (126 : ℕ) := by norm_num
    linarith
  obtain ⟨ask, ea, ra⟩ := rnd_err (x := m + h) (b := m + h) (by rw [abs_of_nonneg (by linarith)]) lo hi
  obtain ⟨bid, eb, rb⟩ := rnd_err (x := m - h) (b := m + h) (by rw [abs_le]; constructor <;> linarith) lo hi
  refine ⟨size, ask, bid, hs, ?_, ?_, ?_, ?_⟩
  · rw [quote_eq _ _ _ m0]
    simp only
    rw [e, val_add_ofN]
    exact congrArg some ea
  · rw [quote_eq _ _ _ m0]
    simp only
    rw [e, val_sub_ofN]
    exact congrArg some eb
  · rw [hH]; exact err_sum H0 k1 k2 ra
  · rw [hH]; exact err_diff H0 k1 k2 rb

-- the hypotheses can be met, and the bound says something: 5 coins of 100, mid price 1000, volatility 1
example : Spec.Otc.half .PRIME 5 (3 / 2) 1 1000 = 3 / 4 ∧
    Guest.quote .PRIME (.fin false 5) ⟨.fin false 1000, .fin false 100, .fin false 1⟩ =
      ⟨.fin false (1000 + 3 / 4), .fin false (1000 - 3 / 4)⟩ := by decide +kernel
-- the tolerance for the size factor is needed: here the exact fraction is above 0.01, the rounded one is not
example : ((1 : ℚ) / 100 < 10000009 / 1000000896) ∧ F32.ofBits 0x4b189689#32 = .fin false 10000009 ∧
    F32.ofBits 0x4e6e6b36#32 = .fin false 1000000896 ∧
    Guest.sizeAdj (.fin false 10000009) ⟨.lit 1000, .fin false 1000000896, .lit 1⟩ = .lit 1 := by decide +kernel

end Verif.Props
