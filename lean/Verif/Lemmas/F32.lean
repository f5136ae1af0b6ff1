import Verif.Model.F32
import Mathlib.Tactic.Linarith
import Mathlib.Tactic.Positivity
import Mathlib.Tactic.FieldSimp
import Mathlib.Tactic.NormNum
/-
  Helper lemmas: rounding to binary32 is monotone and leaves representable numbers unchanged.
-/
namespace Verif
open Model Model.F32

/-- Numbers and the two infinities. -/
abbrev Ext := WithBot (WithTop ℚ)

theorem roundInt_bounds (x : ℚ) : ⌊x⌋ ≤ roundInt x ∧ roundInt x ≤ ⌊x⌋ + 1 := by
  unfold roundInt
  split
  · omega
  · split
    · omega
    · split <;> omega

theorem roundInt_mono {x y : ℚ} (h : x ≤ y) : roundInt x ≤ roundInt y := by
  have hf : ⌊x⌋ ≤ ⌊y⌋ := Int.floor_le_floor h
  rcases lt_or_eq_of_le hf with hlt | heq
  · have h1 := (roundInt_bounds x).2
    have h2 := (roundInt_bounds y).1
    omega
  · unfold roundInt
    rw [heq]
    have : x - ⌊y⌋ ≤ y - ⌊y⌋ := by linarith
    split_ifs <;> first | omega | (exfalso; linarith)

theorem roundInt_int (n : ℤ) : roundInt (n : ℚ) = n := by
  unfold roundInt
  rw [Int.floor_intCast]
  simp

theorem ulp_pos (x : ℚ) : (0 : ℚ) < 2 ^ ulpExp x := zpow_pos (by norm_num) _

theorem roundMag_zero : roundMag 0 = 0 := by
  unfold roundMag
  have : roundInt (0 / 2 ^ ulpExp 0) = 0 := by
    rw [zero_div]; exact_mod_cast roundInt_int 0
  rw [this]; simp

/-- A multiple of the unit in the last place is not changed. -/
theorem roundMag_of_int {x : ℚ} (n : ℤ) (h : x = n * 2 ^ ulpExp x) : roundMag x = x := by
  have hu := ulp_pos x
  have : x / 2 ^ ulpExp x = n := by rw [div_eq_iff hu.ne']; exact h
  unfold roundMag
  rw [this, roundInt_int, ← h]

theorem roundMag_nonneg {x : ℚ} (h : 0 ≤ x) : 0 ≤ roundMag x := by
  unfold roundMag
  have hu := ulp_pos x
  have : (0 : ℤ) ≤ roundInt (x / 2 ^ ulpExp x) := by
    have h0 := roundInt_int 0
    have := roundInt_mono (x := ((0 : ℤ) : ℚ)) (y := x / 2 ^ ulpExp x) (by push_cast; positivity)
    omega
  have : (0 : ℚ) ≤ (roundInt (x / 2 ^ ulpExp x) : ℚ) := by exact_mod_cast this
  positivity

theorem two_zpow_log_le {x : ℚ} (h : 0 < x) : (2 : ℚ) ^ Int.log 2 x ≤ x := by
  exact_mod_cast Int.zpow_log_le_self (b := 2) (by norm_num) h

theorem lt_two_zpow_log {x : ℚ} (h : 0 < x) : x < (2 : ℚ) ^ (Int.log 2 x + 1) := by
  exact_mod_cast Int.lt_zpow_succ_log_self (b := 2) (by norm_num) x

theorem log_mono {x y : ℚ} (h : 0 < x) (hxy : x ≤ y) : Int.log 2 x ≤ Int.log 2 y := Int.log_mono_right h hxy

theorem roundMag_mono {x y : ℚ} (hx : 0 ≤ x) (hxy : x ≤ y) : roundMag x ≤ roundMag y := by
  rcases eq_or_lt_of_le hx with h0 | h0
  · rw [← h0, roundMag_zero]; exact roundMag_nonneg (le_trans hx hxy)
  have hy : 0 < y := lt_of_lt_of_le h0 hxy
  have hl := log_mono h0 hxy
  by_cases hu : ulpExp x = ulpExp y
  · unfold roundMag
    rw [hu]
    have hp := ulp_pos y
    have : roundInt (x / 2 ^ ulpExp y) ≤ roundInt (y / 2 ^ ulpExp y) :=
      roundInt_mono (by gcongr)
    have : (roundInt (x / 2 ^ ulpExp y) : ℚ) ≤ (roundInt (y / 2 ^ ulpExp y) : ℚ) := by exact_mod_cast this
    gcongr
  · -- a power of two between them is rounded to itself
    have hul : ulpExp x < ulpExp y := by unfold ulpExp at *; omega
    have hlt : Int.log 2 x < Int.log 2 y := by unfold ulpExp at *; omega
    have hly : ulpExp y = Int.log 2 y - 23 := by unfold ulpExp at *; omega
    have hp : (2 : ℚ) ^ (Int.log 2 y) ≤ y := two_zpow_log_le hy
    have hq : x ≤ (2 : ℚ) ^ (Int.log 2 y) := by
      have h1 := lt_two_zpow_log h0
      have h2 : (2 : ℚ) ^ (Int.log 2 x + 1) ≤ 2 ^ (Int.log 2 y) := zpow_le_zpow_right₀ (by norm_num) (by omega)
      linarith
    have e1 : roundMag x ≤ (2 : ℚ) ^ (Int.log 2 y) := by
      have hux := ulp_pos x
      have hge : ulpExp x ≤ Int.log 2 y := by unfold ulpExp at *; omega
      have hi : (2 : ℚ) ^ (Int.log 2 y) / 2 ^ ulpExp x = ((2 ^ (Int.log 2 y - ulpExp x).toNat : ℤ) : ℚ) := by
        rw [← zpow_sub₀ (by norm_num)]
        push_cast
        rw [← zpow_natCast, Int.toNat_of_nonneg (by omega)]
      have h3 := roundInt_mono (x := x / 2 ^ ulpExp x) (y := (2 : ℚ) ^ (Int.log 2 y) / 2 ^ ulpExp x) (by gcongr)
      rw [hi, roundInt_int] at h3
      have h4 : (roundInt (x / 2 ^ ulpExp x) : ℚ) ≤ (2 : ℚ) ^ (Int.log 2 y) / 2 ^ ulpExp x := by
        rw [hi]; exact_mod_cast h3
      unfold roundMag
      rwa [le_div_iff₀ hux] at h4
    have e2 : (2 : ℚ) ^ (Int.log 2 y) ≤ roundMag y := by
      have huy := ulp_pos y
      have hi : (2 : ℚ) ^ (Int.log 2 y) / 2 ^ ulpExp y = ((2 ^ 23 : ℤ) : ℚ) := by
        rw [← zpow_sub₀ (by norm_num), hly]
        have : Int.log 2 y - (Int.log 2 y - 23) = ((23 : ℕ) : ℤ) := by omega
        rw [this, zpow_natCast]; norm_num
      have h3 := roundInt_mono (x := (2 : ℚ) ^ (Int.log 2 y) / 2 ^ ulpExp y) (y := y / 2 ^ ulpExp y) (by gcongr)
      rw [hi, roundInt_int] at h3
      have h4 : (2 : ℚ) ^ (Int.log 2 y) / 2 ^ ulpExp y ≤ (roundInt (y / 2 ^ ulpExp y) : ℚ) := by
        rw [hi]; exact_mod_cast h3
      unfold roundMag
      rwa [div_le_iff₀ huy] at h4
    exact le_trans e1 e2

/-- Magnitudes that binary32 can represent (exponent unbounded above). -/
def Rep (x : ℚ) : Prop := ∃ (m : ℕ) (e : ℤ), m < 2 ^ 24 ∧ -149 ≤ e ∧ x = m * 2 ^ e

theorem Rep.roundMag {x : ℚ} (h : Rep x) : roundMag x = x := by
  obtain ⟨m, e, hm, he, hx⟩ := h
  rcases Nat.eq_zero_or_pos m with h0 | h0
  · subst h0; rw [hx]; simp [roundMag_zero]
  · have hpos : 0 < x := by
      have : (0 : ℚ) < m := by exact_mod_cast h0
      rw [hx]; exact mul_pos this (zpow_pos (by norm_num) _)
    have hlog : Int.log 2 x < 24 + e := by
      have h1 := two_zpow_log_le hpos
      have h2 : x < (2 : ℚ) ^ (24 + e) := by
        rw [hx, zpow_add₀ (by norm_num)]
        have : (m : ℚ) < 2 ^ (24 : ℤ) := by exact_mod_cast hm
        have hp : (0 : ℚ) < 2 ^ e := zpow_pos (by norm_num) _
        nlinarith
      exact (zpow_lt_zpow_iff_right₀ (by norm_num : (1 : ℚ) < 2)).mp (lt_of_le_of_lt h1 h2)
    have hle : ulpExp x ≤ e := by unfold ulpExp; omega
    refine roundMag_of_int ((m : ℤ) * 2 ^ (e - ulpExp x).toNat) ?_
    generalize ulpExp x = u at hle
    rw [hx]
    push_cast
    rw [← zpow_natCast, Int.toNat_of_nonneg (by omega), mul_assoc, ← zpow_add₀ (by norm_num)]
    congr 2
    omega

/-! ### Signed rounding, with overflow -/

/-- Rounding of a signed number. -/
def rnd (q : ℚ) : Ext :=
  if q < 0 then (if roundMag (-q) < 2 ^ (128 : ℕ) then ((-roundMag (-q) : ℚ) : WithTop ℚ) else ⊥)
  else (if roundMag q < 2 ^ (128 : ℕ) then ((roundMag q : ℚ) : WithTop ℚ) else (⊤ : WithTop ℚ))

theorem val_round (s : Bool) {x : ℚ} (hx : 0 ≤ x) : (F32.round s x).val = some (rnd (signed s x)) := by
  unfold F32.round rnd signed
  cases s with
  | false =>
    simp only [Bool.false_eq_true, if_false]
    rw [if_neg (not_lt.mpr hx)]
    split <;> rfl
  | true =>
    simp only [if_true]
    rcases eq_or_lt_of_le hx with h | h
    · subst h
      rw [neg_zero, roundMag_zero, if_neg (lt_irrefl _), if_pos (by positivity), if_pos (by positivity)]
      simp [F32.val]
    · rw [if_pos (by linarith : -x < 0), neg_neg]
      split <;> rfl

theorem ext_coe_le {a b : ℚ} : (((a : WithTop ℚ) : Ext) ≤ ((b : WithTop ℚ) : Ext)) ↔ a ≤ b := by
  rw [WithBot.coe_le_coe, WithTop.coe_le_coe]

theorem ext_coe_lt {a b : ℚ} : (((a : WithTop ℚ) : Ext) < ((b : WithTop ℚ) : Ext)) ↔ a < b := by
  rw [WithBot.coe_lt_coe, WithTop.coe_lt_coe]

theorem ext_le_top (x : Ext) : x ≤ ((⊤ : WithTop ℚ) : Ext) := by
  rcases x with _ | x
  · exact bot_le
  · exact WithBot.coe_le_coe.mpr le_top

theorem rnd_mono {x y : ℚ} (h : x ≤ y) : rnd x ≤ rnd y := by
  unfold rnd
  by_cases hx : x < 0
  · rw [if_pos hx]
    by_cases hy : y < 0
    · rw [if_pos hy]
      have hm : roundMag (-y) ≤ roundMag (-x) := roundMag_mono (by linarith) (by linarith)
      split_ifs with h1 h2
      · rw [ext_coe_le]; linarith
      · exact absurd (lt_of_le_of_lt hm h1) h2
      · exact bot_le
      · exact bot_le
    · rw [if_neg hy]
      have hmx : 0 ≤ roundMag (-x) := roundMag_nonneg (by linarith)
      have hmy : 0 ≤ roundMag y := roundMag_nonneg (by linarith)
      split_ifs with h1 h2
      · rw [ext_coe_le]; linarith
      · exact ext_le_top _
      · exact bot_le
      · exact bot_le
  · have hy : ¬ y < 0 := by linarith
    rw [if_neg hx, if_neg hy]
    have hm : roundMag x ≤ roundMag y := roundMag_mono (by linarith) h
    split_ifs with h1 h2 h2
    · rw [ext_coe_le]; exact hm
    · exact ext_le_top _
    · exact absurd (lt_of_le_of_lt hm h2) h1
    · exact le_refl _

theorem rnd_rep {x : ℚ} (h : Rep x) (hx : 0 ≤ x) (hl : x < 2 ^ (128 : ℕ)) : rnd x = ((x : WithTop ℚ) : Ext) := by
  unfold rnd
  rw [if_neg (by linarith), h.roundMag, if_pos hl]

theorem rnd_neg_rep {x : ℚ} (h : Rep x) (hx : 0 ≤ x) (hl : x < 2 ^ (128 : ℕ)) :
    rnd (-x) = (((-x : ℚ) : WithTop ℚ) : Ext) := by
  rcases eq_or_lt_of_le hx with h0 | h0
  · subst h0; rw [neg_zero]; exact rnd_rep h (le_refl _) hl
  · unfold rnd
    rw [if_pos (by linarith), neg_neg, h.roundMag, if_pos hl]

theorem rep_nat (n : ℕ) (h : n < 2 ^ 24) : Rep (n : ℚ) := ⟨n, 0, h, by norm_num, by simp⟩

/-! ### Relative error -/

theorem roundInt_err (x : ℚ) : |(roundInt x : ℚ) - x| ≤ 1 / 2 := by
  have h1 := Int.floor_le x
  have h2 := Int.lt_floor_add_one x
  unfold roundInt
  split_ifs <;> rw [abs_le] <;> push_cast <;> constructor <;> linarith

/-- In the range of the normal numbers the relative error is at most `2^-24`. -/
theorem roundMag_err {x : ℚ} (h : (2 : ℚ) ^ (-126 : ℤ) ≤ x) : |roundMag x - x| ≤ x / 2 ^ 24 := by
  have hp : (0 : ℚ) < 2 ^ (-126 : ℤ) := zpow_pos (by norm_num) _
  have hx : 0 < x := by linarith
  have hlog : -126 ≤ Int.log 2 x := by
    have h1 := lt_two_zpow_log hx
    have := (zpow_lt_zpow_iff_right₀ (by norm_num : (1 : ℚ) < 2)).mp (lt_of_le_of_lt h h1)
    omega
  have hu : ulpExp x = Int.log 2 x + (-23) := by unfold ulpExp; omega
  have hup := ulp_pos x
  have h2 : (2 : ℚ) ^ ulpExp x ≤ x / 2 ^ 23 := by
    rw [hu, zpow_add₀ (by norm_num)]
    have := two_zpow_log_le hx
    have e : (2 : ℚ) ^ (-23 : ℤ) = 1 / 2 ^ 23 := by norm_num
    rw [e, mul_one_div]
    gcongr
  have h3 := roundInt_err (x / 2 ^ ulpExp x)
  have h4 : roundMag x - x = ((roundInt (x / 2 ^ ulpExp x) : ℚ) - x / 2 ^ ulpExp x) * 2 ^ ulpExp x := by
    unfold roundMag
    rw [sub_mul, div_mul_cancel₀ _ hup.ne']
  rw [h4, abs_mul, abs_of_pos hup]
  calc _ ≤ 1 / 2 * 2 ^ ulpExp x := by gcongr
    _ ≤ 1 / 2 * (x / 2 ^ 23) := by gcongr
    _ = x / 2 ^ 24 := by ring

/-! ### Every result has a bit pattern -/

theorem roundMag_rep {x : ℚ} (hx : 0 ≤ x) : Rep (roundMag x) := by
  have hu := ulp_pos x
  have hn : 0 ≤ roundInt (x / 2 ^ ulpExp x) := by
    have h0 := roundInt_int 0
    have := roundInt_mono (x := ((0 : ℤ) : ℚ)) (y := x / 2 ^ ulpExp x) (by push_cast; positivity)
    omega
  have he : -149 ≤ ulpExp x := by unfold ulpExp; omega
  have hle : roundInt (x / 2 ^ ulpExp x) ≤ 2 ^ 24 := by
    rcases eq_or_lt_of_le hx with h | h
    · rw [← h, zero_div]
      have : roundInt (0 : ℚ) = 0 := by exact_mod_cast roundInt_int 0
      rw [this]; norm_num
    have h1 := lt_two_zpow_log h
    have h2 : (2 : ℚ) ^ (Int.log 2 x + 1) ≤ 2 ^ (24 + ulpExp x) :=
      zpow_le_zpow_right₀ (by norm_num) (by unfold ulpExp; omega)
    have h3 : x / 2 ^ ulpExp x ≤ ((2 ^ 24 : ℤ) : ℚ) := by
      rw [div_le_iff₀ hu]
      have e : (2 : ℚ) ^ (24 + ulpExp x) = ((2 ^ 24 : ℤ) : ℚ) * 2 ^ ulpExp x := by
        rw [zpow_add₀ (by norm_num)]; norm_num
      rw [e] at h2
      linarith
    have := roundInt_mono h3
    rwa [roundInt_int] at this
  unfold roundMag
  generalize ulpExp x = e at *
  generalize roundInt (x / 2 ^ e) = n at *
  obtain ⟨k, rfl⟩ := Int.eq_ofNat_of_zero_le hn
  rcases lt_or_eq_of_le hle with h | h
  · exact ⟨k, e, by exact_mod_cast h, he, by push_cast; ring⟩
  · refine ⟨2 ^ 23, e + 1, by norm_num, by omega, ?_⟩
    rw [h, zpow_add₀ (by norm_num)]
    push_cast
    ring

/-- The values of type `f32`. -/
def IsF32 (x : F32) : Prop := ∃ w, ofBits w = x

def patt (s : Bool) (e m : ℕ) : BitVec 32 := BitVec.ofNat 32 ((if s then 2 ^ 31 else 0) + e * 2 ^ 23 + m)

theorem patt_toNat (s : Bool) {e m : ℕ} (he : e < 256) (hm : m < 2 ^ 23) :
    (patt s e m).toNat = (if s then 2 ^ 31 else 0) + e * 2 ^ 23 + m := by
  unfold patt
  rw [BitVec.toNat_ofNat, Nat.mod_eq_of_lt]
  split <;> omega

theorem patt_msb (s : Bool) {e m : ℕ} (he : e < 256) (hm : m < 2 ^ 23) : (patt s e m).msb = s := by
  rw [BitVec.msb_eq_decide, patt_toNat s he hm]
  cases s <;> simp <;> omega

theorem patt_exp (s : Bool) {e m : ℕ} (he : e < 256) (hm : m < 2 ^ 23) : (patt s e m).toNat / 2 ^ 23 % 256 = e := by
  rw [patt_toNat s he hm]; split <;> omega

theorem patt_man (s : Bool) {e m : ℕ} (he : e < 256) (hm : m < 2 ^ 23) : (patt s e m).toNat % 2 ^ 23 = m := by
  rw [patt_toNat s he hm]; split <;> omega

theorem isF32_nan : IsF32 .nan := ⟨0x7fc00000#32, by decide +kernel⟩
theorem isF32_inf (s : Bool) : IsF32 (.inf s) := by
  cases s
  · exact ⟨0x7f800000#32, by decide +kernel⟩
  · exact ⟨0xff800000#32, by decide +kernel⟩

theorem isF32_fin (s : Bool) {x : ℚ} (h : Rep x) (hl : x < 2 ^ (128 : ℕ)) : IsF32 (.fin s x) := by
  obtain ⟨m, e, hm, he, hx⟩ := h
  rcases Nat.eq_zero_or_pos m with h0 | h0
  · subst h0
    refine ⟨patt s 0 0, ?_⟩
    unfold ofBits
    simp only [patt_exp s (show 0 < 256 by omega) (show 0 < 2 ^ 23 by omega), patt_man s (show 0 < 256 by omega) (show 0 < 2 ^ 23 by omega), patt_msb s (show 0 < 256 by omega) (show 0 < 2 ^ 23 by omega)]
    rw [hx]
    simp
  -- scale the significand up as far as the exponent allows
  have key : ∀ (j : ℕ) (m : ℕ) (e : ℤ), 0 < m → m < 2 ^ 24 → 2 ^ 24 ≤ m * 2 ^ j → -149 ≤ e → x = m * 2 ^ e →
      ∃ (k : ℕ) (f : ℤ), k < 2 ^ 24 ∧ -149 ≤ f ∧ x = k * 2 ^ f ∧ (2 ^ 23 ≤ k ∨ f = -149) := by
    intro j
    induction j with
    | zero => intro m e _ h1 h2; omega
    | succ j ih =>
      intro m e hp h1 h2 h3 h4
      by_cases hb : 2 ^ 23 ≤ m
      · exact ⟨m, e, h1, h3, h4, .inl hb⟩
      by_cases hf : e = -149
      · exact ⟨m, e, h1, h3, h4, .inr hf⟩
      refine ih (m * 2) (e - 1) (by omega) (by omega) (by rw [Nat.mul_assoc, ← Nat.pow_succ']; exact h2) (by omega) ?_
      rw [h4]
      push_cast
      have : (2 : ℚ) ^ e = 2 ^ (e - 1) * 2 := by
        rw [← zpow_add_one₀ (by norm_num)]; congr 1; omega
      rw [this]; ring
  obtain ⟨k, f, hk, hf, hxk, hn⟩ := key 24 m e h0 hm (by omega) he hx
  by_cases hb : 2 ^ 23 ≤ k
  · -- normal
    have hf2 : f ≤ 104 := by
      by_contra hcon
      have h1 : (2 : ℚ) ^ (128 : ℕ) ≤ x := by
        rw [hxk]
        have h2 : (2 : ℚ) ^ (105 : ℤ) ≤ 2 ^ f := zpow_le_zpow_right₀ (by norm_num) (by omega)
        have h3 : (2 : ℚ) ^ (23 : ℕ) ≤ k := by exact_mod_cast hb
        calc (2 : ℚ) ^ (128 : ℕ) = 2 ^ (23 : ℕ) * 2 ^ (105 : ℤ) := by norm_num
          _ ≤ k * 2 ^ f := by gcongr
      linarith
    obtain ⟨E, hE⟩ := Int.eq_ofNat_of_zero_le (show 0 ≤ f + 150 by omega)
    have he1 : E < 256 := by omega
    have hm1 : k - 2 ^ 23 < 2 ^ 23 := by omega
    refine ⟨patt s E (k - 2 ^ 23), ?_⟩
    unfold ofBits
    simp only [patt_exp s he1 hm1, patt_man s he1 hm1, patt_msb s he1 hm1]
    rw [if_neg (by omega), if_neg (by omega)]
    have e1 : 2 ^ 23 + (k - 2 ^ 23) = k := by omega
    have e2 : (E : ℤ) - 150 = f := by omega
    rw [e1, e2, ← hxk]
  · -- subnormal
    have hf2 : f = -149 := by omega
    have he1 : 0 < 256 := by omega
    have hm1 : k < 2 ^ 23 := by omega
    refine ⟨patt s 0 k, ?_⟩
    unfold ofBits
    simp only [patt_exp s he1 hm1, patt_man s he1 hm1, patt_msb s he1 hm1]
    rw [if_neg (by omega), if_pos trivial, hxk, hf2]

theorem isF32_round (s : Bool) {x : ℚ} (hx : 0 ≤ x) : IsF32 (F32.round s x) := by
  unfold F32.round
  split
  · exact isF32_fin s (roundMag_rep hx) ‹_›
  · exact isF32_inf s

/-- Finite bit patterns denote representable magnitudes below `2^128`. -/
theorem ofBits_fin {w : BitVec 32} {s : Bool} {x : ℚ} (h : ofBits w = .fin s x) :
    Rep x ∧ 0 ≤ x ∧ x < 2 ^ (128 : ℕ) := by
  unfold ofBits at h
  have hm : w.toNat % 2 ^ 23 < 2 ^ 23 := Nat.mod_lt _ (by norm_num)
  have he : w.toNat / 2 ^ 23 % 256 < 256 := Nat.mod_lt _ (by norm_num)
  generalize w.toNat / 2 ^ 23 % 256 = e at *
  generalize w.toNat % 2 ^ 23 = m at *
  simp only at h
  split at h
  · split at h <;> exact absurd h (by simp)
  · split at h
    · obtain ⟨-, rfl⟩ := F32.fin.inj h
      have hp : (0 : ℚ) < 2 ^ (-149 : ℤ) := zpow_pos (by norm_num) _
      have hp2 : (2 : ℚ) ^ (-149 : ℤ) ≤ 1 := by norm_num
      have hmq : (m : ℚ) < 2 ^ 23 := by exact_mod_cast hm
      have hm0 : (0 : ℚ) ≤ m := by positivity
      refine ⟨⟨m, -149, by omega, le_refl _, rfl⟩, by positivity, ?_⟩
      calc (m : ℚ) * 2 ^ (-149 : ℤ) ≤ m * 1 := by gcongr
        _ < 2 ^ (128 : ℕ) := by rw [mul_one]; exact lt_trans hmq (by norm_num)
    · obtain ⟨-, rfl⟩ := F32.fin.inj h
      have hp : (0 : ℚ) < 2 ^ ((e : ℤ) - 150) := zpow_pos (by norm_num) _
      refine ⟨⟨2 ^ 23 + m, (e : ℤ) - 150, by omega, by omega, rfl⟩, by positivity, ?_⟩
      have h1 : (2 : ℚ) ^ ((e : ℤ) - 150) ≤ 2 ^ (104 : ℤ) := zpow_le_zpow_right₀ (by norm_num) (by omega)
      have h2 : ((2 ^ 23 + m : ℕ) : ℚ) < 2 ^ 24 := by exact_mod_cast (by omega : 2 ^ 23 + m < 2 ^ 24)
      calc ((2 ^ 23 + m : ℕ) : ℚ) * 2 ^ ((e : ℤ) - 150) < 2 ^ 24 * 2 ^ ((e : ℤ) - 150) := by gcongr
        _ ≤ 2 ^ 24 * 2 ^ (104 : ℤ) := by gcongr
        _ = 2 ^ (128 : ℕ) := by norm_num

theorem IsF32.fin {s : Bool} {x : ℚ} (h : IsF32 (.fin s x)) : Rep x ∧ 0 ≤ x ∧ x < 2 ^ (128 : ℕ) := by
  obtain ⟨w, hw⟩ := h; exact ofBits_fin hw

theorem IsF32.mul {a b : F32} (ha : IsF32 a) (hb : IsF32 b) : IsF32 (a.mul b) := by
  cases a <;> cases b <;> simp only [F32.mul] <;>
    first
    | exact isF32_nan
    | exact isF32_inf _
    | (split <;> first | exact isF32_nan | exact isF32_inf _)
    | exact isF32_round _ (mul_nonneg ha.fin.2.1 hb.fin.2.1)

theorem isF32_zero (s : Bool) : IsF32 (.fin s 0) := isF32_fin s ⟨0, 0, by norm_num, by norm_num, by simp⟩ (by positivity)

theorem IsF32.div {a b : F32} (ha : IsF32 a) (hb : IsF32 b) : IsF32 (a.div b) := by
  cases a <;> cases b <;> simp only [F32.div] <;>
    first
    | exact isF32_nan
    | exact isF32_inf _
    | exact isF32_zero _
    | (split
       · split
         · exact isF32_nan
         · exact isF32_inf _
       · exact isF32_round _ (div_nonneg ha.fin.2.1 hb.fin.2.1))

theorem IsF32.neg {a : F32} (ha : IsF32 a) : IsF32 a.neg := by
  cases a with
  | nan => exact isF32_nan
  | inf s => exact isF32_inf _
  | fin s x => exact isF32_fin _ ha.fin.1 ha.fin.2.2

theorem IsF32.add {a b : F32} (ha : IsF32 a) (hb : IsF32 b) : IsF32 (a.add b) := by
  cases a <;> cases b <;> simp only [F32.add] <;>
    first
    | exact isF32_nan
    | exact isF32_inf _
    | (split <;> first | exact isF32_nan | exact isF32_inf _)
    | (split
       · exact isF32_zero _
       · exact isF32_round _ (abs_nonneg _))

theorem IsF32.sub {a b : F32} (ha : IsF32 a) (hb : IsF32 b) : IsF32 (a.sub b) := ha.add hb.neg

theorem isF32_lit {q : ℚ} (h : 0 ≤ q) : IsF32 (.lit q) := isF32_round _ h

end Verif
