import Mathlib.Analysis.Real.Sqrt
import Verif.Model.F32Sqrt
import Verif.Lemmas.F32
/-
  The square root of `f32` is the nearest value to the real square root.
-/
namespace Verif
open Model Model.F32

theorem isqrt_spec (k : ℕ) : ∀ y, y < 4 ^ k → isqrt k y * isqrt k y ≤ y ∧ y < (isqrt k y + 1) * (isqrt k y + 1) := by
  induction k with
  | zero => intro y h; simp only [isqrt]; omega
  | succ k ih =>
    intro y h
    have h4 : y / 4 < 4 ^ k := by rw [pow_succ] at h; omega
    obtain ⟨h1, h2⟩ := ih _ h4
    simp only [isqrt]
    generalize isqrt k (y / 4) = r at *
    have a1 : 4 * (r * r) ≤ y := by omega
    have a2 : y < 4 * ((r + 1) * (r + 1)) := by omega
    by_cases c : (2 * r + 1) * (2 * r + 1) ≤ y
    · rw [if_pos c]; refine ⟨c, ?_⟩; nlinarith
    · rw [if_neg c]; refine ⟨by nlinarith, by omega⟩

/-- What the rounding computes: with `u` the unit in the last place of the root, the root is between `2^23 u` and
`2^24 u`, and the result is a multiple of `u` nearest to it. -/
theorem sqrtMag_core {x : ℚ} (hx : 0 < x) : ∃ (m : ℕ) (e : ℤ), sqrtMag x = m * 2 ^ e ∧ e = Int.log 2 x / 2 - 23 ∧
    (2 : ℝ) ^ 23 * 2 ^ e ≤ √(x : ℝ) ∧ √(x : ℝ) < (2 : ℝ) ^ 24 * 2 ^ e ∧ m ≤ 2 ^ 24 ∧
    ∀ j : ℤ, |(m : ℝ) * 2 ^ e - √(x : ℝ)| ≤ |(j : ℝ) * 2 ^ e - √(x : ℝ)| := by
  have l1 := two_zpow_log_le hx
  have l2 := lt_two_zpow_log hx
  obtain ⟨e, he⟩ : ∃ e, e = Int.log 2 x / 2 - 23 := ⟨_, rfl⟩
  have p4 : (0 : ℚ) < 4 ^ e := zpow_pos (by norm_num) _
  have p2 : (0 : ℝ) < 2 ^ e := zpow_pos (by norm_num) _
  have e42 : (4 : ℚ) ^ e = 2 ^ (2 * e) := by rw [zpow_mul]; norm_num
  have y1 : (4 : ℚ) ^ 23 ≤ x / 4 ^ e := by
    rw [le_div_iff₀ p4]
    refine le_trans (le_of_eq ?_) (le_trans (zpow_le_zpow_right₀ (by norm_num : (1 : ℚ) ≤ 2)
      (show 46 + 2 * e ≤ Int.log 2 x by omega)) l1)
    rw [zpow_add₀ (by norm_num), ← e42]; norm_num
  have y2 : x / 4 ^ e < 4 ^ 24 := by
    rw [div_lt_iff₀ p4]
    refine lt_of_lt_of_le l2 (le_trans (zpow_le_zpow_right₀ (by norm_num : (1 : ℚ) ≤ 2)
      (show Int.log 2 x + 1 ≤ 48 + 2 * e by omega)) (le_of_eq ?_))
    rw [zpow_add₀ (by norm_num), ← e42]; norm_num
  obtain ⟨y, hy⟩ : ∃ y, y = x / 4 ^ e := ⟨_, rfl⟩
  rw [← hy] at y1 y2
  have y0 : 0 ≤ y := le_trans (by norm_num) y1
  have f0 : 0 ≤ ⌊y⌋ := Int.floor_nonneg.mpr y0
  have fy : ((⌊y⌋.toNat : ℕ) : ℚ) = ((⌊y⌋ : ℤ) : ℚ) := by
    have := Int.toNat_of_nonneg f0
    exact_mod_cast this
  have f1 : ((⌊y⌋.toNat : ℕ) : ℚ) ≤ y := by rw [fy]; exact Int.floor_le y
  have f2 : y < ((⌊y⌋.toNat : ℕ) : ℚ) + 1 := by rw [fy]; exact Int.lt_floor_add_one y
  have fl : ⌊y⌋.toNat < 4 ^ 24 := by
    have : ((⌊y⌋.toNat : ℕ) : ℚ) < ((4 ^ 24 : ℕ) : ℚ) := by push_cast; linarith
    exact_mod_cast this
  obtain ⟨n1, n2⟩ := isqrt_spec 24 _ fl
  obtain ⟨n, hn⟩ : ∃ n, n = isqrt 24 ⌊y⌋.toNat := ⟨_, rfl⟩
  rw [← hn] at n1 n2
  have m1 : (n : ℚ) * n ≤ y := le_trans (by exact_mod_cast n1) f1
  have m2 : y < ((n : ℚ) + 1) * (n + 1) := by
    refine lt_of_lt_of_le f2 ?_
    have : ⌊y⌋.toNat + 1 ≤ (n + 1) * (n + 1) := n2
    exact_mod_cast this
  have m3 : n < 2 ^ 24 := by
    have : n * n < 4 ^ 24 := lt_of_le_of_lt n1 fl
    by_contra hc
    have := Nat.mul_le_mul (not_lt.mp hc) (not_lt.mp hc)
    norm_num at this ⊢; omega
  have rt : √(x : ℝ) = √(y : ℝ) * 2 ^ e := by
    have hxy : (x : ℝ) = (y : ℝ) * (2 ^ e) ^ 2 := by
      have : x = y * 4 ^ e := by rw [hy]; field_simp
      rw [this]
      push_cast
      congr 1
      rw [← zpow_natCast, ← zpow_mul, mul_comm e, zpow_mul]
      norm_num
    rw [hxy, Real.sqrt_mul (by exact_mod_cast y0), Real.sqrt_sq p2.le]
  obtain ⟨t, ht⟩ : ∃ t, t = √(y : ℝ) := ⟨_, rfl⟩
  have t1 : (n : ℝ) ≤ t := by
    rw [ht]; apply Real.le_sqrt_of_sq_le; rw [sq]; exact_mod_cast m1
  have t2 : t < n + 1 := by
    rw [ht]; rw [Real.sqrt_lt' (by positivity)]; rw [sq]; exact_mod_cast m2
  have t3 : (2 : ℝ) ^ 23 ≤ t := by
    rw [ht]; apply Real.le_sqrt_of_sq_le
    have : ((4 ^ 23 : ℚ) : ℝ) ≤ (y : ℝ) := by exact_mod_cast y1
    push_cast at this; norm_num at this ⊢; exact this
  have t4 : t < (2 : ℝ) ^ 24 := by
    rw [ht, Real.sqrt_lt' (by positivity)]
    have : (y : ℝ) < ((4 ^ 24 : ℚ) : ℝ) := by exact_mod_cast y2
    push_cast at this; norm_num at this ⊢; exact this
  rw [rt, ← ht]
  obtain ⟨up, hup⟩ : ∃ up : Prop, up = (((n : ℚ) + 1 / 2) ^ 2 < y ∨ ((n : ℚ) + 1 / 2) ^ 2 = y ∧ n % 2 = 1) := ⟨_, rfl⟩
  have key : ∀ (m : ℕ), (m = n ∧ t ≤ n + 1 / 2) ∨ (m = n + 1 ∧ (n : ℝ) + 1 / 2 ≤ t) →
      ∀ j : ℤ, |(m : ℝ) * 2 ^ e - t * 2 ^ e| ≤ |(j : ℝ) * 2 ^ e - t * 2 ^ e| := by
    intro m hm j
    rw [← sub_mul, ← sub_mul, abs_mul, abs_mul]
    refine mul_le_mul_of_nonneg_right ?_ (abs_nonneg _)
    have hj : (j : ℝ) ≤ n ∨ (n : ℝ) + 1 ≤ j := by
      rcases le_or_gt j (n : ℤ) with h | h
      · left; exact_mod_cast h
      · right; exact_mod_cast h
    rcases hm with ⟨rfl, hm⟩ | ⟨rfl, hm⟩
    · rw [abs_le]
      rcases hj with h | h
      · have := neg_le_abs ((j : ℝ) - t); constructor <;> linarith
      · have := le_abs_self ((j : ℝ) - t); constructor <;> linarith
    · push_cast
      rw [abs_le]
      rcases hj with h | h
      · have := neg_le_abs ((j : ℝ) - t); constructor <;> linarith
      · have := le_abs_self ((j : ℝ) - t); constructor <;> linarith
  have hmid : ((((n : ℚ) + 1 / 2) ^ 2 : ℚ) : ℝ) = ((n : ℝ) + 1 / 2) ^ 2 := by push_cast; ring
  by_cases hu : (((n : ℚ) + 1 / 2) ^ 2 < y ∨ ((n : ℚ) + 1 / 2) ^ 2 = y ∧ n % 2 = 1)
  · refine ⟨n + 1, e, ?_, he, by gcongr, by gcongr, m3, key _ (Or.inr ⟨rfl, ?_⟩)⟩
    · simp only [sqrtMag]
      rw [← he, ← hy, ← hn, if_pos hu]
    · rw [ht]; apply Real.le_sqrt_of_sq_le; rw [← hmid]
      have : ((n : ℚ) + 1 / 2) ^ 2 ≤ y := by rcases hu with h | h; exacts [h.le, h.1.le]
      exact_mod_cast this
  · refine ⟨n, e, ?_, he, by gcongr, by gcongr, m3.le, key _ (Or.inl ⟨rfl, ?_⟩)⟩
    · simp only [sqrtMag]
      rw [← he, ← hy, ← hn, if_neg hu]
    · rw [ht, Real.sqrt_le_left (by positivity), ← hmid]
      have : y ≤ ((n : ℚ) + 1 / 2) ^ 2 := by
        by_contra hc; exact hu (Or.inl (not_le.mp hc))
      exact_mod_cast this

/-- The rounded root is a value of the format, and no value of the format is nearer to the real root. -/
theorem sqrtMag_nearest {x : ℚ} (hx : 0 < x) (hl : (2 : ℚ) ^ (-149 : ℤ) ≤ x) : Rep (sqrtMag x) ∧
    ∀ y, Rep y → |(sqrtMag x : ℝ) - √(x : ℝ)| ≤ |(y : ℝ) - √(x : ℝ)| := by
  obtain ⟨m, e, h1, h2, h3, h4, h5, h6⟩ := sqrtMag_core hx
  have hlog : -149 ≤ Int.log 2 x := by
    have := lt_of_le_of_lt hl (lt_two_zpow_log hx)
    have := (zpow_lt_zpow_iff_right₀ (by norm_num : (1 : ℚ) < 2)).mp this
    omega
  have he : -149 ≤ e := by omega
  rw [h1]
  have p2 : (0 : ℝ) < 2 ^ e := zpow_pos (by norm_num) _
  constructor
  · rcases lt_or_eq_of_le h5 with h | h
    · exact ⟨m, e, h, he, rfl⟩
    · refine ⟨2 ^ 23, e + 1, by norm_num, by omega, ?_⟩
      rw [h, zpow_add₀ (by norm_num)]
      push_cast
      ring
  · rintro y ⟨k, f, hk, hf, rfl⟩
    push_cast
    rcases le_or_gt e f with h | h
    · have := h6 ((k : ℤ) * 2 ^ (f - e).toNat)
      push_cast at this
      rw [mul_assoc, ← zpow_natCast (2 : ℝ) (f - e).toNat, Int.toNat_of_nonneg (by omega), ← zpow_add₀ (by norm_num),
        sub_add_cancel] at this
      exact this
    · have a := h6 (2 ^ 23)
      push_cast at a
      refine le_trans a ?_
      have b : (k : ℝ) * 2 ^ f ≤ 2 ^ 23 * 2 ^ e := by
        have k1 : (k : ℝ) ≤ 2 ^ 24 := by exact_mod_cast hk.le
        have k2 : (2 : ℝ) ^ f ≤ 2 ^ (e - 1) := zpow_le_zpow_right₀ (by norm_num) (by omega)
        have k3 : (2 : ℝ) ^ (e - 1) = 2 ^ e / 2 := by rw [zpow_sub₀ (by norm_num)]; norm_num
        have k4 : (0 : ℝ) < 2 ^ f := zpow_pos (by norm_num) _
        rw [k3] at k2
        nlinarith
      rw [abs_of_nonpos (by linarith), abs_of_nonpos (by linarith)]
      linarith

end Verif
