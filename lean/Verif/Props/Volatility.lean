import Verif.Lemmas.Sqrt
import Verif.Props.Otc
/-
  C69: the volatility factor of the otc host, a square root in `f32`.
-/
namespace Verif.Props
open Model Model.F32 Model.Otc

/-- `f32::sqrt` of a positive finite number is a positive finite number, and no number of the format is nearer to the
real square root.  (Zeros, infinities, negative numbers and NaN: see the examples.) -/
theorem C69_sqrt_nearest (x : ℚ) (hx : IsF32 (.fin false x)) (h0 : 0 < x) :
    ∃ r : ℚ, F32.sqrt (.fin false x) = .fin false r ∧ IsF32 (.fin false r) ∧ 0 < r ∧
      ∀ y : ℚ, IsF32 (.fin false y) → |(r : ℝ) - √(x : ℝ)| ≤ |(y : ℝ) - √(x : ℝ)| := by
  obtain ⟨hr, -, hl⟩ := hx.fin
  have hmin : (2 : ℚ) ^ (-149 : ℤ) ≤ x := by
    obtain ⟨m, e, -, he, rfl⟩ := hr
    have pe : (0 : ℚ) < 2 ^ e := zpow_pos (by norm_num) _
    have hm : (1 : ℚ) ≤ m := by
      rcases Nat.eq_zero_or_pos m with h | h
      · rw [h] at h0; simp at h0
      · exact_mod_cast h
    have := zpow_le_zpow_right₀ (by norm_num : (1 : ℚ) ≤ 2) he
    nlinarith
  obtain ⟨h1, h2⟩ := sqrtMag_nearest h0 hmin
  obtain ⟨m, e, k1, k2, k3, k4, k5, k6⟩ := sqrtMag_core h0
  have p2 : (0 : ℚ) < 2 ^ e := zpow_pos (by norm_num) _
  have hlog : Int.log 2 x < 128 := by
    have := lt_of_le_of_lt (two_zpow_log_le h0) hl
    rw [← zpow_natCast] at this
    exact_mod_cast (zpow_lt_zpow_iff_right₀ (by norm_num : (1 : ℚ) < 2)).mp this
  have hlt : sqrtMag x < 2 ^ (128 : ℕ) := by
    rw [k1]
    have a : (m : ℚ) ≤ 2 ^ 24 := by exact_mod_cast k5
    have b : (2 : ℚ) ^ e ≤ 2 ^ (40 : ℤ) := zpow_le_zpow_right₀ (by norm_num) (by omega)
    have c : (m : ℚ) * 2 ^ e ≤ 2 ^ 24 * 2 ^ (40 : ℤ) := by gcongr
    refine lt_of_le_of_lt c (by norm_num)
  have hpos : 0 < sqrtMag x := by
    rw [k1]
    refine mul_pos ?_ p2
    rcases Nat.eq_zero_or_pos m with h | h
    · exfalso
      have a := k6 (2 ^ 23)
      rw [h] at a
      push_cast at a
      have q2 : (0 : ℝ) < 2 ^ e := zpow_pos (by norm_num) _
      rw [zero_mul, zero_sub, abs_neg, abs_of_nonneg (by positivity), abs_of_nonpos (by linarith)] at a
      nlinarith
    · exact_mod_cast h
  refine ⟨sqrtMag x, ?_, isF32_fin _ h1 hlt, hpos, fun y hy => h2 y hy.fin.1⟩
  simp only [F32.sqrt, if_neg h0.ne', Bool.false_eq_true, if_false]

-- the special values
example : F32.sqrt (.fin true 0) = .fin true 0 ∧ F32.sqrt (.inf false) = .inf false ∧ F32.sqrt (.inf true) = .nan ∧
    F32.sqrt .nan = .nan ∧ F32.sqrt (.fin true 4) = .nan := by decide +kernel
-- 2, the least and the greatest number
example : F32.sqrt (.ofBits 0x40000000#32) = .ofBits 0x3fb504f3#32 ∧ F32.sqrt (.ofBits 1#32) = .ofBits 0x1a3504f3#32 ∧
    F32.sqrt (.ofBits 0x7f7fffff#32) = .ofBits 0x5f7fffff#32 := by decide +kernel

/-- The factor is a positive number below one. -/
theorem C69_value : Host.volatilityFactor = .ofBits 0x3f62935f#32 ∧
    Host.volatilityFactor = .fin false (14848863 / 16777216) := by decide +kernel

/-- In spite of four roundings (both constants, the quotient, the root) it is the number of the format nearest to
`√(0.47 / 0.6)`. -/
theorem C69_volatility : ∃ v : ℚ, Host.volatilityFactor = .fin false v ∧ 0 < v ∧ v < 1 ∧
    |(v : ℝ) - √(0.47 / 0.6)| ≤ 1 / 2 ^ 29 ∧
    ∀ y : ℚ, IsF32 (.fin false y) → |(v : ℝ) - √(0.47 / 0.6)| ≤ |(y : ℝ) - √(0.47 / 0.6)| := by
  have s1 : (14848863 / 16777216 - 1 / 2 ^ 29 : ℝ) ≤ √(0.47 / 0.6) :=
    Real.le_sqrt_of_sq_le (by norm_num)
  have s2 : √(0.47 / 0.6) ≤ (14848863 / 16777216 : ℝ) := by
    rw [Real.sqrt_le_left (by norm_num)]; norm_num
  refine ⟨_, C69_value.2, by norm_num, by norm_num, ?_, fun y hy => ?_⟩
  · push_cast; rw [abs_le]; constructor <;> linarith
  · obtain ⟨m, e, hm, he, hy'⟩ := hy.fin.1
    by_cases hv : y = 14848863 / 16777216
    · rw [hv]
    -- another number is at least 2^-24 away
    have far : (1 : ℝ) / 2 ^ 24 ≤ |(y : ℝ) - 14848863 / 16777216| := by
      have hr : (1 : ℚ) / 2 ^ 24 ≤ |y - 14848863 / 16777216| := by
        rcases le_or_gt (-24) e with h | h
        · -- a multiple of 2^-24
          obtain ⟨k, hk⟩ : ∃ k : ℤ, y = k / 2 ^ 24 := by
            refine ⟨(m : ℤ) * 2 ^ (e + 24).toNat, ?_⟩
            rw [hy']
            push_cast
            rw [← zpow_natCast (2 : ℚ) (e + 24).toNat, Int.toNat_of_nonneg (by omega), zpow_add₀ (by norm_num)]
            norm_num
            ring
          have hne : k ≠ 14848863 := by
            rintro rfl; apply hv; rw [hk]; norm_num
          have hd : (1 : ℚ) ≤ |(k : ℚ) - 14848863| := by
            have : (1 : ℤ) ≤ |k - 14848863| := Int.one_le_abs (sub_ne_zero.mpr hne)
            exact_mod_cast this
          have e1 : y - 14848863 / 16777216 = ((k : ℚ) - 14848863) / 2 ^ 24 := by rw [hk]; ring
          rw [e1, abs_div, abs_of_pos (by norm_num : (0 : ℚ) < 2 ^ 24)]
          gcongr
        · -- small
          have k2 : (2 : ℚ) ^ e ≤ 2 ^ (-25 : ℤ) := zpow_le_zpow_right₀ (by norm_num) (by omega)
          have k1 : (m : ℚ) ≤ 2 ^ 24 := by exact_mod_cast hm.le
          have k4 : (0 : ℚ) < 2 ^ e := zpow_pos (by norm_num) _
          have : y ≤ 2 ^ 24 * 2 ^ (-25 : ℤ) := by rw [hy']; gcongr
          norm_num at this
          rw [abs_of_nonpos (by linarith)]
          linarith
      have := (Rat.cast_le (K := ℝ)).mpr hr
      push_cast at this
      exact this
    push_cast
    rw [abs_of_nonneg (by linarith)]
    have t := abs_sub_abs_le_abs_sub ((y : ℝ) - 14848863 / 16777216) (√(0.47 / 0.6) - 14848863 / 16777216)
    have u : |√(0.47 / 0.6) - 14848863 / 16777216| ≤ (1 : ℝ) / 2 ^ 29 := by
      rw [abs_of_nonpos (by linarith)]; linarith
    have w : ((y : ℝ) - 14848863 / 16777216) - (√(0.47 / 0.6) - 14848863 / 16777216) = y - √(0.47 / 0.6) := by ring
    rw [w] at t
    norm_num at *
    linarith

/-! ### A number has one bit pattern -/

theorem ofBits_false {w : BitVec 32} {x : ℚ} (h : ofBits w = .fin false x) (hx : (2 : ℚ) ^ (-126 : ℤ) ≤ x) :
    w.toNat < 2 ^ 31 ∧ ∃ e m : ℕ, w.toNat = e * 2 ^ 23 + m ∧ m < 2 ^ 23 ∧
      x = ((2 ^ 23 + m : ℕ) : ℚ) * 2 ^ ((e : ℤ) - 150) := by
  have hw := w.isLt
  unfold ofBits at h
  simp only at h
  have hm : w.toNat % 2 ^ 23 < 2 ^ 23 := Nat.mod_lt _ (by norm_num)
  split at h
  · split at h <;> cases h
  · split at h
    · injection h with h1 h2
      exfalso
      have : ((w.toNat % 2 ^ 23 : ℕ) : ℚ) < 2 ^ 23 := by exact_mod_cast hm
      have : x < 2 ^ 23 * 2 ^ (-149 : ℤ) := by
        rw [← h2]; gcongr
      norm_num at this hx
      linarith
    · injection h with h1 h2
      have hs : w.toNat < 2 ^ 31 := by
        rw [BitVec.msb_eq_decide] at h1
        simpa using h1
      exact ⟨hs, w.toNat / 2 ^ 23 % 256, w.toNat % 2 ^ 23, by omega, hm, h2.symm⟩

theorem ofBits_unique {v w : BitVec 32} {x : ℚ} (hv : ofBits v = .fin false x) (hw : ofBits w = .fin false x)
    (hx : (2 : ℚ) ^ (-126 : ℤ) ≤ x) : v = w := by
  obtain ⟨-, e, m, h1, h2, h3⟩ := ofBits_false hv hx
  obtain ⟨-, e', m', k1, k2, k3⟩ := ofBits_false hw hx
  have log : ∀ (e m : ℕ), m < 2 ^ 23 → x = ((2 ^ 23 + m : ℕ) : ℚ) * 2 ^ ((e : ℤ) - 150) →
      Int.log 2 x = (e : ℤ) - 127 := by
    intro e m hm h
    have pe : (0 : ℚ) < 2 ^ ((e : ℤ) - 150) := zpow_pos (by norm_num) _
    have x0 : 0 < x := lt_of_lt_of_le (by positivity) hx
    have a1 : (2 : ℚ) ^ ((e : ℤ) - 127) ≤ x := by
      have : (2 : ℚ) ^ ((e : ℤ) - 127) = 2 ^ 23 * 2 ^ ((e : ℤ) - 150) := by
        rw [← zpow_natCast, ← zpow_add₀ (by norm_num)]; congr 1; push_cast; ring
      rw [this, h]
      gcongr
      push_cast; norm_num
    have a2 : x < (2 : ℚ) ^ ((e : ℤ) - 126) := by
      have : (2 : ℚ) ^ ((e : ℤ) - 126) = 2 ^ 24 * 2 ^ ((e : ℤ) - 150) := by
        rw [← zpow_natCast, ← zpow_add₀ (by norm_num)]; congr 1; push_cast; ring
      rw [this, h]
      gcongr
      have : 2 ^ 23 + m < 2 ^ 24 := by omega
      exact_mod_cast this
    have b1 := (zpow_lt_zpow_iff_right₀ (by norm_num : (1 : ℚ) < 2)).mp (lt_of_le_of_lt a1 (lt_two_zpow_log x0))
    have b2 := (zpow_lt_zpow_iff_right₀ (by norm_num : (1 : ℚ) < 2)).mp (lt_of_le_of_lt (two_zpow_log_le x0) a2)
    omega
  have he : e = e' := by
    have := log e m h2 h3; have := log e' m' k2 k3; omega
  subst he
  have pe : (2 : ℚ) ^ ((e : ℤ) - 150) ≠ 0 := (zpow_pos (by norm_num) _).ne'
  have hm : ((2 ^ 23 + m : ℕ) : ℚ) = ((2 ^ 23 + m' : ℕ) : ℚ) := mul_right_cancel₀ pe (h3.symm.trans k3)
  have hm : 2 ^ 23 + m = 2 ^ 23 + m' := by exact_mod_cast hm
  apply BitVec.eq_of_toNat_eq
  omega

/-! ### The sample run -/

/-- The host's `main` (compiler-tests/otc/src/main.rs:31-38): a prime client buys 5 at the default market data (mid price
1000, volume 100, the volatility factor).  The guest's output tape is determined: ask 1000.6638, bid 999.3362. -/
theorem C69_sample (out : List (BitVec 8)) :
    Guest.Main (Host.input 0x447a0000#32 0x42c80000#32 0x3f62935f#32 0x40a00000#32 .PRIME) out ↔
      out = Model.Guest.putWord 0x447a2a7c#32 ++ Model.Guest.putWord 0x4479d584#32 := by
  have hq : Host.quote .PRIME (.ofBits 0x40a00000#32) ⟨.ofBits 0x447a0000#32, .ofBits 0x42c80000#32, .ofBits 0x3f62935f#32⟩ =
      ⟨.fin false (4098719 / 4096), .fin false (4093281 / 4096)⟩ := by decide +kernel
  have ha : ofBits 0x447a2a7c#32 = .fin false (4098719 / 4096) := by decide +kernel
  have hb : ofBits 0x4479d584#32 = .fin false (4093281 / 4096) := by decide +kernel
  rw [C59_tape, hq]
  constructor
  · rintro ⟨a, b, rfl, h⟩
    have h1 := congrArg Quote.askPrice h
    have h2 := congrArg Quote.bidPrice h
    dsimp only at h1 h2
    rw [ofBits_unique h1.symm ha (by norm_num), ofBits_unique h2.symm hb (by norm_num)]
  · rintro rfl
    exact ⟨_, _, rfl, by rw [ha, hb]⟩

-- the literals of the default market data and of the trade are those bit patterns
example : F32.lit 1000 = .ofBits 0x447a0000#32 ∧ F32.lit 100 = .ofBits 0x42c80000#32 ∧ F32.lit 5 = .ofBits 0x40a00000#32 := by
  decide +kernel

end Verif.Props
