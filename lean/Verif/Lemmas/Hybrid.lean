import Verif.Spec.Privacy
import Mathlib.Algebra.BigOperators.Fin
import Mathlib.Logic.Equiv.Fin.Basic
import Mathlib.Tactic.Ring
import Mathlib.Tactic.FieldSimp
/-
  The hybrid argument for a finite family of independent encryptions.
-/
namespace Verif.Lemmas
open Spec

theorem mean_const {R : Type} [Fintype R] [Nonempty R] (x : ℚ) : mean (fun _ : R => x) = x := by
  unfold mean
  rw [Finset.sum_const, Finset.card_univ, nsmul_eq_mul]
  have : (Fintype.card R : ℚ) ≠ 0 := Nat.cast_ne_zero.mpr Fintype.card_ne_zero
  field_simp

theorem mean_sub {R : Type} [Fintype R] (f g : R → ℚ) : mean f - mean g = mean (fun r => f r - g r) := by
  unfold mean
  rw [Finset.sum_sub_distrib, sub_div]

/-- Drawing one coordinate again changes nothing. -/
theorem mean_update {ι R : Type} [Fintype ι] [DecidableEq ι] [Fintype R] [Nonempty R] (i : ι) (f : (ι → R) → ℚ) :
    mean (fun r => mean (fun w => f (Function.update w i r))) = mean f := by
  have key : ∑ r : R, ∑ w : ι → R, f (Function.update w i r) = Fintype.card R * ∑ w, f w := by
    rw [← Fintype.sum_prod_type' (f := fun r w => f (Function.update w i r))]
    have e : ∑ x : R × (ι → R), f (Function.update x.2 i x.1) = ∑ x : R × (ι → R), f x.2 := by
      refine Fintype.sum_bijective (fun x => (x.2 i, Function.update x.2 i x.1)) ?_ _ _ (fun _ => rfl)
      refine Function.Involutive.bijective fun x => ?_
      simp
    rw [e, Fintype.sum_prod_type]
    simp [nsmul_eq_mul]
  have hR : (Fintype.card R : ℚ) ≠ 0 := Nat.cast_ne_zero.mpr Fintype.card_ne_zero
  unfold mean
  rw [← Finset.sum_div, key]
  field_simp

/-- The chances on two families of messages differ by the sum of what the tests on one ciphertext gain. -/
theorem chance_sub {ι R M G : Type} [Fintype ι] [DecidableEq ι] [Fintype R] [Nonempty R] {q : Nat} (e : ι ≃ Fin q)
    (enc : R → M → G) (m m' : ι → M) (D : (ι → G) → ℚ) :
    chance enc m D - chance enc m' D = ∑ i, gain enc (m i) (m' i) (only e enc m m' D i) := by
  let H : Nat → ℚ := fun k => mean fun w : ι → R => D fun j => if (e j).val < k then enc (w j) (m' j) else enc (w j) (m j)
  have h0 : H 0 = chance enc m D := by simp [H, chance]
  have hq : H q = chance enc m' D := by
    simp only [H, chance]
    congr 1; funext w; congr 1; funext j
    rw [if_pos (e j).isLt]
  have step : ∀ k : Fin q, H k - H (k + 1) =
      gain enc (m (e.symm k)) (m' (e.symm k)) (only e enc m m' D (e.symm k)) := by
    intro k
    have side : ∀ (x : M) (n : Nat), (∀ w : ι → R, ∀ j, (if (e j).val < n then enc (w j) (m' j) else enc (w j) (m j)) =
        if e j < e (e.symm k) then enc (w j) (m' j) else if j = e.symm k then enc (w j) x else enc (w j) (m j)) →
        H n = mean (fun r => only e enc m m' D (e.symm k) (enc r x)) := by
      intro x n hn
      simp only [H, only]
      rw [← mean_update (e.symm k)]
      congr 1; funext r; congr 1; funext w; congr 1; funext j
      rw [hn]
      by_cases hj : j = e.symm k
      · subst hj; simp
      · rw [Function.update_of_ne hj, if_neg hj, if_neg hj]
    unfold gain
    rw [side (m (e.symm k)) k (by
      intro w j
      rw [e.apply_symm_apply]
      by_cases hj : j = e.symm k
      · subst hj; simp
      · rw [if_neg hj]; rfl), side (m' (e.symm k)) (k + 1) (by
      intro w j
      rw [e.apply_symm_apply]
      by_cases hj : j = e.symm k
      · subst hj; simp
      · have hne : (e j).val ≠ k.val := fun h => hj (by rw [← Fin.ext h, e.symm_apply_apply])
        rw [if_neg hj]
        by_cases hl : e j < k
        · rw [if_pos hl, if_pos (Nat.lt_succ_of_lt hl)]
        · rw [if_neg hl, if_neg]
          intro h'
          exact hl (Fin.lt_def.mpr (by omega)))]
  rw [← h0, ← hq, ← Finset.sum_range_sub' H q, ← Fin.sum_univ_eq_sum_range (fun k => H k - H (k + 1)) q,
    Finset.sum_congr rfl fun k _ => step k]
  exact Equiv.sum_comp e.symm (fun i => gain enc (m i) (m' i) (only e enc m m' D i))

end Verif.Lemmas
