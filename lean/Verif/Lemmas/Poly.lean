import Verif.Model.Plain
/-
  Negacyclic rotations.
-/
namespace Verif.Model

variable {n : Nat}

theorem ext_of_mod (p : Coeffs n) (z w : Int) (h : z % (2 * n) = w % (2 * n)) : ext p z = ext p w := by
  unfold ext
  simp only [h]

theorem ext_nat (p : Coeffs n) (i : Nat) (h : i < n) : ext p (i : Int) = p ⟨i, h⟩ := by
  unfold ext
  have e : ((i : Int) % (2 * n)).toNat = i := by
    rw [Int.emod_eq_of_lt (by omega) (by omega)]
    rfl
  simp only [e, h, dite_true]

/-- Multiplying by `X^n` changes the sign. -/
theorem ext_neg (hn : 0 < n) (p : Coeffs n) (z : Int) : ext p (z + n) = -(ext p z) := by
  unfold ext
  have h0 : 0 ≤ z % (2 * n) := Int.emod_nonneg _ (by omega)
  have h1 : z % (2 * n) < 2 * n := Int.emod_lt_of_pos _ (by omega)
  by_cases h : (z % (2 * n)).toNat < n
  · have e : (z + n) % (2 * n) = z % (2 * n) + n := by
      rw [Int.add_emod, Int.emod_eq_of_lt (a := (n : Int)) (by omega) (by omega)]
      exact Int.emod_eq_of_lt (by omega) (by omega)
    have e1 : ((z + n) % (2 * n)).toNat = (z % (2 * n)).toNat + n := by omega
    simp only [e1, Nat.add_sub_cancel, h, dite_true]
    rw [dif_neg (by omega)]
  · have e : (z + n) % (2 * n) = z % (2 * n) - n := by
      rw [Int.add_emod, Int.emod_eq_of_lt (a := (n : Int)) (by omega) (by omega)]
      rw [← Int.sub_emod_right]
      rw [Int.emod_eq_of_lt (by omega) (by omega)]
      omega
    have e1 : ((z + n) % (2 * n)).toNat = (z % (2 * n)).toNat - n := by omega
    have h2 : (z % (2 * n)).toNat - n < n := by omega
    simp only [e1, h, h2, dite_true, dite_false, BitVec.neg_neg]

theorem ext_rotate (hn : 0 < n) (k : Int) (p : Coeffs n) (z : Int) :
    ext (polyRotate k p) z = ext p (z - k) := by
  have h0 : 0 ≤ z % (2 * n) := Int.emod_nonneg _ (by omega)
  have h1 : z % (2 * n) < 2 * n := Int.emod_lt_of_pos _ (by omega)
  conv => lhs; unfold ext
  by_cases h : (z % (2 * n)).toNat < n
  · rw [dif_pos h]
    unfold polyRotate
    apply ext_of_mod
    simp only [Int.toNat_of_nonneg h0]
    rw [Int.sub_emod, Int.emod_emod, ← Int.sub_emod]
  · have h2 : (z % (2 * n)).toNat - n < n := by omega
    rw [dif_neg h, dif_pos h2]
    unfold polyRotate
    rw [← ext_neg hn]
    apply ext_of_mod
    simp only
    have e : (((z % (2 * n)).toNat - n : Nat) : Int) - k + n = z % (2 * n) - k := by omega
    rw [e, Int.sub_emod, Int.emod_emod, ← Int.sub_emod]

theorem polyRotate_inv (k : Int) (p : Coeffs n) :
    polyRotate k (polyRotate (-k) p) = p := by
  funext i
  have hn : 0 < n := Nat.lt_of_le_of_lt (Nat.zero_le _) i.isLt
  have e : polyRotate k (polyRotate (-k) p) i = ext (polyRotate (-k) p) ((i.val : Int) - k) := rfl
  rw [e, ext_rotate hn]
  have e2 : (i.val : Int) - k - -k = (i.val : Int) := by omega
  rw [e2, ext_nat p i.val i.isLt]

/-- Coefficient `k` is brought to the front. -/
theorem coeff0_rotate (p : Coeffs n) (k : Nat) (h : k < n) :
    coeff0 (polyRotate (-(k : Int)) p) = p ⟨k, h⟩ := by
  unfold coeff0
  rw [dif_pos (by omega)]
  unfold polyRotate
  have e : ((0 : Nat) : Int) - -(k : Int) = (k : Int) := by omega
  show ext p (((0 : Nat) : Int) - -(k : Int)) = _
  rw [e, ext_nat p k h]

/-- Replacing the front coefficient, then rotating by `k < n`: only coefficient `k` changes. -/
theorem rotate_replace (q q' : Coeffs n) (k : Nat) (h : k < n) (v : BitVec 2)
    (h0 : q' ⟨0, by omega⟩ = v) (h1 : ∀ i : Fin n, i.val ≠ 0 → q' i = q i) (i : Fin n) :
    polyRotate (k : Int) q' i = if i.val = k then v else polyRotate (k : Int) q i := by
  unfold polyRotate
  by_cases e : i.val = k
  · rw [if_pos e]
    have e1 : (i.val : Int) - (k : Int) = ((0 : Nat) : Int) := by omega
    rw [e1, ext_nat q' 0 (by omega), h0]
  · rw [if_neg e]
    by_cases lt : k < i.val
    · have e1 : (i.val : Int) - (k : Int) = ((i.val - k : Nat) : Int) := by omega
      have h2 : i.val - k < n := by omega
      rw [e1, ext_nat q' _ h2, ext_nat q _ h2, h1]
      show i.val - k ≠ 0
      omega
    · have hn : 0 < n := by omega
      have h2 : n + i.val - k < n := by omega
      have e1 : (i.val : Int) - (k : Int) + (n : Int) = ((n + i.val - k : Nat) : Int) := by omega
      have ea : ext q' ((i.val : Int) - (k : Int)) = -(ext q' ((i.val : Int) - (k : Int) + n)) := by
        rw [ext_neg hn, BitVec.neg_neg]
      have eb : ext q ((i.val : Int) - (k : Int)) = -(ext q ((i.val : Int) - (k : Int) + n)) := by
        rw [ext_neg hn, BitVec.neg_neg]
      rw [ea, eb, e1, ext_nat q' _ h2, ext_nat q _ h2, h1]
      show n + i.val - k ≠ 0
      omega

end Verif.Model
