import Verif.Lemmas.Adder
/-
  The adder automaton computes the bits of a 32-bit sum.
-/
namespace Verif.Bdd

variable (P : AdderP) (t : Nat) (bit : Nat → Bool)

/-- Invariant on the remembered sign. -/
def Good (S : Bool) (k : Nat) (sgn : Option Bool) : Prop :=
  P.noY = false → P.above k = true → sgn.getD false = S

theorem semMk_sum (X Y : Nat) (S : Bool)
    (hX : ∀ k, k ≤ t → semX P bit k = X / 2 ^ k % 2)
    (hY : ∀ k sgn, k ≤ t → Good P S k sgn → semY P bit k sgn = Y / 2 ^ k % 2)
    (hS : ∀ k sgn, Good P S k sgn → Good P S (k + 1) (nextSgn P bit k sgn)) :
    ∀ (r d : Nat) (sgn : Option Bool), r ≤ t → Good P S (t - r) sgn →
      semMk P t bit r d sgn =
        Nat.beq ((X / 2 ^ (t - r) + Y / 2 ^ (t - r) + P.K / 2 ^ (t - r) + d) / 2 ^ r % 2) 1 := by
  intro r
  induction r with
  | zero =>
    intro d sgn _ hg
    simp only [semMk, semFin]
    rw [hX _ (by omega), hY _ _ (by omega) hg]
    unfold AdderP.kBit
    simp only [Nat.sub_zero, Nat.pow_zero, Nat.div_one]
    congr 1; omega
  | succ r ih =>
    intro d sgn hr hg
    have e1 : t - r = t - (r + 1) + 1 := by omega
    simp only [semMk, semFin]
    have := ih ((d + P.kBit (t - (r + 1)) + semX P bit (t - (r + 1)) +
      semY P bit (t - (r + 1)) sgn) / 2) (nextSgn P bit (t - (r + 1)) sgn) (by omega)
      (by rw [e1]; exact hS _ _ hg)
    rw [semMk] at this
    rw [this, hX _ (by omega), hY _ _ (by omega) hg]
    unfold AdderP.kBit
    rw [e1, Nat.pow_succ, ← Nat.div_div_eq_div_mul, ← Nat.div_div_eq_div_mul,
      ← Nat.div_div_eq_div_mul, Nat.pow_succ, Nat.mul_comm (2 ^ r) 2, ← Nat.div_div_eq_div_mul]
    congr 4; omega

theorem toNat_bit (x : BitVec 32) (k : Nat) : (x.getLsbD k).toNat = x.toNat / 2 ^ k % 2 := by
  rw [BitVec.getLsbD, Nat.testBit_eq_decide_div_mod_eq]
  have := Nat.mod_two_eq_zero_or_one (x.toNat / 2 ^ k)
  rcases this with h | h <;> simp [h]

theorem mk_word (x y : BitVec 32) (S : Bool) (ht : t < 32) (hK : P.K < 2 ^ 32)
    (hX : ∀ k, k ≤ t → semX P bit k = (x.getLsbD k).toNat)
    (hY : ∀ k sgn, k ≤ t → Good P S k sgn → semY P bit k sgn = (y.getLsbD k).toNat)
    (hS : ∀ k sgn, Good P S k sgn → Good P S (k + 1) (nextSgn P bit k sgn))
    (h0 : Good P S 0 none) :
    addSem P t bit (mk P t t 0 none) = (x + y + BitVec.ofNat 32 P.K).getLsbD t := by
  rw [sem_mk, semMk_sum P t bit x.toNat y.toNat S
    (fun k hk => by rw [hX k hk, toNat_bit]) (fun k s hk hg => by rw [hY k s hk hg, toNat_bit]) hS
    t 0 none (Nat.le_refl _) (by simpa using h0)]
  simp only [Nat.sub_self, Nat.pow_zero, Nat.div_one, Nat.add_zero]
  rw [BitVec.getLsbD, BitVec.toNat_add, BitVec.toNat_add, BitVec.toNat_ofNat,
    Nat.mod_eq_of_lt hK, Nat.mod_add_mod, Nat.testBit_mod_two_pow,
    Nat.testBit_eq_decide_div_mod_eq]
  have := Nat.mod_two_eq_zero_or_one ((x.toNat + y.toNat + P.K) / 2 ^ t)
  rcases this with h | h <;> simp [h, ht] <;> rfl

end Verif.Bdd
