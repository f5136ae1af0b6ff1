/-
  Helper lemmas: bit-by-bit reasoning about 32-bit words.
-/
namespace Verif

theorem all32 {p : Nat → Prop} (h0 : p 0) (h1 : p 1) (h2 : p 2) (h3 : p 3) (h4 : p 4) (h5 : p 5)
    (h6 : p 6) (h7 : p 7) (h8 : p 8) (h9 : p 9) (h10 : p 10) (h11 : p 11) (h12 : p 12)
    (h13 : p 13) (h14 : p 14) (h15 : p 15) (h16 : p 16) (h17 : p 17) (h18 : p 18) (h19 : p 19)
    (h20 : p 20) (h21 : p 21) (h22 : p 22) (h23 : p 23) (h24 : p 24) (h25 : p 25) (h26 : p 26)
    (h27 : p 27) (h28 : p 28) (h29 : p 29) (h30 : p 30) (h31 : p 31) : ∀ i, i < 32 → p i := by
  intro i hi
  have : i = 0 ∨ i = 1 ∨ i = 2 ∨ i = 3 ∨ i = 4 ∨ i = 5 ∨ i = 6 ∨ i = 7 ∨ i = 8 ∨ i = 9 ∨ i = 10
    ∨ i = 11 ∨ i = 12 ∨ i = 13 ∨ i = 14 ∨ i = 15 ∨ i = 16 ∨ i = 17 ∨ i = 18 ∨ i = 19 ∨ i = 20
    ∨ i = 21 ∨ i = 22 ∨ i = 23 ∨ i = 24 ∨ i = 25 ∨ i = 26 ∨ i = 27 ∨ i = 28 ∨ i = 29 ∨ i = 30
    ∨ i = 31 := by omega
  rcases this with rfl|rfl|rfl|rfl|rfl|rfl|rfl|rfl|rfl|rfl|rfl|rfl|rfl|rfl|rfl|rfl|rfl|rfl|rfl|rfl|rfl|rfl|rfl|rfl|rfl|rfl|rfl|rfl|rfl|rfl|rfl|rfl <;> assumption

/-- `((w >> 31) & 1) * m` is `m` masked by the sign bit. -/
theorem signmask (w m : BitVec 32) :
    ((w >>> 31) &&& 1#32) * m = (BitVec.ofBool (w.getLsbD 31)).signExtend 32 &&& m := by
  have h : (w >>> 31) &&& 1#32 = if w.getLsbD 31 then 1#32 else 0#32 := by
    apply BitVec.eq_of_getLsbD_eq
    intro i hi
    cases h : w.getLsbD 31 <;> by_cases h : i = 0 <;> simp_all
  rw [h]; cases w.getLsbD 31
  · simp [BitVec.ofBool]
  · simp
    have : 4294967295#32 = BitVec.allOnes 32 := by decide
    rw [this, BitVec.allOnes_and]

/-- Prove an equation between 32-bit words bit by bit. -/
macro "bits32" : tactic => `(tactic| (
  apply BitVec.eq_of_getLsbD_eq
  apply Verif.all32 <;>
    simp [-BitVec.getLsbD_eq_getElem, BitVec.getLsbD_signExtend,
      BitVec.msb_eq_getLsbD_last, BitVec.getLsbD_extractLsb']))

end Verif
