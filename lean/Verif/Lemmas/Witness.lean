import Verif.Lemmas.Fhe
/-
  Concrete libraries, showing that the assumptions made on the library can be met.
-/
namespace Verif.Model

theorem ORel.refl {α : Type} {R : α → α → Prop} (h : ∀ a, R a a) (o : Option α) : ORel R o o := by
  cases o with
  | none => trivial
  | some a => exact h a

theorem eq_of_assoc {m m' : List (Nat × BitVec 32)}
    (h : LRel (fun x x' => x.1 = x'.1 ∧ x.2 = x'.2) m m') : m = m' := by
  apply LRel.of_eq.mp
  intro i
  have := h i
  cases h1 : m[i]? <;> cases h2 : m'[i]? <;> rw [h1, h2] at this
  · trivial
  · exact this.elim
  · exact this.elim
  · exact Prod.ext this.1 this.2

/-- The identity relation on the plaintext library. -/
def plainSim (logN : Nat) (L : Lib (2 ^ logN)) : Sim (plain logN L) (plain logN L) where
  G a b := a = b
  U a b := a = b
  P a b := a = b
  Bt a b := a = b
  logN := rfl
  glweZero := rfl
  add h h' := by rw [h, h']
  sub h h' := by rw [h, h']
  rotate k _ _ h := by rw [h]
  trace h := by rw [h]
  normalize h := h
  blindRotate _ _ _ _ h h' := by rw [h, h']
  retrieve _ h h' := by rw [LRel.of_eq.mp h, h']
  retrieval _ _ h h' := by rw [LRel.of_eq.mp h, h']; exact LRel.of_eq.mpr rfl
  retrievalRev _ _ h h' := by rw [LRel.of_eq.mp h, h']; exact LRel.of_eq.mpr rfl
  uzero := rfl
  pack h := by rw [LRel.of_eq.mp h]
  getBit _ h := by rw [h]
  pzero := rfl
  gbit _ h := by rw [h]
  gzero := rfl
  bootstrap _ h := by rw [h]
  ofBits h := by rw [LRel.of_eq.mp h]
  prepareCustom _ _ h := by rw [h]
  bin _ h h' := by rw [h, h']
  bdd c _ f f' h := by
    have : f = f' := funext h
    rw [this]
    exact ORel.refl (fun _ => rfl) _
  identity h := h
  select _ _ h h' := by rw [eq_of_assoc h, h']
  zeroByte _ h := by rw [h]
  sextByte _ h := by rw [h]
  spliceU8 _ _ h h' := by rw [h, h']
  spliceU16 _ _ h h' := by rw [h, h']

/-- The plaintext library as a (trivial) correct library. -/
def plainFhe (logN : Nat) (L : Lib (2 ^ logN)) : Fhe where
  B := plain logN L
  lib := L
  sim := plainSim logN L
  C := plainCipher logN L
  enc_sim _ _ := rfl
  dec_sim _ _ h := h
  RandU := Unit
  encU _ w := w
  encU_sim _ _ := rfl
  decU u := u
  decU_sim _ _ h := h
  decP u := u
  decP_sim _ _ h := h

/-- A conditional-swap network: the wanted element is exchanged with the first one. -/
def swapNet (α : Type) : Net α where
  fwd _ idx l :=
    match l[0]?, l[idx]? with
    | some a, some b => (l.set 0 b).set idx a
    | _, _ => l
  rev _ idx l :=
    match l[0]?, l[idx]? with
    | some a, some b => (l.set 0 b).set idx a
    | _, _ => l
  length_fwd bits idx l := by
    split <;> simp
  front bits idx l h _ := by
    have h0 : 0 < l.length := by omega
    simp only [List.getElem?_eq_getElem h, List.getElem?_eq_getElem h0]
    rw [List.getElem?_set]
    by_cases e : idx = 0
    · subst e
      simp [h0]
    · rw [if_neg e, List.getElem?_set, if_pos rfl, if_pos h0]
  back bits idx l v h _ := by
    have h0 : 0 < l.length := by omega
    simp only [List.getElem?_eq_getElem h, List.getElem?_eq_getElem h0]
    have e1 : ((((l.set 0 l[idx]).set idx l[0]).set 0 v)[0]?) = some v := by
      simp [List.getElem?_set, h0]
    by_cases e : idx = 0
    · subst e
      rw [e1]
      simp
    · have e2 : ((((l.set 0 l[idx]).set idx l[0]).set 0 v)[idx]?) = some l[0] := by
        rw [List.getElem?_set, if_neg (fun x => e x.symm), List.getElem?_set, if_pos rfl]
        simp [h]
      rw [e1, e2]
      simp only
      apply List.ext_getElem?
      intro j
      simp only [List.getElem?_set, List.length_set]
      by_cases c1 : idx = j
      · simp [c1]
      · by_cases c2 : 0 = j
        · subst c2
          simp [e, h0]
        · simp [c1, c2]

/-- A library with concrete choices for everything left unspecified. -/
def sampleLib (n : Nat) : Lib n where
  net := swapNet _
  oob _ _ := fun _ => 0#2
  bitOf x := x.getLsbD 0
  bitOf_zero := rfl
  bitOf_one := rfl
  stale0 _ := false
  stale1 _ := false

/-- A small library: ring degree 4. -/
def sampleFhe : Fhe := plainFhe 2 (sampleLib _)

end Verif.Model
