import Verif.Lemmas.Poly
import Verif.Lemmas.Threads
/-
  One bit array, over the plaintext library.
-/
namespace Verif.Model

theorem le_two_pow_bitsFor (size : Nat) : size ≤ 2 ^ bitsFor size := by
  unfold bitsFor
  split
  · simp; omega
  · have := Nat.lt_log2_self (n := size - 1)
    omega

theorem bitsFor_le (size b : Nat) (h : size ≤ 2 ^ b) : bitsFor size ≤ b := by
  unfold bitsFor
  split
  · omega
  · rename_i hne
    have h1 := Nat.log2_self_le hne
    have h2 : 2 ^ (size - 1).log2 < 2 ^ b := by omega
    have := (Nat.pow_lt_pow_iff_right (a := 2) (by omega)).mp h2
    omega

variable {logN : Nat} {L : Lib (2 ^ logN)}

/-- A bit array of the right shape for `size` words. -/
structure BitArray.Shape (b : BitArray (plain logN L)) (size : Nat) : Prop where
  length : b.data.length = divCeil size (2 ^ logN)
  bitSize : b.bitSize = bitsFor size

/-- Word index addressed by the stateful accesses. -/
def accessIndex (addr : BitVec 32) (offset bits : Nat) : Nat := addr.toNat / 2 ^ offset % 2 ^ bits

theorem div_lt_chunks (a size n : Nat) (hn : 0 < n) (h : a < size) : a / n < divCeil size n := by
  have := divCeil_mul_ge size n hn
  rw [Nat.div_lt_iff_lt_mul hn]
  omega

theorem index_low (x bits logN : Nat) (h : x % 2 ^ bits < 2 ^ bits) :
    x % 2 ^ (min logN bits) = x % 2 ^ bits % 2 ^ logN := by
  by_cases c : logN ≤ bits
  · rw [Nat.min_eq_left c, Nat.mod_mod_of_dvd _ (Nat.pow_dvd_pow 2 c)]
  · rw [Nat.min_eq_right (by omega)]
    symm
    apply Nat.mod_eq_of_lt
    exact Nat.lt_of_lt_of_le h (Nat.pow_le_pow_right (by omega) (by omega))

theorem index_high (x bits logN : Nat) (h : logN < bits) :
    x / 2 ^ logN % 2 ^ (bits - logN) = x % 2 ^ bits / 2 ^ logN := by
  have e : (2 : Nat) ^ bits = 2 ^ logN * 2 ^ (bits - logN) := by
    rw [← Nat.pow_add]
    congr 1
    omega
  rw [e, Nat.mod_mul_right_div_self]

/-- The list with the wanted polynomial in front. -/
def frontData (L : Lib (2 ^ logN)) (data : List (Coeffs (2 ^ logN))) (bitSize : Nat)
    (addr : BitVec 32) (offset : Nat) : List (Coeffs (2 ^ logN)) :=
  if bitSize > logN then
    L.net.fwd (bitSize - logN) (addr.toNat / 2 ^ (offset + logN) % 2 ^ (bitSize - logN)) data
  else data

def unfrontData (L : Lib (2 ^ logN)) (data : List (Coeffs (2 ^ logN))) (bitSize : Nat)
    (addr : BitVec 32) (offset : Nat) : List (Coeffs (2 ^ logN)) :=
  if bitSize > logN then
    L.net.rev (bitSize - logN) (addr.toNat / 2 ^ (offset + logN) % 2 ^ (bitSize - logN)) data
  else data

theorem front_index (addr : BitVec 32) (offset bits : Nat) (h : logN < bits) :
    addr.toNat / 2 ^ (offset + logN) % 2 ^ (bits - logN)
      = accessIndex addr offset bits / 2 ^ logN := by
  unfold accessIndex
  rw [Nat.pow_add, ← Nat.div_div_eq_div_mul, index_high _ _ _ h]

theorem accessIndex_lt (addr : BitVec 32) (offset bits : Nat) :
    accessIndex addr offset bits < 2 ^ bits := Nat.mod_lt _ (Nat.two_pow_pos _)

theorem accessIndex_small (addr : BitVec 32) (offset bits : Nat) (h : ¬ bits > logN) :
    accessIndex addr offset bits / 2 ^ logN = 0 := by
  apply Nat.div_eq_of_lt
  exact Nat.lt_of_lt_of_le (accessIndex_lt addr offset bits)
    (Nat.pow_le_pow_right (by omega) (by omega))

theorem frontData_front (data : List (Coeffs (2 ^ logN))) (bits : Nat) (addr : BitVec 32)
    (offset : Nat) (h : accessIndex addr offset bits / 2 ^ logN < data.length) :
    (frontData L data bits addr offset)[0]? = data[accessIndex addr offset bits / 2 ^ logN]? := by
  unfold frontData
  by_cases c : bits > logN
  · rw [if_pos c, front_index _ _ _ c]
    apply L.net.front _ _ _ h
    rw [← front_index _ _ _ c]
    exact Nat.mod_lt _ (Nat.two_pow_pos _)
  · rw [if_neg c, accessIndex_small _ _ _ c]

theorem unfront_set (data : List (Coeffs (2 ^ logN))) (bits : Nat) (addr : BitVec 32)
    (offset : Nat) (v : Coeffs (2 ^ logN))
    (h : accessIndex addr offset bits / 2 ^ logN < data.length) :
    unfrontData L ((frontData L data bits addr offset).set 0 v) bits addr offset
      = data.set (accessIndex addr offset bits / 2 ^ logN) v := by
  unfold frontData unfrontData
  by_cases c : bits > logN
  · rw [if_pos c, if_pos c, front_index _ _ _ c]
    apply L.net.back _ _ _ _ h
    rw [← front_index _ _ _ c]
    exact Nat.mod_lt _ (Nat.two_pow_pos _)
  · rw [if_neg c, if_neg c, accessIndex_small _ _ _ c]

/-- Polynomial with coefficient `k` replaced. -/
def setCoeff {n : Nat} (p : Coeffs n) (k : Nat) (c : BitVec 2) : Coeffs n :=
  fun i => if i.val = k then c else p i

/-- The overwriting step on a rotated polynomial. -/
theorem overwrite {n : Nat} (p : Coeffs n) (k : Nat) (h : k < n) (c : BitVec 2) :
    polyRotate (k : Int) (fun i => (polyRotate (-(k : Int)) p i -
      constPoly (coeff0 (polyRotate (-(k : Int)) p)) i) + constPoly c i) = setCoeff p k c := by
  funext i
  rw [rotate_replace (polyRotate (-(k : Int)) p) _ k h c]
  · rw [polyRotate_inv]
    rfl
  · have h0 : 0 < n := by omega
    simp [constPoly, coeff0, h0]
  · intro j hj
    simp [constPoly, hj]

theorem modify_of_getElem? {α : Type} (l : List α) (f : α → α) (p : α) (h : l[0]? = some p) :
    l.modify 0 f = l.set 0 (f p) := by
  cases l with
  | nil => simp at h
  | cons a l => simp at h; subst h; rfl

theorem forward_eq (b : BitArray (plain logN L)) (addr : BitVec 32) (offset : Nat) (p : Coeffs (2 ^ logN))
    (hl : accessIndex addr offset b.bitSize / 2 ^ logN < b.data.length)
    (hp : b.data[accessIndex addr offset b.bitSize / 2 ^ logN]? = some p) :
    b.forward addr offset = (frontData L b.data b.bitSize addr offset).set 0
      (polyRotate (-((accessIndex addr offset b.bitSize % 2 ^ logN : Nat) : Int)) p) := by
  have e1 : b.forward addr offset = (frontData L b.data b.bitSize addr offset).modify 0
      (polyRotate (-((accessIndex addr offset b.bitSize % 2 ^ logN : Nat) : Int))) := by
    have e2 : accessIndex addr offset b.bitSize % 2 ^ logN
        = addr.toNat / 2 ^ offset % 2 ^ (min logN b.bitSize) * 2 ^ 0 := by
      rw [Nat.pow_zero, Nat.mul_one, index_low _ _ _ (accessIndex_lt addr offset b.bitSize)]
      rfl
    rw [e2]
    rfl
  rw [e1]
  apply modify_of_getElem?
  exact (frontData_front (L := L) b.data _ _ _ hl).trans hp

theorem backward_eq (b : BitArray (plain logN L)) (addr : BitVec 32) (offset : Nat)
    (F : List (Coeffs (2 ^ logN))) (q : Coeffs (2 ^ logN)) (c : BitVec 2)
    (hF : b.data = F.set 0 q) (hne : 0 < F.length) :
    b.backward (constPoly c : Coeffs (2 ^ logN)) addr offset
      = unfrontData L (F.set 0 (polyRotate ((accessIndex addr offset b.bitSize % 2 ^ logN : Nat) : Int)
          (fun i => (q i - constPoly (coeff0 q) i) + constPoly c i))) b.bitSize addr offset := by
  have e2 : accessIndex addr offset b.bitSize % 2 ^ logN
      = addr.toNat / 2 ^ offset % 2 ^ (min logN b.bitSize) * 2 ^ 0 := by
    rw [Nat.pow_zero, Nat.mul_one, index_low _ _ _ (accessIndex_lt addr offset b.bitSize)]
    rfl
  rw [e2]
  have e3 : ∀ f : Coeffs (2 ^ logN) → Coeffs (2 ^ logN), ∀ r, (F.set 0 r).modify 0 f = F.set 0 (f r) := by
    intro f r
    cases F with
    | nil => simp at hne
    | cons a l => rfl
  unfold BitArray.backward
  rw [hF]
  have key : ∀ f g h : Coeffs (2 ^ logN) → Coeffs (2 ^ logN),
      (((F.set 0 q).modify 0 f).modify 0 g).modify 0 h = F.set 0 (h (g (f q))) := by
    intro f g h
    rw [e3, e3, e3]
  exact congrArg (fun d => unfrontData L d b.bitSize addr offset) (key _ _ _)

/-- Effect of `write` on one bit array. -/
theorem write_data (b : BitArray (plain logN L)) (size : Nat) (hs : b.Shape size) (addr : BitVec 32)
    (offset : Nat) (c : BitVec 2) (ha : accessIndex addr offset b.bitSize < size)
    (p : Coeffs (2 ^ logN))
    (hp : b.data[accessIndex addr offset b.bitSize / 2 ^ logN]? = some p) :
    (b.write (constPoly c : Coeffs (2 ^ logN)) addr offset).data
      = b.data.set (accessIndex addr offset b.bitSize / 2 ^ logN)
          (setCoeff p (accessIndex addr offset b.bitSize % 2 ^ logN) c) := by
  have hl : accessIndex addr offset b.bitSize / 2 ^ logN < b.data.length := by
    rw [hs.length]
    exact div_lt_chunks _ _ _ (Nat.two_pow_pos _) ha
  have hne : 0 < (frontData L b.data b.bitSize addr offset).length := by
    have := (frontData_front (L := L) b.data b.bitSize addr offset hl).trans hp
    rcases Nat.eq_zero_or_pos (frontData L b.data b.bitSize addr offset).length with h | h
    · rw [List.getElem?_eq_none (by omega)] at this
      cases this
    · exact h
  unfold BitArray.write
  have := backward_eq { b with data := b.forward addr offset } addr offset _ _ c
    (forward_eq b addr offset p hl hp) hne
  refine Eq.trans this ?_
  show unfrontData L _ b.bitSize addr offset = _
  rw [unfront_set _ _ _ _ _ hl, overwrite _ _ (Nat.mod_lt _ (Nat.two_pow_pos _))]

/-- Coefficient `a` of a list of polynomials. -/
def coefOf (data : List (Coeffs (2 ^ logN))) (a : Nat) : BitVec 2 :=
  (data[a / 2 ^ logN]?).elim 0#2 fun ct => ct ⟨a % 2 ^ logN, Nat.mod_lt _ (Nat.two_pow_pos _)⟩

theorem coefOf_set (data : List (Coeffs (2 ^ logN))) (a : Nat) (p : Coeffs (2 ^ logN)) (c : BitVec 2)
    (hp : data[a / 2 ^ logN]? = some p) (a' : Nat) :
    coefOf (data.set (a / 2 ^ logN) (setCoeff p (a % 2 ^ logN) c)) a'
      = if a' = a then c else coefOf data a' := by
  obtain ⟨hi, hp'⟩ := List.getElem?_eq_some_iff.mp hp
  unfold coefOf
  rw [List.getElem?_set]
  have d1 := Nat.div_add_mod a (2 ^ logN)
  have d2 := Nat.div_add_mod a' (2 ^ logN)
  by_cases e : a / 2 ^ logN = a' / 2 ^ logN
  · rw [if_pos e, if_pos hi, ← e, hp]
    simp only [setCoeff, Option.elim_some]
    by_cases e2 : a' % 2 ^ logN = a % 2 ^ logN
    · rw [if_pos e2, if_pos]
      rw [← d1, ← d2, e, e2]
    · rw [if_neg e2, if_neg]
      intro h
      exact e2 (by rw [h])
  · rw [if_neg e, if_neg]
    intro h
    exact e (by rw [h])

/-- Coefficients of a bit array after one polynomial is changed in one place. -/
theorem decrypt_set (b : BitArray (plain logN L)) (data : List (Coeffs (2 ^ logN))) (a : Nat)
    (p : Coeffs (2 ^ logN)) (c : BitVec 2) (hp : b.data[a / 2 ^ logN]? = some p)
    (hd : data = List.set b.data (a / 2 ^ logN) (setCoeff p (a % 2 ^ logN) c)) (a' : Nat) :
    BitArray.decrypt (plainCipher logN L) { b with data := data } a'
      = if a' = a then c else BitArray.decrypt (plainCipher logN L) b a' := by
  subst hd
  exact coefOf_set (logN := logN) b.data a p c hp a'

theorem exists_poly (b : BitArray (plain logN L)) (size : Nat) (hs : b.Shape size) (a : Nat)
    (ha : a < size) : ∃ p : Coeffs (2 ^ logN), b.data[a / 2 ^ logN]? = some p := by
  have hl : a / 2 ^ logN < b.data.length := by
    rw [hs.length]
    exact div_lt_chunks _ _ _ (Nat.two_pow_pos _) ha
  exact ⟨_, List.getElem?_eq_getElem hl⟩

theorem decrypt_eq (b : BitArray (plain logN L)) (a : Nat) (p : Coeffs (2 ^ logN))
    (hp : b.data[a / 2 ^ logN]? = some p) :
    BitArray.decrypt (plainCipher logN L) b a = p ⟨a % 2 ^ logN, Nat.mod_lt _ (Nat.two_pow_pos _)⟩ := by
  unfold BitArray.decrypt
  show (b.data[a / 2 ^ logN]?).elim 0#2
      (fun ct : Coeffs (2 ^ logN) => ct ⟨a % 2 ^ logN, Nat.mod_lt _ (Nat.two_pow_pos _)⟩) = _
  rw [hp]
  rfl

/-- `write` on one bit array. -/
theorem BitArray.write_spec (b : BitArray (plain logN L)) (size : Nat) (hs : b.Shape size)
    (addr : BitVec 32) (offset : Nat) (c : BitVec 2)
    (ha : accessIndex addr offset (bitsFor size) < size) :
    (b.write (constPoly c : Coeffs (2 ^ logN)) addr offset).Shape size ∧
    ∀ a', BitArray.decrypt (plainCipher logN L) (b.write (constPoly c : Coeffs (2 ^ logN)) addr offset) a'
      = if a' = accessIndex addr offset (bitsFor size) then c
        else BitArray.decrypt (plainCipher logN L) b a' := by
  rw [← hs.bitSize] at ha ⊢
  obtain ⟨p, hp⟩ := exists_poly b size hs _ ha
  have hd := write_data b size hs addr offset c ha p hp
  refine ⟨⟨?_, hs.bitSize⟩, fun a' => decrypt_set b _ _ p c hp hd a'⟩
  rw [hd]
  exact (List.length_set ..).trans hs.length

/-- The pending state: what phase one leaves behind. -/
def BitArray.Pending (b0 b1 : BitArray (plain logN L)) (addr : BitVec 32) (offset : Nat) : Prop :=
  b1 = { b0 with data := b0.forward addr offset }

theorem BitArray.statefull_read (b : BitArray (plain logN L)) (size : Nat) (hs : b.Shape size)
    (addr : BitVec 32) (offset : Nat) (ha : accessIndex addr offset (bitsFor size) < size) :
    ∃ q : Coeffs (2 ^ logN), b.retrieveStatefull addr offset
        = ({ b with data := b.forward addr offset }, some q) ∧
      coeff0 q = BitArray.decrypt (plainCipher logN L) b (accessIndex addr offset (bitsFor size)) := by
  rw [← hs.bitSize] at ha ⊢
  obtain ⟨p, hp⟩ := exists_poly b size hs _ ha
  have hl : accessIndex addr offset b.bitSize / 2 ^ logN < b.data.length :=
    (List.getElem?_eq_some_iff.mp hp).1
  have hne := (frontData_front (L := L) b.data b.bitSize addr offset hl).trans hp
  have h0 := (List.getElem?_eq_some_iff.mp hne).1
  refine ⟨polyRotate (-((accessIndex addr offset b.bitSize % 2 ^ logN : Nat) : Int)) p, ?_, ?_⟩
  · unfold BitArray.retrieveStatefull
    simp only
    refine congrArg (Prod.mk _) ?_
    rw [forward_eq b addr offset p hl hp]
    exact List.getElem?_set_self h0
  · rw [coeff0_rotate p _ (Nat.mod_lt _ (Nat.two_pow_pos _)), decrypt_eq b _ p hp]

theorem BitArray.rev_of_pending (b : BitArray (plain logN L)) (w : Coeffs (2 ^ logN))
    (addr : BitVec 32) (offset : Nat) :
    BitArray.retrieveStatefullRev { b with data := b.forward addr offset } w addr offset
      = b.write w addr offset := rfl

/-- Stateless read of one bit array. -/
theorem BitArray.stateless_read (b : BitArray (plain logN L)) (size : Nat) (hs : b.Shape size)
    (addr : BitVec 32) (offset : Nat) (ha : addr.toNat / 2 ^ offset < size) :
    coeff0 (b.retrieveStateless addr offset : Coeffs (2 ^ logN))
      = BitArray.decrypt (plainCipher logN L) b (addr.toNat / 2 ^ offset) := by
  obtain ⟨p, hp⟩ := exists_poly b size hs _ ha
  have hlt : addr.toNat / 2 ^ offset < 2 ^ bitsFor size :=
    Nat.lt_of_lt_of_le ha (le_two_pow_bitsFor size)
  have e1 : addr.toNat / 2 ^ (offset + logN) = addr.toNat / 2 ^ offset / 2 ^ logN := by
    rw [Nat.pow_add, Nat.div_div_eq_div_mul]
  have e2 : addr.toNat / 2 ^ offset % 2 ^ (min logN b.bitSize) * 2 ^ 0
      = addr.toNat / 2 ^ offset % 2 ^ logN := by
    rw [hs.bitSize, index_low _ _ _ (Nat.mod_lt _ (Nat.two_pow_pos _)), Nat.mod_eq_of_lt hlt]
    simp
  have e3 : (b.retrieveStateless addr offset : Coeffs (2 ^ logN))
      = polyRotate (-((addr.toNat / 2 ^ offset % 2 ^ (min logN b.bitSize) * 2 ^ 0 : Nat) : Int))
          ((b.data[addr.toNat / 2 ^ (offset + logN)]?).getD
            (L.oob b.data (addr.toNat / 2 ^ (offset + logN)))) := rfl
  have e4 : ((b.data[addr.toNat / 2 ^ offset / 2 ^ logN]?).getD
            (L.oob b.data (addr.toNat / 2 ^ (offset + logN))) : Coeffs (2 ^ logN)) = p := by
    rw [hp]
    rfl
  rw [e1] at e3 e4
  rw [e3, e2, e4, coeff0_rotate p _ (Nat.mod_lt _ (Nat.two_pow_pos _)), decrypt_eq b _ p hp]

end Verif.Model
