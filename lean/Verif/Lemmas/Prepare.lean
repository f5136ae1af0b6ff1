import Verif.Model.Interp
import Verif.Lemmas.Sim
import Verif.Lemmas.Memory
/-
  Preparation of several words at once: what it computes, for any number of threads.
-/
namespace Verif.Model

/-- All bits of all words in order. -/
def allBits (B : Backend) : List B.Uint → List Nat → List B.GBit
  | u :: us, c :: cs => (List.range c).map (B.bootstrap u) ++ allBits B us cs
  | _, _ => []

theorem length_allBits (B : Backend) (us : List B.Uint) (cs : List Nat) (h : us.length = cs.length) :
    (allBits B us cs).length = cs.sum := by
  induction us generalizing cs with
  | nil => cases cs <;> simp_all [allBits]
  | cons u us ih =>
    cases cs with
    | nil => simp at h
    | cons c cs => simp [allBits, ih cs (by simpa using h)]

theorem runningSums_cons (acc c : Nat) (cs : List Nat) :
    runningSums acc (c :: cs) = acc :: runningSums (acc + c) cs := rfl

theorem runningSums_head (acc : Nat) (cs : List Nat) :
    ∃ t, runningSums acc cs = acc :: t := by cases cs <;> exact ⟨_, rfl⟩

/-- Bit `acc + i` of the concatenation, searched in the running sums starting at `acc`. -/
theorem multiBit_eq (B : Backend) (us : List B.Uint) (cs : List Nat) (h : us.length = cs.length)
    (acc i : Nat) (hi : i < cs.sum) :
    multiBit B us (runningSums acc cs) (acc + i) = (allBits B us cs)[i]? := by
  induction us generalizing cs acc i with
  | nil =>
    cases cs with
    | nil => simp at hi
    | cons => simp at h
  | cons u us ih =>
    cases cs with
    | nil => simp at h
    | cons c cs =>
      obtain ⟨t, ht⟩ := runningSums_head (acc + c) cs
      by_cases hc : c ≤ i
      · have hs : searchCnt (runningSums acc (c :: cs)) (acc + i)
            = searchCnt (runningSums (acc + c) cs) (acc + i) + 1 := by
          rw [runningSums_cons, ht]
          simp only [searchCnt]
          rw [if_pos (by omega)]
        have := ih cs (by simpa using h) (acc + c) (i - c) (by simp at hi; omega)
        rw [show acc + c + (i - c) = acc + i from by omega] at this
        unfold multiBit at this ⊢
        rw [hs]
        simp only [List.getElem?_cons_succ, runningSums_cons, List.getD_cons_succ]
        rw [this]
        simp only [allBits]
        rw [List.getElem?_append_right (by simp; omega)]
        simp
      · have hs : searchCnt (runningSums acc (c :: cs)) (acc + i) = 0 := by
          rw [runningSums_cons, ht]
          simp only [searchCnt]
          rw [if_neg (by omega)]
        unfold multiBit
        rw [hs]
        simp only [List.getElem?_cons_zero, runningSums_cons, List.getD_cons_zero, Option.map_some,
          allBits]
        rw [List.getElem?_append_left (by simp; omega), List.getElem?_map,
          List.getElem?_range (by omega), Option.map_some]
        congr 2
        omega

theorem splitWords_allBits (B : Backend) (us : List B.Uint) (cs : List Nat)
    (h : us.length = cs.length) :
    splitWords B cs (allBits B us cs) = List.zipWith (fun u c =>
      B.ofBits ((List.range c).map (B.bootstrap u) ++ List.replicate (32 - c) B.gzero)) us cs := by
  induction us generalizing cs with
  | nil =>
    cases cs with
    | nil => rfl
    | cons => simp at h
  | cons u us ih =>
    cases cs with
    | nil => simp at h
    | cons c cs =>
      simp only [splitWords, allBits, List.zipWith_cons_cons]
      rw [List.take_left' (by simp), List.drop_left' (by simp), ih cs (by simpa using h)]

/-- Every word gets its own bits, and zeros above. -/
theorem prepareMultiple_eq (B : Backend) (threads : Nat) (ht : 0 < threads) (us : List B.Uint)
    (cs : List Nat) (h : us.length = cs.length) (hc : ∀ c ∈ cs, c ≤ 32) (hpos : 0 < cs.sum) :
    prepareMultiple B threads us cs = some (List.zipWith (fun u c =>
      B.ofBits ((List.range c).map (B.bootstrap u) ++ List.replicate (32 - c) B.gzero)) us cs) := by
  unfold prepareMultiple
  rw [if_pos (by simpa using hc), parallel_eq _ _ _ ht (by simp; omega)]
  have e : (List.replicate cs.sum none).mapIdx
      (fun i (_ : Option B.GBit) => multiBit B us (runningSums 0 cs) i)
      = (allBits B us cs).map fun x => some x := by
    apply List.ext_getElem?
    intro i
    rw [List.getElem?_mapIdx, List.getElem?_replicate, List.getElem?_map]
    by_cases hi : i < cs.sum
    · rw [if_pos hi, Option.map_some]
      have := multiBit_eq B us cs h 0 i hi
      rw [Nat.zero_add] at this
      rw [this, List.getElem?_eq_getElem (by rw [length_allBits B us cs h]; exact hi)]
      rfl
    · rw [if_neg hi, List.getElem?_eq_none (by rw [length_allBits B us cs h]; omega)]
      rfl
  rw [e, Option.bind_some, collect_map_some _ (fun x => x) _ (fun _ _ => rfl)]
  simp [splitWords_allBits B us cs h]

/-- On plaintexts: the low bits of each word. -/
theorem plain_ofBits (logN : Nat) (L : Lib (2 ^ logN)) (u : BitVec 32) (c : Nat) (hc : c ≤ 32) :
    (plain logN L).ofBits ((List.range c).map ((plain logN L).bootstrap u)
      ++ List.replicate (32 - c) (plain logN L).gzero) = (plain logN L).prepareCustom u 0 c := by
  apply BitVec.eq_of_getLsbD_eq
  intro i hi
  show (wordOf _ 32).getLsbD i = (wordOf _ 32).getLsbD i
  rw [getLsbD_wordOf _ _ (by omega), getLsbD_wordOf _ _ (by omega)]
  by_cases h : i < c
  · rw [List.getElem?_append_left (by simpa using h), List.getElem?_map, List.getElem?_range h]
    simp [h]
  · rw [List.getElem?_append_right (by simpa using h), List.getElem?_replicate]
    split <;> simp [h]

section sim
variable {α β : Type} {R : α → β → Prop} {l l' : List α}

theorem LRel.take {l : List α} {l' : List β} (h : LRel R l l') (n : Nat) :
    LRel R (l.take n) (l'.take n) := by
  intro i
  rw [List.getElem?_take, List.getElem?_take]
  split
  · exact h i
  · trivial

theorem LRel.drop {l : List α} {l' : List β} (h : LRel R l l') (n : Nat) :
    LRel R (l.drop n) (l'.drop n) := by
  intro i
  rw [List.getElem?_drop, List.getElem?_drop]
  exact h _

theorem LRel.append {l m : List α} {l' m' : List β} (h : LRel R l l') (h2 : LRel R m m') :
    LRel R (l ++ m) (l' ++ m') := by
  intro i
  rw [List.getElem?_append, List.getElem?_append, h.length]
  split
  · exact h i
  · exact h2 _

theorem LRel.getD {l : List α} {l' : List β} (h : LRel R l l') {a : α} {b : β} (hab : R a b)
    (i : Nat) : R (l.getD i a) (l'.getD i b) := by
  rw [List.getD_eq_getElem?_getD, List.getD_eq_getElem?_getD]
  have := h i
  cases h1 : l[i]? <;> cases h2 : l'[i]? <;> rw [h1, h2] at this
  · exact hab
  · exact this.elim
  · exact this.elim
  · exact this

end sim

variable {B B' : Backend} (S : Sim B B')

theorem prepareMultiple_rel (threads : Nat) {us : List B.Uint} {us' : List B'.Uint}
    (h : LRel S.U us us') (counts : List Nat) :
    ORel (LRel S.P) (prepareMultiple B threads us counts) (prepareMultiple B' threads us' counts) := by
  unfold prepareMultiple
  split
  · have split_rel : ∀ (cs : List Nat) m m', LRel S.Bt m m' →
        LRel S.P (splitWords B cs m) (splitWords B' cs m') := by
      intro cs
      induction cs with
      | nil => exact fun _ _ _ => LRel.nil
      | cons c cs ih =>
        intro m m' hm
        exact LRel.cons (S.ofBits (LRel.append (LRel.take hm _) (LRel.replicate S.gzero _)))
          (ih _ _ (LRel.drop hm _))
    refine ORel.bind ?_ (LRel.parallel (R := ORel S.Bt) ?_ (LRel.replicate trivial _) threads)
    · intro l l' hl
      refine ORel.map ?_ (LRel.collect hl)
      exact fun m m' hm => split_rel counts m m' hm
    · intro i a b _
      exact ORel.map (fun u u' hu => S.bootstrap _ hu) (h _)
  · trivial

end Verif.Model
