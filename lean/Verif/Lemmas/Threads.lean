import Verif.Model.Threads
/-
  Every index is processed exactly once, whatever the number of threads and the interleaving.
-/
namespace Verif.Model

theorem divCeil_mul_ge (a b : Nat) (hb : 0 < b) : a ≤ divCeil a b * b := by
  unfold divCeil
  have h1 := Nat.div_add_mod (a + b - 1) b
  have h2 := Nat.mod_lt (a + b - 1) hb
  rw [Nat.mul_comm] at h1
  omega

theorem divCeil_le_of_le_mul (a b c : Nat) (hb : 0 < b) (h : a ≤ c * b) : divCeil a b ≤ c := by
  unfold divCeil
  have : (a + b - 1) / b < c + 1 := by
    rw [Nat.div_lt_iff_lt_mul hb, Nat.add_mul]
    omega
  omega

theorem divCeil_pos (a b : Nat) (ha : 0 < a) (hb : 0 < b) : 0 < divCeil a b := by
  have := divCeil_mul_ge a b hb
  rcases Nat.eq_zero_or_pos (divCeil a b) with h | h
  · rw [h] at this; omega
  · exact h

theorem range_append_range' (a b : Nat) : List.range a ++ List.range' a b = List.range (a + b) := by
  simp only [List.range_eq_range']
  rw [List.range'_append_1.symm]
  simp

theorem flatMap_chunks (len cs c : Nat) :
    (List.range c).flatMap (threadChunk len cs) = List.range (min (c * cs) len) := by
  induction c with
  | zero => simp
  | succ c ih =>
    rw [List.range_succ, List.flatMap_append, ih]
    simp only [List.flatMap_cons, List.flatMap_nil, List.append_nil, threadChunk]
    by_cases h : c * cs ≤ len
    · rw [Nat.min_eq_left h, range_append_range', Nat.add_mul]
      congr 1
      omega
    · have e : min cs (len - c * cs) = 0 := by omega
      rw [e, Nat.min_eq_right (by omega), Nat.min_eq_right (by rw [Nat.add_mul]; omega)]
      simp

/-- The chunks together are exactly `0, …, len - 1`. -/
theorem threadOrder_eq (threads len : Nat) (ht : 0 < threads) (hl : 0 < len) :
    threadOrder threads len = some (List.range len) := by
  have hc := divCeil_pos len threads hl ht
  unfold threadOrder
  rw [if_neg (by omega)]
  simp only
  rw [if_neg (by omega), flatMap_chunks]
  refine congrArg some (congrArg List.range ?_)
  have h1 : divCeil len (divCeil len threads) ≤ threads :=
    divCeil_le_of_le_mul _ _ _ hc (by rw [Nat.mul_comm]; exact divCeil_mul_ge len threads ht)
  rw [Nat.min_eq_right h1]
  exact Nat.min_eq_right (divCeil_mul_ge _ _ hc)

theorem runTasks_length {α : Type} (f : Nat → α → α) (order : List Nat) (xs : List α) :
    (runTasks order f xs).length = xs.length := by
  unfold runTasks
  induction order generalizing xs with
  | nil => rfl
  | cons a order ih => simp only [List.foldl_cons]; rw [ih]; simp

theorem runTasks_getElem? {α : Type} (f : Nat → α → α) (order : List Nat) (h : order.Nodup)
    (xs : List α) (i : Nat) :
    (runTasks order f xs)[i]? = if i ∈ order then (xs[i]?).map (f i) else xs[i]? := by
  unfold runTasks
  induction order generalizing xs with
  | nil => simp
  | cons a order ih =>
    simp only [List.foldl_cons]
    rw [ih (List.nodup_cons.mp h).2]
    by_cases e : a = i
    · subst e
      simp [(List.nodup_cons.mp h).1, List.getElem?_modify]
    · have e' : ¬ i = a := fun h => e h.symm
      simp [e, e', List.getElem?_modify]

/-- Any order in which every task is run once gives the same result. -/
theorem runTasks_perm {α : Type} (f : Nat → α → α) (order : List Nat) (xs : List α)
    (h : order.Perm (List.range xs.length)) : runTasks order f xs = xs.mapIdx f := by
  have hn : order.Nodup := h.nodup_iff.mpr List.nodup_range
  apply List.ext_getElem?
  intro i
  rw [runTasks_getElem? f order hn, List.getElem?_mapIdx]
  by_cases hi : i < xs.length
  · rw [if_pos (h.mem_iff.mpr (List.mem_range.mpr hi))]
  · have e : xs[i]? = none := List.getElem?_eq_none (by omega)
    rw [e]
    simp

theorem parallel_eq {α : Type} (threads : Nat) (f : Nat → α → α) (xs : List α) (ht : 0 < threads)
    (hx : 0 < xs.length) : parallel threads f xs = some (xs.mapIdx f) := by
  unfold parallel
  rw [threadOrder_eq _ _ ht hx, Option.map_some, runTasks_perm f _ _ (List.Perm.refl _)]

end Verif.Model
