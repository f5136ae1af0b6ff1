import Verif.Spec.Select
import Verif.Lemmas.Link
/-
  Names and patterns, and the marking phase of the collector.
-/
namespace Verif.Model.Link
open Verif.Spec

/-! ### Patterns -/

/-- Whether two patterns can have a name in common. -/
def Pat.overlap : Pat → Pat → Bool
  | .exact s, .exact t => s == t
  | .exact s, .sub t => (t.toList ++ ['.']).isPrefixOf s.toList
  | .sub s, .exact t => (s.toList ++ ['.']).isPrefixOf t.toList
  | .sub s, .sub t =>
    (s.toList ++ ['.']).isPrefixOf (t.toList ++ ['.']) || (t.toList ++ ['.']).isPrefixOf (s.toList ++ ['.'])

theorem overlap_of_matches {p q : Pat} {n : String} (hp : p.matches n = true) (hq : q.matches n = true) :
    p.overlap q = true := by
  cases p with
  | exact s => cases q with
    | exact t =>
      have e1 : n = s := eq_of_beq hp
      have e2 : n = t := eq_of_beq hq
      show (s == t) = true
      rw [← e1, ← e2]
      exact beq_self_eq_true _
    | sub t =>
      have e1 : n = s := eq_of_beq hp
      rw [← e1]
      exact hq
  | sub s => cases q with
    | exact t =>
      have e2 : n = t := eq_of_beq hq
      rw [← e2]
      exact hp
    | sub t =>
      have h1 : (s.toList ++ ['.']) <+: n.toList := List.isPrefixOf_iff_prefix.mp hp
      have h2 : (t.toList ++ ['.']) <+: n.toList := List.isPrefixOf_iff_prefix.mp hq
      show ((s.toList ++ ['.']).isPrefixOf (t.toList ++ ['.']) ||
        (t.toList ++ ['.']).isPrefixOf (s.toList ++ ['.'])) = true
      rw [Bool.or_eq_true, List.isPrefixOf_iff_prefix, List.isPrefixOf_iff_prefix]
      exact List.prefix_or_prefix_of_prefix h1 h2

theorem rules_apart : rules.all (fun r => rules.all fun r' =>
    decide (r.part = r'.part) || r.pats.all fun p => r'.pats.all fun q => !p.overlap q) = true := by
  decide +kernel

theorem rules_parts : (rules.map (·.part)).Nodup := by decide

theorem rule_unique {r r' : Rule} {n : String} (hr : r ∈ rules) (hr' : r' ∈ rules) (h : r.matches n = true)
    (h' : r'.matches n = true) : r = r' := by
  have key := List.all_eq_true.mp (List.all_eq_true.mp rules_apart r hr) r' hr'
  obtain ⟨p, hp, mp⟩ := List.any_eq_true.mp h
  obtain ⟨q, hq, mq⟩ := List.any_eq_true.mp h'
  rw [Bool.or_eq_true] at key
  rcases key with key | key
  · have e : r.part = r'.part := of_decide_eq_true key
    obtain ⟨i, hi, ei⟩ := List.getElem_of_mem hr
    obtain ⟨j, hj, ej⟩ := List.getElem_of_mem hr'
    have hij : (rules.map (·.part))[i]'(by simpa using hi) = (rules.map (·.part))[j]'(by simpa using hj) := by
      rw [List.getElem_map, List.getElem_map, ei, ej, e]
    have : i = j := (List.getElem_inj rules_parts).mp hij
    subst this
    rw [← ei, ← ej]
  · have k1 := List.all_eq_true.mp (List.all_eq_true.mp key p hp) q hq
    rw [overlap_of_matches mp mq] at k1
    exact absurd k1 (by decide)

theorem ruleOf_iff {n : String} {r : Rule} : ruleOf n = some r ↔ r ∈ rules ∧ r.matches n = true := by
  constructor
  · intro h
    exact ⟨List.mem_of_find?_eq_some h, List.find?_some (p := fun r : Rule => r.matches n) h⟩
  · rintro ⟨hr, hm⟩
    unfold ruleOf
    cases h : rules.find? (·.matches n) with
    | none => exact absurd hm (List.find?_eq_none.mp h r hr)
    | some r' => rw [rule_unique hr (List.mem_of_find?_eq_some h) hm
        (List.find?_some (p := fun r : Rule => r.matches n) h)]

theorem matches_exact (s n : String) : (Pat.exact s).matches n = true ↔ n = s := beq_iff_eq

theorem matches_sub (s n : String) : (Pat.sub s).matches n = true ↔ ∃ t, n.toList = s.toList ++ '.' :: t := by
  show (s.toList ++ ['.']).isPrefixOf n.toList = true ↔ _
  rw [List.isPrefixOf_iff_prefix]
  constructor
  · rintro ⟨t, h⟩
    exact ⟨t, by rw [← h]; simp⟩
  · rintro ⟨t, h⟩
    exact ⟨t, by rw [h]; simp⟩

theorem partOf_iff (n : String) (p : Part) : partOf n = some p ↔ ∃ r ∈ rules, r.part = p ∧ r.matches n = true := by
  unfold partOf
  constructor
  · intro h
    obtain ⟨r, hr, e⟩ := Option.map_eq_some_iff.mp h
    exact ⟨r, (ruleOf_iff.mp hr).1, e, (ruleOf_iff.mp hr).2⟩
  · rintro ⟨r, hr, e, hm⟩
    rw [ruleOf_iff.mpr ⟨hr, hm⟩]
    exact congrArg some e

theorem partOf_named (n : String) (p : Part) : partOf n = some p ↔ Named n p := by
  rw [partOf_iff]
  cases p <;>
    simp only [rules, List.mem_cons, List.not_mem_nil, or_false, exists_eq_or_imp, exists_eq_left, reduceCtorEq, false_and,
      true_and, false_or, or_false, Rule.matches, List.any_cons, List.any_nil, Bool.or_false, Bool.or_eq_true,
      matches_exact, matches_sub, Named, Family, or_assoc]

theorem kept_iff (n : String) : kept n = true ↔ MustStay n := by
  have key : kept n = true ↔ ∃ r ∈ rules, r.keep = true ∧ r.matches n = true := by
    unfold kept
    constructor
    · intro h
      cases hr : ruleOf n with
      | none => rw [hr] at h; exact absurd h (by decide)
      | some r =>
        rw [hr] at h
        exact ⟨r, (ruleOf_iff.mp hr).1, h, (ruleOf_iff.mp hr).2⟩
    · rintro ⟨r, hr, hk, hm⟩
      rw [ruleOf_iff.mpr ⟨hr, hm⟩]
      exact hk
  rw [key]
  simp only [rules, List.mem_cons, List.not_mem_nil, or_false, exists_eq_or_imp, exists_eq_left, Bool.false_eq_true, false_and,
      true_and, false_or, or_false, Rule.matches, List.any_cons, List.any_nil, Bool.or_false, Bool.or_eq_true,
      matches_exact, matches_sub, MustStay, Family]

/-! ### Marking -/

theorem refsOf_some {is : List InSec} {k : Nat} {s : InSec} (h : is[k]? = some s) : refsOf is k = s.refs := by
  unfold refsOf; rw [h]; rfl

theorem refsOf_none {is : List InSec} {k : Nat} (h : is.length ≤ k) : refsOf is k = [] := by
  unfold refsOf; rw [List.getElem?_eq_none h]; rfl

theorem mem_roots {is : List InSec} {k : Nat} : k ∈ roots is ↔ ∃ s, is[k]? = some s ∧ (MustStay s.name ∨ s.entry = true) := by
  unfold roots
  rw [List.mem_filter, List.mem_range]
  constructor
  · rintro ⟨hk, h⟩
    rw [List.getElem?_eq_getElem hk] at h
    exact ⟨_, List.getElem?_eq_getElem hk, (Bool.or_eq_true _ _ ▸ h).imp (kept_iff _).mp id⟩
  · rintro ⟨s, hs, hm⟩
    refine ⟨(List.getElem?_eq_some_iff.mp hs).1, ?_⟩
    rw [hs]
    exact (Bool.or_eq_true _ _).mpr (hm.imp (kept_iff _).mpr id)

/-- Only needed sections get marked. -/
theorem mark_sound (is : List InSec) : ∀ (f : Nat) (q m : List Nat), (∀ k ∈ q, Needed is k) → (∀ k ∈ m, Needed is k) →
    ∀ k ∈ mark is f q m, Needed is k
  | 0, _, _, _, hm => hm
  | _ + 1, [], _, _, hm => hm
  | f + 1, k :: q, m, hq, hm => by
    unfold mark
    split
    · exact mark_sound is f q m (fun x hx => hq x (List.mem_cons_of_mem _ hx)) hm
    · refine mark_sound is f _ _ ?_ ?_
      · intro x hx
        rcases List.mem_append.mp hx with hx | hx
        · by_cases hk : k < is.length
          · rw [refsOf_some (List.getElem?_eq_getElem hk)] at hx
            exact .ref (hq k (by simp)) (List.getElem?_eq_getElem hk) hx
          · rw [refsOf_none (by omega)] at hx
            simp at hx
        · exact hq x (List.mem_cons_of_mem _ hx)
      · intro x hx
        rcases List.mem_cons.mp hx with rfl | hx
        · exact hq x (by simp)
        · exact hm x hx

/-- What is left to follow: the references of the sections that are not marked. -/
def unseen (is : List InSec) (m : List Nat) : Nat :=
  (((List.range is.length).filter fun k => decide (k ∉ m)).map fun k => (refsOf is k).length).sum

theorem sum_filter_split (f : Nat → Nat) (k : Nat) : ∀ (l : List Nat) (m : List Nat), l.Nodup → k ∉ m → k ∈ l →
    ((l.filter fun x => decide (x ∉ m)).map f).sum = ((l.filter fun x => decide (x ∉ k :: m)).map f).sum + f k := by
  intro l m
  induction l with
  | nil => intro _ _ h; simp at h
  | cons a l ih =>
    intro hd hm hk
    obtain ⟨ha, hd⟩ := List.nodup_cons.mp hd
    by_cases e : k = a
    · subst e
      have same : (l.filter fun x => decide (x ∉ k :: m)) = l.filter fun x => decide (x ∉ m) := by
        apply List.filter_congr
        intro x hx
        have : x ≠ k := fun h => ha (h ▸ hx)
        simp [this]
      rw [List.filter_cons_of_pos (by simpa using hm), List.filter_cons_of_neg (by simp), same, List.map_cons, List.sum_cons]
      omega
    · have hk' : k ∈ l := by
        rcases List.mem_cons.mp hk with h | h
        · exact absurd h e
        · exact h
      have := ih hd hm hk'
      have hne : ¬ a = k := fun h => e h.symm
      by_cases ham : a ∈ m
      · rw [List.filter_cons_of_neg (by simpa using ham), List.filter_cons_of_neg (by simp [ham])]
        exact this
      · rw [List.filter_cons_of_pos (by simpa using ham), List.filter_cons_of_pos (by simp [ham, hne]), List.map_cons,
          List.map_cons, List.sum_cons, List.sum_cons, this]
        omega

theorem unseen_cons (is : List InSec) (k : Nat) (m : List Nat) (hk : k ∉ m) :
    (refsOf is k).length + unseen is (k :: m) = unseen is m := by
  unfold unseen
  by_cases h : k < is.length
  · rw [sum_filter_split _ k _ _ List.nodup_range hk (List.mem_range.mpr h)]
    omega
  · rw [refsOf_none (by omega), List.length_nil, Nat.zero_add]
    congr 2
    apply List.filter_congr
    intro x hx
    have : x ≠ k := fun e => h (e ▸ List.mem_range.mp hx)
    simp [this]

/-- With enough fuel everything in the queue gets marked, and the marks are closed under references. -/
theorem mark_complete (is : List InSec) : ∀ (f : Nat) (q m : List Nat), q.length + unseen is m ≤ f →
    (∀ k ∈ m, ∀ j ∈ refsOf is k, j ∈ m ∨ j ∈ q) →
    (∀ k, k ∈ q ∨ k ∈ m → k ∈ mark is f q m) ∧ ∀ k ∈ mark is f q m, ∀ j ∈ refsOf is k, j ∈ mark is f q m
  | 0, q, m, hf, hc => by
    have : q = [] := List.length_eq_zero_iff.mp (by omega)
    subst this
    refine ⟨fun k hk => by simpa [mark] using hk, fun k hk j hj => ?_⟩
    simpa [mark] using hc k hk j hj
  | f + 1, [], m, hf, hc => by
    refine ⟨fun k hk => by simpa [mark] using hk, fun k hk j hj => ?_⟩
    simpa [mark] using hc k hk j hj
  | f + 1, k :: q, m, hf, hc => by
    simp only [List.length_cons] at hf
    by_cases hk : k ∈ m
    · have e : mark is (f + 1) (k :: q) m = mark is f q m := by
        conv => lhs; unfold mark
        rw [if_pos hk]
      rw [e]
      obtain ⟨h1, h2⟩ := mark_complete is f q m (by omega) (fun x hx j hj => by
        rcases hc x hx j hj with h | h
        · exact .inl h
        · rcases List.mem_cons.mp h with rfl | h
          · exact .inl hk
          · exact .inr h)
      refine ⟨fun x hx => h1 x ?_, h2⟩
      rcases hx with hx | hx
      · rcases List.mem_cons.mp hx with rfl | hx
        · exact .inr hk
        · exact .inl hx
      · exact .inr hx
    · have e : mark is (f + 1) (k :: q) m = mark is f (refsOf is k ++ q) (k :: m) := by
        conv => lhs; unfold mark
        rw [if_neg hk]
      rw [e]
      have hu := unseen_cons is k m hk
      obtain ⟨h1, h2⟩ := mark_complete is f (refsOf is k ++ q) (k :: m)
        (by rw [List.length_append]; omega) (fun x hx j hj => by
          rcases List.mem_cons.mp hx with rfl | hx
          · exact .inr (List.mem_append.mpr (.inl hj))
          · rcases hc x hx j hj with h | h
            · exact .inl (List.mem_cons_of_mem _ h)
            · rcases List.mem_cons.mp h with rfl | h
              · exact .inl (by simp)
              · exact .inr (List.mem_append.mpr (.inr h)))
      refine ⟨fun x hx => h1 x ?_, h2⟩
      rcases hx with hx | hx
      · rcases List.mem_cons.mp hx with rfl | hx
        · exact .inr (by simp)
        · exact .inl (List.mem_append.mpr (.inr hx))
      · exact .inr (List.mem_cons_of_mem _ hx)

theorem unseen_nil (is : List InSec) : unseen is [] = (is.map fun s => s.refs.length).sum := by
  unfold unseen
  rw [List.filter_eq_self.mpr (by intro a _; simp)]
  congr 1
  apply List.ext_getElem
  · simp
  · intro i h1 h2
    rw [List.getElem_map, List.getElem_map, List.getElem_range, refsOf_some (List.getElem?_eq_getElem (by simpa using h2))]

theorem mem_live_true {is : List InSec} {k : Nat} : k ∈ live true is ↔ Needed is k := by
  unfold live
  rw [if_pos rfl]
  constructor
  · refine mark_sound is _ _ _ (fun x hx => ?_) (fun x hx => by simp at hx) k
    obtain ⟨s, hs, hm⟩ := mem_roots.mp hx
    exact .root hs hm
  · intro h
    obtain ⟨h1, h2⟩ := mark_complete is ((roots is).length + ((is.map fun s => s.refs.length).sum)) (roots is) []
      (by rw [unseen_nil]; exact Nat.le_refl _) (fun x hx => by simp at hx)
    induction h with
    | root hs hm => exact h1 _ (.inl (mem_roots.mpr ⟨_, hs, hm⟩))
    | ref _ hs hj ih =>
      refine h2 _ ih _ ?_
      rw [refsOf_some hs]
      exact hj

theorem mem_live {gc : Bool} {is : List InSec} {k : Nat} (hk : k < is.length) : k ∈ live gc is ↔ Stays gc is k := by
  cases gc with
  | true => rw [mem_live_true]; exact ⟨fun h _ => h, fun h => h rfl⟩
  | false =>
    have : k ∈ live false is ↔ k < is.length := by unfold live; rw [if_neg (by decide), List.mem_range]
    rw [this]
    exact Iff.intro (fun _ h => Bool.noConfusion h) (fun _ => hk)

/-! ### Descriptions -/

theorem mem_taken {gc : Bool} {is : List InSec} {p : Part} {k : Nat} :
    k ∈ taken gc is p ↔ ∃ s, is[k]? = some s ∧ Stays gc is k ∧ Named s.name p := by
  unfold taken
  rw [List.mem_filter, List.mem_range, Bool.and_eq_true, decide_eq_true_eq]
  constructor
  · rintro ⟨hk, hl, h⟩
    rw [List.getElem?_eq_getElem hk] at h
    exact ⟨_, List.getElem?_eq_getElem hk, (mem_live hk).mp hl, (partOf_named _ _).mp (eq_of_beq h)⟩
  · rintro ⟨s, hs, hl, hn⟩
    have hk := (List.getElem?_eq_some_iff.mp hs).1
    refine ⟨hk, (mem_live hk).mpr hl, ?_⟩
    rw [hs]
    show (partOf s.name == some p) = true
    rw [(partOf_named _ _).mpr hn]
    exact beq_self_eq_true _

theorem taken_nodup (gc : Bool) (is : List InSec) (p : Part) : (taken gc is p).Nodup :=
  List.Pairwise.filter _ List.nodup_range

theorem named_unique {n : String} {p q : Part} (hp : Named n p) (hq : Named n q) : p = q := by
  rw [← partOf_named] at hp hq
  rw [hp] at hq
  exact Option.some.inj hq

/-- The pieces of a list of sections that exist. -/
theorem filterMap_piece {is : List InSec} : ∀ (ks : List Nat), (∀ k ∈ ks, k < is.length) →
    (ks.filterMap fun k => is[k]?.map (·.piece)).length = ks.length ∧
    ∀ i k : Nat, ks[i]? = some k → (ks.filterMap fun k => is[k]?.map (·.piece))[i]? = is[k]?.map (·.piece)
  | [], _ => ⟨rfl, fun i k h => by simp at h⟩
  | k :: ks, h => by
    obtain ⟨h1, h2⟩ := filterMap_piece ks (fun x hx => h x (List.mem_cons_of_mem _ hx))
    have hk' : k < is.length := h k (by simp)
    have hk : is[k]? = some is[k] := List.getElem?_eq_getElem hk'
    have e : ((k :: ks).filterMap fun k => is[k]?.map (·.piece)) = is[k].piece :: ks.filterMap fun k => is[k]?.map (·.piece) := by
      rw [List.filterMap_cons, hk]; rfl
    rw [e]
    refine ⟨by simp [h1], fun i x hx => ?_⟩
    cases i with
    | zero =>
      simp only [List.getElem?_cons_zero, Option.some.injEq] at hx
      subst hx
      rw [hk]; rfl
    | succ i => exact h2 i x hx

end Verif.Model.Link
