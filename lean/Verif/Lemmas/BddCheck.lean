import Verif.Model.Bdd
/-
  A product checker for layered circuits: every reachable (slot, specification state) pair is
  followed from the output level down to the constants.  `check_sound` turns a successful check
  into equality with the specification for all inputs and all stale buffer contents.
-/
namespace Verif.Bdd
open Model

/-- Value of slot `j` computed without buffers; levels are listed from the output inwards. -/
def val (bit : Nat → Bool) : List (List Node) → Nat → Option Bool
  | [], j => if j = 0 then some false else if j = 1 then some true else none
  | l :: ls, j =>
    match l[j]? with
    | some (.cmux v hi lo) => if bit v then val bit ls hi else val bit ls lo
    | some .copy => val bit ls j
    | _ => none

/-- The first node of the last level is a `Cmux`. -/
def rootOk : List (List Node) → Bool
  | [] => false
  | [(.cmux _ _ _ :: _)] => true
  | [_] => false
  | _ :: l' :: ls => rootOk (l' :: ls)

theorem val_run (bit : Nat → Bool) : ∀ (ls done : List (List Node)) (prev next : Nat → Bool),
    (∀ j b, val bit done j = some b → prev j = b) → rootOk ls = true →
    ∀ b, val bit (ls.reverse ++ done) 0 = some b → runLevels bit ls prev next = some b
  | [], _, _, _, _, hr, _, _ => by simp [rootOk] at hr
  | [last], done, prev, next, hp, hr, b, hv => by
    match last, hr with
    | .cmux v hi lo :: rest, _ =>
      simp only [List.reverse_cons, List.reverse_nil, List.nil_append, List.cons_append, val,
        List.getElem?_cons_zero] at hv
      simp only [runLevels, Option.some_inj]
      split
      · next h => rw [h] at hv; exact hp _ _ (by simpa using hv)
      · next h => exact hp _ _ (by simpa [h] using hv)
  | l :: l' :: ls, done, prev, next, hp, hr, b, hv => by
    simp only [runLevels]
    apply val_run bit (l' :: ls) (l :: done) _ _ _ (by simpa [rootOk] using hr) b
    · rw [← hv]; simp
    · intro j c hc
      simp only [val] at hc
      simp only [levelStep]
      cases hn : l[j]? with
      | none => simp [hn] at hc
      | some n =>
        cases n with
        | none => simp [hn] at hc
        | copy => simp only [hn] at hc ⊢; exact hp _ _ hc
        | cmux v hi lo =>
          simp only [hn] at hc ⊢
          split
          · next h => exact hp _ _ (by simpa [h] using hc)
          · next h => exact hp _ _ (by simpa [h] using hc)

/-- A specification automaton: a state either is a constant (`head = none`, value `out`) or
consults input `head` and moves to `step`. -/
structure Auto (σ : Type) where
  head : σ → Option Nat
  step : σ → Bool → σ
  out : σ → Bool

variable {σ : Type} [DecidableEq σ]

/-- Pairs one level further in.  `adv = false` forbids consuming specification inputs. -/
def expand (A : Auto σ) (fixed : Nat → Option Bool) (adv : Bool) (l : List Node) (p : Nat × σ) :
    Option (List (Nat × σ)) :=
  match l[p.1]? with
  | some (.cmux v hi lo) =>
    match fixed v with
    | some b => some [(if b then hi else lo, p.2)]
    | none =>
      if adv && A.head p.2 == some v then
        some [(hi, A.step p.2 true), (lo, A.step p.2 false)]
      else some [(hi, p.2), (lo, p.2)]
  | some .copy => some [p]
  | _ => none

def insertNew (p : Nat × σ) (acc : List (Nat × σ)) : List (Nat × σ) :=
  if acc.any (fun q => Nat.beq q.1 p.1 && decide (q.2 = p.2)) then acc else p :: acc

def expandAll (A : Auto σ) (fixed : Nat → Option Bool) (adv : Bool) (l : List Node) :
    List (Nat × σ) → List (Nat × σ) → Option (List (Nat × σ))
  | [], acc => some acc
  | p :: ps, acc =>
    match expand A fixed adv l p with
    | none => none
    | some qs => expandAll A fixed adv l ps (qs.foldr insertNew acc)

/-- `hold` = number of levels from the output in which no specification input is consumed. -/
def checkLevels (A : Auto σ) (fixed : Nat → Option Bool) :
    List (List Node) → Nat → List (Nat × σ) → Bool
  | [], _, ps => ps.all fun p =>
      match A.head p.2 with
      | none => Nat.beq p.1 (if A.out p.2 then 1 else 0)
      | some _ => false
  | l :: ls, hold, ps =>
    match expandAll A fixed (Nat.beq hold 0) l ps [] with
    | none => false
    | some qs => checkLevels A fixed ls (hold - 1) qs

theorem mem_insertNew {p q : Nat × σ} {acc : List (Nat × σ)} :
    q ∈ insertNew p acc ↔ q = p ∨ q ∈ acc := by
  unfold insertNew
  split
  · next h =>
    constructor
    · exact Or.inr
    · rintro (rfl | h')
      · obtain ⟨x, hx, he⟩ := List.any_eq_true.mp h
        simp only [Bool.and_eq_true, decide_eq_true_eq] at he
        have : x = q := Prod.ext (Nat.eq_of_beq_eq_true he.1) he.2
        exact this ▸ hx
      · exact h'
  · simp

theorem mem_foldr_insertNew {q : Nat × σ} {qs acc : List (Nat × σ)} :
    q ∈ qs.foldr insertNew acc ↔ q ∈ qs ∨ q ∈ acc := by
  induction qs with
  | nil => simp
  | cons x xs ih => simp [mem_insertNew, ih, or_assoc]

theorem mem_expandAll {A : Auto σ} {fixed : Nat → Option Bool} {adv : Bool} {l : List Node} :
    ∀ {ps acc res : List (Nat × σ)}, expandAll A fixed adv l ps acc = some res →
      (∀ q ∈ acc, q ∈ res) ∧ ∀ p ∈ ps, ∃ qs, expand A fixed adv l p = some qs ∧ ∀ q ∈ qs, q ∈ res := by
  intro ps
  induction ps with
  | nil =>
    intro acc res h
    simp only [expandAll, Option.some_inj] at h; subst h
    exact ⟨fun _ h => h, by simp⟩
  | cons p ps ih =>
    intro acc res h
    simp only [expandAll] at h
    cases he : expand A fixed adv l p with
    | none => simp [he] at h
    | some qs =>
      simp only [he] at h
      obtain ⟨h1, h2⟩ := ih h
      refine ⟨fun q hq => h1 q (mem_foldr_insertNew.mpr (Or.inr hq)), ?_⟩
      intro p' hp'
      rcases List.mem_cons.mp hp' with rfl | hp'
      · exact ⟨qs, he, fun q hq => h1 q (mem_foldr_insertNew.mpr (Or.inl hq))⟩
      · exact h2 p' hp'

theorem checkLevels_sound (A : Auto σ) (sem : σ → Bool) (bit : Nat → Bool)
    (fixed : Nat → Option Bool) (hfix : ∀ v b, fixed v = some b → bit v = b)
    (hstep : ∀ m v, A.head m = some v → sem m = sem (A.step m (bit v)))
    (hout : ∀ m, A.head m = none → sem m = A.out m) :
    ∀ (ls : List (List Node)) (hold : Nat) (ps : List (Nat × σ)),
      checkLevels A fixed ls hold ps = true → ∀ p ∈ ps, val bit ls p.1 = some (sem p.2) := by
  intro ls
  induction ls with
  | nil =>
    intro hold ps h p hp
    simp only [checkLevels, List.all_eq_true] at h
    have := h p hp
    cases hh : A.head p.2 with
    | some v => simp [hh] at this
    | none =>
      simp only [hh] at this
      have e := Nat.eq_of_beq_eq_true this
      rw [hout _ hh]
      cases ho : A.out p.2 <;> simp [ho] at e <;> simp [val, e]
  | cons l ls ih =>
    intro hold ps h p hp
    simp only [checkLevels] at h
    cases he : expandAll A fixed (Nat.beq hold 0) l ps [] with
    | none => simp [he] at h
    | some qs =>
      simp only [he] at h
      have ihq := ih _ qs h
      obtain ⟨rs, hr, hmem⟩ := (mem_expandAll he).2 p hp
      unfold expand at hr
      simp only [val]
      cases hn : l[p.1]? with
      | none => simp [hn] at hr
      | some n =>
        cases n with
        | none => simp [hn] at hr
        | copy =>
          simp only [hn, Option.some_inj] at hr
          subst hr
          exact ihq p (hmem p (by simp))
        | cmux v hi lo =>
          simp only [hn] at hr
          cases hf : fixed v with
          | some b =>
            simp only [hf, Option.some_inj] at hr
            subst hr
            have h1 := ihq _ (hmem _ (List.mem_singleton.mpr rfl))
            show (if bit v = true then val bit ls hi else val bit ls lo) = _
            rw [hfix v b hf]
            cases b <;> simpa using h1
          | none =>
            simp only [hf] at hr
            split at hr
            · next hc =>
              simp only [Bool.and_eq_true, beq_iff_eq] at hc
              simp only [Option.some_inj] at hr
              subst hr
              have h1 := ihq _ (hmem (hi, A.step p.2 true) (by simp))
              have h2 := ihq _ (hmem (lo, A.step p.2 false) (by simp))
              rw [hstep _ v hc.2]
              cases hb : bit v
              · simpa [hb] using h2
              · simpa [hb] using h1
            · simp only [Option.some_inj] at hr
              subst hr
              have h1 := ihq _ (hmem (hi, p.2) (by simp))
              have h2 := ihq _ (hmem (lo, p.2) (by simp))
              cases hb : bit v
              · simpa [hb] using h2
              · simpa [hb] using h1

/-- Full check of one circuit against start state `m`. -/
def checkCircuit (A : Auto σ) (fixed : Nat → Option Bool) (hold : Nat) (c : BitCircuit) (m : σ) : Bool :=
  if c.maxInterState = 0 then
    match A.head m with
    | none => !(A.out m)
    | some _ => false
  else rootOk c.levels && checkLevels A fixed c.levels.reverse hold [(0, m)]

theorem check_sound (A : Auto σ) (sem : σ → Bool) (bit : Nat → Bool)
    (fixed : Nat → Option Bool) (hfix : ∀ v b, fixed v = some b → bit v = b)
    (hstep : ∀ m v, A.head m = some v → sem m = sem (A.step m (bit v)))
    (hout : ∀ m, A.head m = none → sem m = A.out m)
    (hold : Nat) (c : BitCircuit) (m : σ) (h : checkCircuit A fixed hold c m = true)
    (s0 s1 : Nat → Bool) : c.run bit s0 s1 = some (sem m) := by
  unfold checkCircuit at h
  unfold BitCircuit.run
  split at h
  · next h0 =>
    rw [if_pos h0]
    cases hh : A.head m with
    | some v => simp [hh] at h
    | none =>
      simp only [hh, Bool.not_eq_true'] at h
      rw [hout _ hh, h]
  · next h0 =>
    rw [if_neg h0]
    simp only [Bool.and_eq_true] at h
    apply val_run bit c.levels [] _ _ _ h.1
    · have := checkLevels_sound A sem bit fixed hfix hstep hout _ hold _ h.2 (0, m) (by simp)
      simpa using this
    · intro j b hj
      simp only [val] at hj
      split at hj
      · next h => simp_all
      · next h => split at hj <;> simp_all

/-! ### Well-formedness: no dependence on stale contents -/

/-- `Cmux` and `Copy` nodes read slots defined by the level below, inputs below `nin`. -/
def nodeOk (nin : Nat) (defd : Nat → Bool) (j : Nat) : Node → Bool
  | .cmux v hi lo => Nat.blt v nin && defd hi && defd lo
  | .copy => defd j
  | .none => true

def levelOk (nin : Nat) (defd : Nat → Bool) : Nat → List Node → Bool
  | _, [] => true
  | j, n :: ns => nodeOk nin defd j n && levelOk nin defd (j + 1) ns

/-- Slots defined by a level (bottom: slots 0 and 1). -/
def definedBy : List (List Node) → Nat → Bool
  | [], j => Nat.beq j 0 || Nat.beq j 1
  | l :: _, j =>
    match l[j]? with
    | some (.cmux ..) => true
    | some .copy => true
    | _ => false

/-- All levels, listed from the output inwards, have `w` nodes and read only defined slots. -/
def levelsOk (nin w : Nat) : List (List Node) → Bool
  | [] => true
  | l :: ls => Nat.beq l.length w && levelOk nin (definedBy ls) 0 l && levelsOk nin w ls

def wellFormed (nin : Nat) (c : BitCircuit) : Bool :=
  if c.maxInterState = 0 then c.nodes.isEmpty
  else rootOk c.levels && levelsOk nin c.maxInterState c.levels.reverse

theorem levelOk_get {nin : Nat} {defd : Nat → Bool} : ∀ {l : List Node} {j : Nat},
    levelOk nin defd j l = true → ∀ i n, l[i]? = some n → nodeOk nin defd (j + i) n = true := by
  intro l
  induction l with
  | nil => simp
  | cons x xs ih =>
    intro j h i n hi
    simp only [levelOk, Bool.and_eq_true] at h
    cases i with
    | zero => simp at hi; subst hi; exact h.1
    | succ i =>
      have := ih h.2 i n (by simpa using hi)
      rwa [show j + 1 + i = j + (i + 1) by omega] at this

theorem val_defined {nin w : Nat} (bit : Nat → Bool) : ∀ (ls : List (List Node)),
    levelsOk nin w ls = true → ∀ j, definedBy ls j = true → ∃ b, val bit ls j = some b := by
  intro ls
  induction ls with
  | nil =>
    intro _ j hj
    simp only [definedBy, Bool.or_eq_true] at hj
    rcases hj with h | h
    · exact ⟨false, by simp [val, Nat.eq_of_beq_eq_true h]⟩
    · exact ⟨true, by simp [val, Nat.eq_of_beq_eq_true h]⟩
  | cons l ls ih =>
    intro h j hj
    simp only [levelsOk, Bool.and_eq_true] at h
    have ihs := ih h.2
    simp only [definedBy] at hj
    simp only [val]
    cases hn : l[j]? with
    | none => simp [hn] at hj
    | some n =>
      have hok := levelOk_get h.1.2 j n hn
      cases n with
      | none => simp [hn] at hj
      | copy => exact ihs j (by simpa [nodeOk] using hok)
      | cmux v hi lo =>
        simp only [nodeOk, Bool.and_eq_true] at hok
        cases hb : bit v
        · obtain ⟨b, hb'⟩ := ihs lo hok.2; exact ⟨b, by simpa [hb] using hb'⟩
        · obtain ⟨b, hb'⟩ := ihs hi hok.1.2; exact ⟨b, by simpa [hb] using hb'⟩

theorem rootOk_defined : ∀ (ls : List (List Node)), rootOk ls = true →
    definedBy ls.reverse 0 = true
  | [], h => by simp [rootOk] at h
  | [l], h => by
    match l, h with
    | .cmux v hi lo :: _, _ => rfl
  | l :: l' :: ls, h => by
    have ih := rootOk_defined (l' :: ls) (by simpa [rootOk] using h)
    rw [List.reverse_cons]
    cases hr : (l' :: ls).reverse with
    | nil => simp at hr
    | cons a as => rw [hr] at ih; simpa [definedBy] using ih

/-- A well-formed circuit never panics and its output does not depend on stale contents. -/
theorem wellFormed_run (nin : Nat) (c : BitCircuit) (h : wellFormed nin c = true) (bit : Nat → Bool) :
    ∃ b, ∀ s0 s1, c.run bit s0 s1 = some b := by
  unfold wellFormed at h
  unfold BitCircuit.run
  split at h
  · next h0 => exact ⟨false, fun _ _ => by rw [if_pos h0]⟩
  · next h0 =>
    simp only [Bool.and_eq_true] at h
    obtain ⟨b, hb⟩ := val_defined bit _ h.2 0 (rootOk_defined _ h.1)
    refine ⟨b, fun s0 s1 => ?_⟩
    rw [if_neg h0]
    apply val_run bit c.levels [] _ _ _ h.1 b (by simpa using hb)
    intro j b hj
    simp only [val] at hj
    split at hj
    · simp_all
    · split at hj <;> simp_all

/-- The inputs consulted are below `nin`: outputs agree on assignments that agree below `nin`. -/
theorem val_congr {nin w : Nat} (bit bit' : Nat → Bool) (hb : ∀ v, v < nin → bit v = bit' v) :
    ∀ (ls : List (List Node)), levelsOk nin w ls = true → ∀ j, val bit ls j = val bit' ls j := by
  intro ls
  induction ls with
  | nil => intro _ j; rfl
  | cons l ls ih =>
    intro h j
    simp only [levelsOk, Bool.and_eq_true] at h
    have ihs := ih h.2
    simp only [val]
    cases hn : l[j]? with
    | none => rfl
    | some n =>
      have hok := levelOk_get h.1.2 j n hn
      cases n with
      | none => rfl
      | copy => exact ihs j
      | cmux v hi lo =>
        simp only [nodeOk, Bool.and_eq_true] at hok
        simp only [hb v (Nat.blt_eq.mp hok.1.1), ihs hi, ihs lo]

end Verif.Bdd
