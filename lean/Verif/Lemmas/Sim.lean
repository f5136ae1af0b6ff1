import Verif.Model.Library
import Verif.Lemmas.Threads
/-
  Memory operations preserve any relation between libraries.
-/
namespace Verif.Model

section rel
variable {α β γ δ : Type} {R : α → β → Prop} {S : γ → δ → Prop}

theorem ORel.map {f : α → γ} {g : β → δ} (h : ∀ a b, R a b → S (f a) (g b)) {o : Option α}
    {o' : Option β} (ho : ORel R o o') : ORel S (o.map f) (o'.map g) := by
  cases o <;> cases o'
  · trivial
  · exact ho.elim
  · exact ho.elim
  · exact h _ _ ho

theorem ORel.bind {f : α → Option γ} {g : β → Option δ} (h : ∀ a b, R a b → ORel S (f a) (g b))
    {o : Option α} {o' : Option β} (ho : ORel R o o') : ORel S (o.bind f) (o'.bind g) := by
  cases o <;> cases o'
  · trivial
  · exact ho.elim
  · exact ho.elim
  · exact h _ _ ho

theorem ORel.isSome {o : Option α} {o' : Option β} (ho : ORel R o o') : o.isSome = o'.isSome := by
  cases o <;> cases o'
  · rfl
  · exact ho.elim
  · exact ho.elim
  · rfl

theorem ORel.of_some {o : Option α} {b : β} (ho : ORel R o (some b)) : ∃ a, o = some a ∧ R a b := by
  cases o with
  | none => exact ho.elim
  | some a => exact ⟨a, rfl, ho⟩

theorem ORel.of_some_left {a : α} {o' : Option β} (ho : ORel R (some a) o') :
    ∃ b, o' = some b ∧ R a b := by
  cases o' with
  | none => exact ho.elim
  | some b => exact ⟨b, rfl, ho⟩

theorem LRel.length {l : List α} {l' : List β} (h : LRel R l l') : l.length = l'.length := by
  have key : ∀ i, i < l.length ↔ i < l'.length := by
    intro i
    have := (h i).isSome
    by_cases h1 : i < l.length <;> by_cases h2 : i < l'.length
    · simp [h1, h2]
    · rw [List.getElem?_eq_getElem h1, List.getElem?_eq_none (by omega)] at this
      cases this
    · rw [List.getElem?_eq_none (by omega), List.getElem?_eq_getElem h2] at this
      cases this
    · simp [h1, h2]
  have h1 := key l.length
  have h2 := key l'.length
  omega

theorem LRel.get {l : List α} {l' : List β} (h : LRel R l l') {i : Nat} {a : α} {b : β}
    (ha : l[i]? = some a) (hb : l'[i]? = some b) : R a b := by
  have := h i
  rw [ha, hb] at this
  exact this

theorem LRel.nil : LRel R [] [] := fun i => by simp [ORel]

theorem LRel.cons {a : α} {b : β} {l : List α} {l' : List β} (h : R a b) (hl : LRel R l l') :
    LRel R (a :: l) (b :: l') := by
  intro i
  cases i with
  | zero => exact h
  | succ i => simpa using hl i

theorem LRel.uncons {a : α} {b : β} {l : List α} {l' : List β} (h : LRel R (a :: l) (b :: l')) :
    R a b ∧ LRel R l l' := by
  refine ⟨?_, fun i => ?_⟩
  · have := h 0
    simpa [ORel] using this
  · have := h (i + 1)
    simpa using this

theorem LRel.map {f : α → γ} {g : β → δ} (h : ∀ a b, R a b → S (f a) (g b)) {l : List α}
    {l' : List β} (hl : LRel R l l') : LRel S (l.map f) (l'.map g) := by
  intro i
  rw [List.getElem?_map, List.getElem?_map]
  exact ORel.map h (hl i)

theorem LRel.mapIdx {f : Nat → α → γ} {g : Nat → β → δ} (h : ∀ i a b, R a b → S (f i a) (g i b))
    {l : List α} {l' : List β} (hl : LRel R l l') : LRel S (l.mapIdx f) (l'.mapIdx g) := by
  intro i
  rw [List.getElem?_mapIdx, List.getElem?_mapIdx]
  exact ORel.map (h i) (hl i)

theorem LRel.modify {f : α → α} {g : β → β} (h : ∀ a b, R a b → R (f a) (g b)) {l : List α}
    {l' : List β} (hl : LRel R l l') (k : Nat) : LRel R (l.modify k f) (l'.modify k g) := by
  intro i
  rw [List.getElem?_modify, List.getElem?_modify]
  refine ORel.map ?_ (hl i)
  intro a b hab
  by_cases e : k = i
  · simp only [e, if_true]
    exact h a b hab
  · simp only [e, if_false]
    exact hab

theorem LRel.replicate {a : α} {b : β} (h : R a b) (n : Nat) :
    LRel R (List.replicate n a) (List.replicate n b) := by
  intro i
  rw [List.getElem?_replicate, List.getElem?_replicate]
  by_cases e : i < n
  · simp only [e, if_true]
    exact h
  · simp only [e, if_false]
    trivial

theorem LRel.map_range {f : Nat → γ} {g : Nat → δ} (n : Nat) (h : ∀ i, i < n → S (f i) (g i)) :
    LRel S ((List.range n).map f) ((List.range n).map g) := by
  intro i
  rw [List.getElem?_map, List.getElem?_map]
  by_cases e : i < n
  · rw [List.getElem?_range e]
    exact h i e
  · rw [List.getElem?_eq_none (by simp; omega)]
    trivial

theorem LRel.collect {l : List (Option α)} {l' : List (Option β)} (h : LRel (ORel R) l l') :
    ORel (LRel R) (Model.collect l) (Model.collect l') := by
  induction l generalizing l' with
  | nil =>
    have := h.length
    cases l' with
    | nil => exact LRel.nil
    | cons => simp at this
  | cons a l ih =>
    cases l' with
    | nil =>
      have := h.length
      simp at this
    | cons b l' =>
      obtain ⟨hab, hl⟩ := h.uncons
      cases a <;> cases b
      · trivial
      · exact hab.elim
      · exact hab.elim
      · exact ORel.map (S := LRel R) (fun _ _ hr => LRel.cons hab hr) (ih hl)

theorem LRel.parallel {f : Nat → α → α} {g : Nat → β → β} (h : ∀ i a b, R a b → R (f i a) (g i b))
    {l : List α} {l' : List β} (hl : LRel R l l') (threads : Nat) :
    ORel (LRel R) (Model.parallel threads f l) (Model.parallel threads g l') := by
  unfold Model.parallel
  rw [hl.length]
  cases threadOrder threads l'.length with
  | none => trivial
  | some order =>
    show LRel R (runTasks order f l) (runTasks order g l')
    unfold runTasks
    induction order generalizing l l' with
    | nil => exact hl
    | cons a order ih => exact ih (LRel.modify (h a) hl a)

theorem LRel.of_eq {l l' : List α} : LRel Eq l l' ↔ l = l' := by
  constructor
  · intro h
    apply List.ext_getElem?
    intro i
    have := h i
    cases h1 : l[i]? <;> cases h2 : l'[i]? <;> rw [h1, h2] at this <;> simp_all [ORel]
  · rintro rfl i
    cases l[i]? <;> simp [ORel]

end rel

variable {B B' : Backend} (S : Sim B B')

/-- Related bit arrays. -/
structure BitArray.Rel (b : BitArray B) (b' : BitArray B') : Prop where
  data : LRel S.G b.data b'.data
  bitSize : b.bitSize = b'.bitSize

/-- Related memories. -/
structure Memory.Rel (m : Memory B) (m' : Memory B') : Prop where
  bits : LRel (BitArray.Rel S) m.bits m'.bits
  size : m.size = m'.size
  bitSize : m.bitSize = m'.bitSize
  state : m.state = m'.state

variable {S}

theorem BitArray.Rel.forward {b : BitArray B} {b' : BitArray B'} (h : BitArray.Rel S b b') {p p'}
    (hp : S.P p p') (offset : Nat) : LRel S.G (b.forward p offset) (b'.forward p' offset) := by
  unfold BitArray.forward
  simp only
  rw [h.bitSize, S.logN]
  refine LRel.modify (fun a a' ha => S.blindRotate _ _ _ _ ha hp) ?_ 0
  split
  · exact S.retrieval _ _ h.data hp
  · exact h.data

theorem BitArray.Rel.backward {b : BitArray B} {b' : BitArray B'} (h : BitArray.Rel S b b') {p p'}
    (hp : S.P p p') {w w'} (hw : S.G w w') (offset : Nat) :
    LRel S.G (b.backward w p offset) (b'.backward w' p' offset) := by
  unfold BitArray.backward
  simp only
  rw [h.bitSize, S.logN]
  have key := LRel.modify (fun a a' ha => S.blindRotate true offset (min B'.logN b'.bitSize) 0 ha hp)
    (LRel.modify (fun a a' ha => S.normalize (S.add ha hw))
      (LRel.modify (fun a a' ha => S.sub ha (S.trace ha)) h.data 0) 0) 0
  split
  · exact S.retrievalRev _ _ key hp
  · exact key

theorem BitArray.Rel.write {b : BitArray B} {b' : BitArray B'} (h : BitArray.Rel S b b') {p p'}
    (hp : S.P p p') {w w'} (hw : S.G w w') (offset : Nat) :
    BitArray.Rel S (b.write w p offset) (b'.write w' p' offset) :=
  ⟨BitArray.Rel.backward (b := { b with data := b.forward p offset })
    (b' := { b' with data := b'.forward p' offset }) ⟨h.forward hp offset, h.bitSize⟩ hp hw offset,
    h.bitSize⟩

theorem BitArray.Rel.retrieveStateless {b : BitArray B} {b' : BitArray B'} (h : BitArray.Rel S b b')
    {p p'} (hp : S.P p p') (offset : Nat) :
    S.G (b.retrieveStateless p offset) (b'.retrieveStateless p' offset) := by
  unfold BitArray.retrieveStateless
  rw [h.bitSize, S.logN]
  exact S.blindRotate _ _ _ _ (S.retrieve _ h.data hp) hp

theorem BitArray.Rel.zeroAt {b : BitArray B} {b' : BitArray B'} (h : BitArray.Rel S b b')
    (poly idx : Nat) : BitArray.Rel S (b.zeroAt poly idx) (b'.zeroAt poly idx) :=
  ⟨LRel.modify (fun _ _ ha => S.rotate _ (S.sub (S.rotate _ ha) (S.trace (S.rotate _ ha)))) h.data _,
    h.bitSize⟩

theorem Memory.Rel.withTmp {m : Memory B} {m' : Memory B'} (h : Memory.Rel S m m') :
    LRel (fun x x' => BitArray.Rel S x.1 x'.1 ∧ ORel S.G x.2 x'.2) m.withTmp m'.withTmp :=
  LRel.map (fun _ _ hb => ⟨hb, trivial⟩) h.bits

theorem isEmpty_eq {α β : Type} {l : List α} {l' : List β} (h : l.length = l'.length) :
    l.isEmpty = l'.isEmpty := by
  cases l <;> cases l' <;> simp_all

theorem Memory.Rel.readStateless {m : Memory B} {m' : Memory B'} (h : Memory.Rel S m m')
    (threads : Nat) {p p'} (hp : S.P p p') (offset : Nat) :
    ORel S.U (m.readStateless threads p offset) (m'.readStateless threads p' offset) := by
  unfold Memory.readStateless
  rw [isEmpty_eq h.bits.length, h.state]
  split
  · trivial
  split
  · trivial
  refine ORel.bind ?_ (LRel.parallel
    (R := fun x x' => BitArray.Rel S x.1 x'.1 ∧ ORel S.G x.2 x'.2) ?_ h.withTmp threads)
  · intro l l' hl
    refine ORel.map (fun _ _ hr => S.pack hr) (LRel.collect (LRel.map ?_ hl))
    intro x x' hx
    exact hx.2
  · intro _ x x' hx
    exact ⟨hx.1, hx.1.retrieveStateless hp offset⟩

theorem Memory.Rel.readStatefull {m : Memory B} {m' : Memory B'} (h : Memory.Rel S m m')
    (threads : Nat) {p p'} (hp : S.P p p') (offset : Nat) :
    ORel (fun x x' => Memory.Rel S x.1 x'.1 ∧ S.U x.2 x'.2) (m.readStatefull threads p offset)
      (m'.readStatefull threads p' offset) := by
  unfold Memory.readStatefull
  rw [isEmpty_eq h.bits.length, h.state]
  split
  · trivial
  split
  · trivial
  refine ORel.bind ?_ (LRel.parallel
    (R := fun x x' => BitArray.Rel S x.1 x'.1 ∧ ORel S.G x.2 x'.2) ?_ h.withTmp threads)
  · intro l l' hl
    refine ORel.map (fun _ _ hr => ⟨⟨LRel.map (fun _ _ hx => hx.1) hl, h.size, h.bitSize, rfl⟩, S.pack hr⟩)
      (LRel.collect (LRel.map ?_ hl))
    intro x x' hx
    exact hx.2
  · intro _ x x' hx
    exact ⟨⟨hx.1.forward hp offset, hx.1.bitSize⟩, hx.1.forward hp offset 0⟩

theorem Memory.Rel.readStatefullRev {m : Memory B} {m' : Memory B'} (h : Memory.Rel S m m')
    (threads : Nat) {w w'} (hw : S.U w w') {p p'} (hp : S.P p p') (offset : Nat) :
    ORel (Memory.Rel S) (m.readStatefullRev threads w p offset)
      (m'.readStatefullRev threads w' p' offset) := by
  unfold Memory.readStatefullRev
  rw [h.state]
  split
  · trivial
  refine ORel.map (fun _ _ hl => ⟨hl, h.size, h.bitSize, rfl⟩)
    (LRel.parallel (R := BitArray.Rel S) ?_ h.bits threads)
  intro i b b' hb
  exact ⟨hb.backward hp (S.getBit i hw) offset, hb.bitSize⟩

theorem Memory.Rel.write {m : Memory B} {m' : Memory B'} (h : Memory.Rel S m m')
    (threads : Nat) {w w'} (hw : S.U w w') {p p'} (hp : S.P p p') (offset : Nat) :
    ORel (Memory.Rel S) (m.write threads w p offset) (m'.write threads w' p' offset) := by
  unfold Memory.write
  rw [h.state]
  split
  · trivial
  refine ORel.map (fun _ _ hl => ⟨hl, h.size, h.bitSize, rfl⟩)
    (LRel.parallel (R := BitArray.Rel S) ?_ h.bits threads)
  intro i b b' hb
  exact hb.write hp (S.getBit i hw) offset

theorem Memory.Rel.zero {m : Memory B} {m' : Memory B'} (h : Memory.Rel S m m')
    (threads addr : Nat) : ORel (Memory.Rel S) (m.zero threads addr) (m'.zero threads addr) := by
  unfold Memory.zero
  simp only
  rw [S.logN]
  have e : (m.bits.any fun b => decide (b.data.length ≤ addr / 2 ^ B'.logN))
      = (m'.bits.any fun b => decide (b.data.length ≤ addr / 2 ^ B'.logN)) := by
    have hb := h.bits
    generalize m.bits = l at hb
    generalize m'.bits = l' at hb
    induction l generalizing l' with
    | nil =>
      have := hb.length
      cases l' with
      | nil => rfl
      | cons => simp at this
    | cons a l ih =>
      cases l' with
      | nil => have := hb.length; simp at this
      | cons b l' =>
        obtain ⟨h1, h2⟩ := hb.uncons
        simp only [List.any_cons]
        rw [ih l' h2, h1.data.length]
  rw [e]
  split
  · trivial
  refine ORel.map (fun _ _ hl => ⟨hl, h.size, h.bitSize, h.state⟩)
    (LRel.parallel (R := BitArray.Rel S) ?_ h.bits threads)
  intro i b b' hb
  exact hb.zeroAt _ _

theorem Memory.alloc_rel (K size : Nat) :
    ORel (Memory.Rel S) (Memory.alloc B K size) (Memory.alloc B' K size) := by
  unfold Memory.alloc
  split
  · trivial
  · refine ⟨LRel.replicate ⟨?_, rfl⟩ _, rfl, rfl, rfl⟩
    unfold BitArray.alloc
    rw [S.logN]
    exact LRel.replicate S.glweZero _

end Verif.Model
