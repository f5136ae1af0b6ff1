import Verif.Spec.Segments
/-
  Grouping of sections into segments.
-/
namespace Verif.Model.Link
open Spec

/-- What `outSecs` keeps: a section with pieces, or one kept without. -/
theorem mem_outSecs (o : OutSec) : ∀ (ss : List (Sect × Option Bool × Bool)) (w : Bool), o ∈ outSecs w ss →
    o.nobits = false ∧ o.sect ∈ ss.map (·.1)
  | [], w, h => by cases h
  | (s, some v, b) :: r, w, h => by
    rcases List.mem_cons.mp h with rfl | h
    · exact ⟨rfl, List.mem_cons_self⟩
    · obtain ⟨h1, h2⟩ := mem_outSecs o r v h
      exact ⟨h1, List.mem_cons_of_mem _ h2⟩
  | (s, none, true) :: r, w, h => by
    rcases List.mem_cons.mp h with rfl | h
    · exact ⟨rfl, List.mem_cons_self⟩
    · obtain ⟨h1, h2⟩ := mem_outSecs o r w h
      exact ⟨h1, List.mem_cons_of_mem _ h2⟩
  | (s, none, false) :: r, w, h => by
    obtain ⟨h1, h2⟩ := mem_outSecs o r w h
    exact ⟨h1, List.mem_cons_of_mem _ h2⟩

theorem outSecs_sublist : ∀ (ss : List (Sect × Option Bool × Bool)) (w : Bool),
    ((outSecs w ss).map (·.sect)).Sublist (ss.map (·.1))
  | [], w => List.Sublist.slnil
  | (s, some v, b) :: r, w => (outSecs_sublist r v).cons₂ s
  | (s, none, true) :: r, w => (outSecs_sublist r w).cons₂ s
  | (s, none, false) :: r, w => (outSecs_sublist r w).cons s

theorem outSecs_has (s : Sect) (v : Option Bool) (b : Bool) (hb : v ≠ none ∨ b = true) :
    ∀ (ss : List (Sect × Option Bool × Bool)) (w : Bool), (s, v, b) ∈ ss → ∃ o ∈ outSecs w ss, o.sect = s ∧ o.nobits = false
  | [], w, h => by cases h
  | (t, some u, x) :: r, w, h => by
    rcases List.mem_cons.mp h with e | h
    · cases e; exact ⟨_, List.mem_cons_self, rfl, rfl⟩
    · obtain ⟨o, h1, h2⟩ := outSecs_has s v b hb r u h
      exact ⟨o, List.mem_cons_of_mem _ h1, h2⟩
  | (t, none, true) :: r, w, h => by
    rcases List.mem_cons.mp h with e | h
    · cases e; exact ⟨_, List.mem_cons_self, rfl, rfl⟩
    · obtain ⟨o, h1, h2⟩ := outSecs_has s v b hb r w h
      exact ⟨o, List.mem_cons_of_mem _ h1, h2⟩
  | (t, none, false) :: r, w, h => by
    rcases List.mem_cons.mp h with e | h
    · cases e; rcases hb with hb | hb
      · exact absurd rfl hb
      · cases hb
    · exact outSecs_has s v b hb r w h

/-- The groups of sections in ascending order. -/
structure Grouped (ss : List OutSec) (gs : List Group) : Prop where
  order : gs.Pairwise fun a b => a.last.addr + a.last.size ≤ b.first.addr
  first : ∀ g ∈ gs, ∃ o ∈ ss, o.sect = g.first ∧ o.write = g.write ∧ o.nobits = g.nobits
  last : ∀ g ∈ gs, ∃ o ∈ ss, o.sect = g.last ∧ o.write = g.write ∧ o.nobits = g.nobits
  up : ∀ g ∈ gs, g.first.addr ≤ g.last.addr + g.last.size
  cover : ∀ o ∈ ss, ∃ g ∈ gs, g.first.addr ≤ o.sect.addr ∧ o.sect.addr + o.sect.size ≤ g.last.addr + g.last.size ∧
    g.write = o.write ∧ g.nobits = o.nobits

theorem grouped : ∀ (ss : List OutSec), ss.Pairwise (fun a b => a.sect.addr + a.sect.size ≤ b.sect.addr) →
    Grouped ss (ss.foldr join [])
  | [], _ => ⟨List.Pairwise.nil, nofun, nofun, nofun, nofun⟩
  | s :: ss, h => by
    obtain ⟨h1, h2⟩ := List.pairwise_cons.mp h
    have ih := grouped ss h2
    rw [List.foldr_cons]
    cases hg : ss.foldr join [] with
    | nil =>
      rw [hg] at ih
      have hnil : ss = [] := by
        cases ss with
        | nil => rfl
        | cons a r => obtain ⟨g, hg, -⟩ := ih.cover a List.mem_cons_self; cases hg
      subst hnil
      refine ⟨List.pairwise_singleton _ _, ?_, ?_, ?_, ?_⟩
      · intro g hg; rw [List.mem_singleton.mp hg]; exact ⟨s, List.mem_cons_self, rfl, rfl, rfl⟩
      · intro g hg; rw [List.mem_singleton.mp hg]; exact ⟨s, List.mem_cons_self, rfl, rfl, rfl⟩
      · intro g hg; rw [List.mem_singleton.mp hg]; exact Nat.le_add_right _ _
      · intro o ho; rw [List.mem_singleton.mp ho]
        exact ⟨_, List.mem_cons_self, Nat.le_refl _, Nat.le_refl _, rfl, rfl⟩
    | cons a gs =>
      rw [hg] at ih
      obtain ⟨o1, o2⟩ := List.pairwise_cons.mp ih.order
      obtain ⟨f, f1, f2, f3, f4⟩ := ih.first a List.mem_cons_self
      have hfa := h1 f f1
      have hup := ih.up a List.mem_cons_self
      rw [f2] at hfa
      by_cases hc : a.write = s.write ∧ a.nobits = s.nobits
      · have hj : join s (a :: gs) = { a with first := s.sect } :: gs := if_pos hc
        rw [hj]
        refine ⟨List.pairwise_cons.mpr ⟨o1, o2⟩, ?_, ?_, ?_, ?_⟩
        · intro g hg'
          rcases List.mem_cons.mp hg' with rfl | hg'
          · exact ⟨s, List.mem_cons_self, rfl, hc.1.symm, hc.2.symm⟩
          · obtain ⟨o, q1, q2⟩ := ih.first g (List.mem_cons_of_mem _ hg')
            exact ⟨o, List.mem_cons_of_mem _ q1, q2⟩
        · intro g hg'
          rcases List.mem_cons.mp hg' with rfl | hg'
          · obtain ⟨o, q1, q2⟩ := ih.last a List.mem_cons_self
            exact ⟨o, List.mem_cons_of_mem _ q1, q2⟩
          · obtain ⟨o, q1, q2⟩ := ih.last g (List.mem_cons_of_mem _ hg')
            exact ⟨o, List.mem_cons_of_mem _ q1, q2⟩
        · intro g hg'
          rcases List.mem_cons.mp hg' with rfl | hg'
          · simp only; omega
          · exact ih.up g (List.mem_cons_of_mem _ hg')
        · intro o ho
          rcases List.mem_cons.mp ho with rfl | ho
          · exact ⟨_, List.mem_cons_self, Nat.le_refl _, by simp only; omega, hc.1, hc.2⟩
          · obtain ⟨g, q1, q2, q3⟩ := ih.cover o ho
            rcases List.mem_cons.mp q1 with rfl | q1
            · exact ⟨_, List.mem_cons_self, by simp only; omega, q3⟩
            · exact ⟨g, List.mem_cons_of_mem _ q1, q2, q3⟩
      · have hj : join s (a :: gs) = ⟨s.sect, s.sect, s.write, s.nobits⟩ :: a :: gs := if_neg hc
        rw [hj]
        refine ⟨List.pairwise_cons.mpr ⟨?_, ih.order⟩, ?_, ?_, ?_, ?_⟩
        · intro g hg'
          rcases List.mem_cons.mp hg' with rfl | hg'
          · exact hfa
          · have := o1 g hg'
            simp only; omega
        · intro g hg'
          rcases List.mem_cons.mp hg' with rfl | hg'
          · exact ⟨s, List.mem_cons_self, rfl, rfl, rfl⟩
          · obtain ⟨o, q1, q2⟩ := ih.first g hg'
            exact ⟨o, List.mem_cons_of_mem _ q1, q2⟩
        · intro g hg'
          rcases List.mem_cons.mp hg' with rfl | hg'
          · exact ⟨s, List.mem_cons_self, rfl, rfl, rfl⟩
          · obtain ⟨o, q1, q2⟩ := ih.last g hg'
            exact ⟨o, List.mem_cons_of_mem _ q1, q2⟩
        · intro g hg'
          rcases List.mem_cons.mp hg' with rfl | hg'
          · exact Nat.le_add_right _ _
          · exact ih.up g hg'
        · intro o ho
          rcases List.mem_cons.mp ho with rfl | ho
          · exact ⟨_, List.mem_cons_self, Nat.le_refl _, Nat.le_refl _, rfl, rfl⟩
          · obtain ⟨g, q1, q2⟩ := ih.cover o ho
            exact ⟨g, List.mem_cons_of_mem _ q1, q2⟩

theorem congruent_spec (off addr : Nat) : off ≤ congruent off addr ∧ congruent off addr < off + 4096 ∧
    congruent off addr % 4096 = addr % 4096 := by
  unfold congruent PAGE
  omega

/-- The segment of a group, wherever it is in the file. -/
theorem mem_phdrs (q : Phdr) : ∀ (gs : List Group) (off : Nat), q ∈ phdrs off gs →
    ∃ g ∈ gs, q.ptype = 1 ∧ q.flags = (if g.write then 6 else 4) ∧ q.vaddr = g.first.addr ∧ q.memsz = g.size ∧
      q.filesz = (if g.nobits then 0 else g.size)
  | [], off, h => by cases h
  | g :: gs, off, h => by
    rcases List.mem_cons.mp h with rfl | h
    · exact ⟨g, List.mem_cons_self, rfl, rfl, rfl, rfl, rfl⟩
    · obtain ⟨g', h1, h2⟩ := mem_phdrs q gs _ h
      exact ⟨g', List.mem_cons_of_mem _ h1, h2⟩

theorem phdrs_has (g : Group) : ∀ (gs : List Group) (off : Nat), g ∈ gs → ∃ q ∈ phdrs off gs, q.ptype = 1 ∧
    q.flags = (if g.write then 6 else 4) ∧ q.vaddr = g.first.addr ∧ q.memsz = g.size ∧
      q.filesz = (if g.nobits then 0 else g.size)
  | [], off, h => by cases h
  | a :: gs, off, h => by
    rcases List.mem_cons.mp h with rfl | h
    · exact ⟨_, List.mem_cons_self, rfl, rfl, rfl, rfl, rfl⟩
    · obtain ⟨q, h1, h2⟩ := phdrs_has g gs (congruent off a.first.addr + if a.nobits then 0 else a.size) h
      exact ⟨q, List.mem_cons_of_mem _ h1, h2⟩

theorem phdrs_order : ∀ (gs : List Group) (off : Nat), (∀ g ∈ gs, g.first.addr ≤ g.last.addr + g.last.size) →
    gs.Pairwise (fun a b => a.last.addr + a.last.size ≤ b.first.addr) →
    (phdrs off gs).Pairwise fun a b => a.vaddr + a.memsz ≤ b.vaddr
  | [], off, _, _ => List.Pairwise.nil
  | g :: gs, off, hu, h => by
    obtain ⟨h1, h2⟩ := List.pairwise_cons.mp h
    refine List.pairwise_cons.mpr ⟨fun q hq => ?_, phdrs_order gs _ (fun g hg => hu g (List.mem_cons_of_mem _ hg)) h2⟩
    obtain ⟨g', k1, -, -, k2, -⟩ := mem_phdrs q gs _ hq
    have := h1 g' k1
    have := hu g List.mem_cons_self
    rw [k2]
    show g.first.addr + g.size ≤ _
    unfold Group.size
    omega

theorem body_cons (img : Nat → BitVec 8) (off : Nat) (g : Group) (gs : List Group) :
    body img off (g :: gs) = List.replicate (congruent off g.first.addr - off) 0#8 ++
      ((List.range (if g.nobits then 0 else g.size)).map fun i => img (g.first.addr + i)) ++
      body img (congruent off g.first.addr + if g.nobits then 0 else g.size) gs := rfl

/-- The bytes of a segment in the file. -/
theorem body_at (img : Nat → BitVec 8) (q : Phdr) : ∀ (gs : List Group) (off : Nat), q ∈ phdrs off gs →
    off ≤ q.offset ∧ q.offset + q.filesz ≤ off + (body img off gs).length ∧
      ∀ i, i < q.filesz → (body img off gs)[q.offset - off + i]? = some (img (q.vaddr + i))
  | [], off, h => by cases h
  | g :: gs, off, h => by
    obtain ⟨c1, -, -⟩ := congruent_spec off g.first.addr
    rcases List.mem_cons.mp h with rfl | h
    · refine ⟨c1, ?_, fun i hi => ?_⟩
      · simp only [body, List.length_append, List.length_replicate, List.length_map, List.length_range]
        omega
      · simp only at hi ⊢
        unfold body
        rw [List.append_assoc, List.getElem?_append_right (by simp), List.length_replicate,
          List.getElem?_append_left (by simp; omega), List.getElem?_map, List.getElem?_range (by omega)]
        simp
    · obtain ⟨i1, i2, i3⟩ := body_at img q gs _ h
      refine ⟨by omega, ?_, fun i hi => ?_⟩
      · simp only [body, List.length_append, List.length_replicate, List.length_map, List.length_range]
        omega
      · rw [← i3 i hi]
        rw [body_cons, List.getElem?_append_right]
        · refine congrArg (fun n : Nat => (body img (congruent off g.first.addr + if g.nobits then 0 else g.size) gs)[n]?) ?_
          simp only [List.length_append, List.length_replicate, List.length_map, List.length_range]
          omega
        · simp only [List.length_append, List.length_replicate, List.length_map, List.length_range]
          omega

end Verif.Model.Link
