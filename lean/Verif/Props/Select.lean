import Verif.Lemmas.Select
import Verif.Props.Layout
/-
  C84: which sections of a guest are in the program, and where.
-/
namespace Verif.Props
open Model Spec Model.Link

/-- The linker script puts a section where its name says, and no name is claimed by two of its descriptions. -/
theorem C84_names (n : String) :
    (∀ p, partOf n = some p ↔ Named n p) ∧ ∀ p q, Named n p → Named n q → p = q :=
  ⟨partOf_named n, fun _ _ => named_unique⟩

example : partOf ".text.main" = some .text ∧ partOf ".init.rust" = some .initRust ∧ partOf ".rodata..L__unnamed_1" = some .rodata ∧
    partOf ".data.rel.ro" = some .data ∧ partOf ".init_array" = none ∧ partOf ".textual" = none := by decide +kernel

/-- The collector keeps exactly what is reached from the start-up code, the entry symbol and the tapes. -/
theorem C84_live (is : List InSec) (k : Nat) : k ∈ live true is ↔ Needed is k := mem_live_true

/-- The start-up code and both tapes stay, whatever refers to them. -/
theorem C84_kept (gc : Bool) (is : List InSec) (k : Nat) (s : InSec) (h : is[k]? = some s)
    (hn : s.name = ".init" ∨ s.name = ".init.rust" ∨ s.name = ".inpdata" ∨ s.name = ".outdata") :
    k ∈ live gc is := by
  have hk := (List.getElem?_eq_some_iff.mp h).1
  refine (mem_live hk).mpr fun _ => .root h (.inl ?_)
  unfold MustStay
  rcases hn with h | h | h | h <;> simp [h]

/-- The link is refused in the selection of sections exactly if a section that stays refers to a discarded one. -/
theorem C84_refused (gc : Bool) (is : List InSec) : select gc is = none ↔
    ∃ (k j : Nat) (s t : InSec), is[k]? = some s ∧ Stays gc is k ∧ ¬ Named s.name .discard ∧ j ∈ s.refs ∧ is[j]? = some t ∧
      Named t.name .discard := by
  have hd : ∀ k, discarded is k = true ↔ ∃ s, is[k]? = some s ∧ Named s.name .discard := by
    intro k
    unfold discarded
    constructor
    · intro h
      cases hs : is[k]? with
      | none => rw [hs] at h; exact absurd h (by decide)
      | some s =>
        rw [hs] at h
        exact ⟨s, rfl, (partOf_named _ _).mp (eq_of_beq h)⟩
    · rintro ⟨s, hs, hn⟩
      rw [hs]
      show (partOf s.name == some .discard) = true
      rw [(partOf_named _ _).mpr hn]
      exact beq_self_eq_true _
  unfold select
  split
  · next h =>
    obtain ⟨k, hk, h⟩ := List.any_eq_true.mp h
    have hk := List.mem_range.mp hk
    rw [Bool.and_eq_true, Bool.and_eq_true, decide_eq_true_eq] at h
    obtain ⟨⟨h1, h2⟩, h3⟩ := h
    obtain ⟨j, hj, h4⟩ := List.any_eq_true.mp h3
    rw [refsOf_some (List.getElem?_eq_getElem hk)] at hj
    obtain ⟨t, ht, hn⟩ := (hd j).mp h4
    refine ⟨fun _ => ⟨k, j, is[k], t, List.getElem?_eq_getElem hk, (mem_live hk).mp h1, fun hx => ?_, hj, ht, hn⟩, fun _ => rfl⟩
    rw [(hd k).mpr ⟨_, List.getElem?_eq_getElem hk, hx⟩] at h2
    exact absurd h2 (by decide)
  · next h =>
    refine ⟨fun h => absurd h (by simp), ?_⟩
    rintro ⟨k, j, s, t, hs, hl, hn, hj, ht, hm⟩
    have hk := (List.getElem?_eq_some_iff.mp hs).1
    refine absurd (List.any_eq_true.mpr ⟨k, List.mem_range.mpr hk, ?_⟩) h
    rw [Bool.and_eq_true, Bool.and_eq_true, decide_eq_true_eq]
    refine ⟨⟨(mem_live hk).mpr hl, ?_⟩, List.any_eq_true.mpr ⟨j, by rw [refsOf_some hs]; exact hj, (hd j).mpr ⟨t, ht, hm⟩⟩⟩
    cases hx : discarded is k with
    | false => rfl
    | true =>
      obtain ⟨s', hs', hn'⟩ := (hd k).mp hx
      rw [hs] at hs'
      cases hs'
      exact absurd hn' hn

example : select true [⟨".init", ⟨8, 4⟩, [1], true⟩, ⟨".debug.x", ⟨8, 4⟩, [], false⟩] = none ∧
    (select true [⟨".init", ⟨8, 4⟩, [], true⟩, ⟨".text.f", ⟨8, 4⟩, [2], false⟩, ⟨".debug.x", ⟨8, 4⟩, [], false⟩]).isSome = true := by decide +kernel

/-- Sections with the addresses of an output section. -/
structure Placing (is : List InSec) (S : Sect) (ks as : List Nat) : Prop where
  range : ∀ k ∈ ks, k < is.length
  nodup : ks.Nodup
  placed : PlacedIn S (ks.filterMap fun k => is[k]?.map (·.piece)) as

namespace Placing
variable {is : List InSec} {S : Sect} {ks as : List Nat}

theorem len (h : Placing is S ks as) : as.length = ks.length := by
  rw [h.placed.1, (filterMap_piece ks h.range).1]

theorem at_ (h : Placing is S ks as) {i k : Nat} (hk : ks[i]? = some k) :
    ∃ s, is[k]? = some s ∧ (ks.filterMap fun k => is[k]?.map (·.piece))[i]? = some s.piece := by
  have hr := h.range k (List.mem_of_getElem? hk)
  refine ⟨is[k], List.getElem?_eq_getElem hr, ?_⟩
  rw [(filterMap_piece ks h.range).2 i k hk, List.getElem?_eq_getElem hr]
  rfl

theorem mem {k a : Nat} (hm : (k, a) ∈ ks.zip as) : ∃ i : Nat, ks[i]? = some k ∧ as[i]? = some a := by
  obtain ⟨i, hi⟩ := List.getElem?_of_mem hm
  exact ⟨i, (List.getElem?_zip_eq_some.mp hi).1, (List.getElem?_zip_eq_some.mp hi).2⟩

theorem bounds (h : Placing is S ks as) {k a : Nat} (hm : (k, a) ∈ ks.zip as) :
    ∃ s, is[k]? = some s ∧ s.piece.align ∣ a ∧ S.addr ≤ a ∧ a + s.piece.size ≤ S.addr + S.size := by
  obtain ⟨i, h1, h2⟩ := mem hm
  obtain ⟨s, hs, hp⟩ := h.at_ h1
  exact ⟨s, hs, h.placed.2.1 i _ _ hp h2⟩

theorem total (h : Placing is S ks as) {k : Nat} (hk : k ∈ ks) : ∃ a, (k, a) ∈ ks.zip as := by
  obtain ⟨i, hi⟩ := List.getElem?_of_mem hk
  have hl : i < as.length := by rw [h.len]; exact (List.getElem?_eq_some_iff.mp hi).1
  exact ⟨as[i], List.mem_of_getElem? (List.getElem?_zip_eq_some.mpr ⟨hi, List.getElem?_eq_getElem hl⟩)⟩

/-- In the order of the list. -/
theorem order (h : Placing is S ks as) {i j k a k' a' : Nat} (hij : i < j) (h1 : ks[i]? = some k) (h2 : as[i]? = some a)
    (_ : ks[j]? = some k') (h4 : as[j]? = some a') (s : InSec) (hs : is[k]? = some s) : a + s.piece.size ≤ a' := by
  obtain ⟨s', hs', hp⟩ := h.at_ h1
  rw [hs] at hs'
  cases hs'
  exact h.placed.2.2 i j _ _ _ hij hp h2 h4

theorem inj (h : Placing is S ks as) {i j k : Nat} (h1 : ks[i]? = some k) (h2 : ks[j]? = some k) : i = j := by
  obtain ⟨hi, ei⟩ := List.getElem?_eq_some_iff.mp h1
  obtain ⟨hj, ej⟩ := List.getElem?_eq_some_iff.mp h2
  exact (List.getElem_inj h.nodup).mp (ei.trans ej.symm)

end Placing

/-- One output section: where it is, what is in it, and the descriptions it consists of. -/
structure OutGroup where
  sect : Sect
  parts : List Part
  keys : List Nat
  addrs : List Nat

theorem taken_append_nodup {gc : Bool} {is : List InSec} {ks : List Nat} {p : Part} (h : ks.Nodup)
    (hd : ∀ k ∈ ks, k ∉ taken gc is p) : (ks ++ taken gc is p).Nodup :=
  List.nodup_append.mpr ⟨h, taken_nodup gc is p, fun a ha _ hb e => hd a ha (e ▸ hb)⟩

theorem taken_apart {gc : Bool} {is : List InSec} {p q : Part} (hpq : p ≠ q) : ∀ k ∈ taken gc is p, k ∉ taken gc is q := by
  intro k hk hk'
  obtain ⟨s, hs, -, hn⟩ := mem_taken.mp hk
  obtain ⟨s', hs', -, hn'⟩ := mem_taken.mp hk'
  rw [hs] at hs'
  cases hs'
  exact hpq (named_unique hn hn')

theorem taken_range {gc : Bool} {is : List InSec} {p : Part} : ∀ k ∈ taken gc is p, k < is.length := by
  intro k hk
  obtain ⟨s, hs, -⟩ := mem_taken.mp hk
  exact (List.getElem?_eq_some_iff.mp hs).1

theorem pieces_valid {gc : Bool} {is : List InSec} (hv : ∀ s ∈ is, Piece.Valid s.piece) (p : Part) :
    ∀ q ∈ pieces gc is p, Piece.Valid q := by
  intro q hq
  obtain ⟨k, -, e⟩ := List.mem_filterMap.mp hq
  obtain ⟨s, hs, rfl⟩ := Option.map_eq_some_iff.mp e
  exact hv s (List.mem_of_getElem? hs)

theorem select_inv {gc : Bool} {is : List InSec} {g : Guest} (h : select gc is = some g) :
    g = ⟨pieces gc is .init, pieces gc is .initRust, pieces gc is .text, pieces gc is .inp, pieces gc is .out,
      pieces gc is .srodata ++ pieces gc is .rodata, pieces gc is .sdata ++ pieces gc is .data, pieces gc is .bss,
      pieces gc is .got⟩ := by
  unfold select at h
  split at h
  · cases h
  · exact (Option.some.inj h).symm

theorem select_valid {gc : Bool} {is : List InSec} {g : Guest} (hv : ∀ s ∈ is, Piece.Valid s.piece)
    (h : select gc is = some g) : Guest.Valid g := by
  rw [select_inv h]
  intro p hp
  simp only [List.mem_append] at hp
  have := @pieces_valid gc is hv
  rcases hp with ((((((((h | h) | h) | h) | h) | (h | h)) | (h | h))) | h) <;> exact this _ p h

theorem pieces_length (gc : Bool) (is : List InSec) (p : Part) : (pieces gc is p).length = (taken gc is p).length :=
  (filterMap_piece _ taken_range).1

/-- The output sections of a link, with the sections in them. -/
def outGroups (gc : Bool) (is : List InSec) (g : Guest) (l : Layout) : List OutGroup :=
  let t := taken gc is
  [⟨l.text, [.init, .initRust, .text], t .init ++ t .initRust ++ t .text, textAddrs g⟩,
   ⟨l.inp, [.inp], t .inp, addrs l.inp.addr g.inp⟩, ⟨l.out, [.out], t .out, addrs l.out.addr g.out⟩,
   ⟨l.rodata, [.srodata, .rodata], t .srodata ++ t .rodata, addrs l.rodata.addr g.rodata⟩,
   ⟨l.data, [.sdata, .data], t .sdata ++ t .data, addrs l.data.addr g.data⟩,
   ⟨l.bss, [.bss], t .bss, addrs l.bss.addr g.bss⟩]

theorem groups_placing {gc : Bool} {is : List InSec} {g : Guest} {l : Layout} (hv : ∀ s ∈ is, Piece.Valid s.piece)
    (hg : select gc is = some g) (hl : link g = some l) : ∀ x ∈ outGroups gc is g l, Placing is x.sect x.keys x.addrs := by
  have hV := select_valid hv hg
  obtain ⟨-, -, -, -, hpt, -⟩ := text_placed hV hl
  obtain ⟨-, -, -, v4, v5, v6, v7, v8⟩ := valid_parts hV
  obtain ⟨-, e1, e2, e3, e4, e5, -⟩ := link_inv hl
  have c1 := (section_spec v4 RAM_ORIGIN).2.2.1
  have c2 := (section_spec v5 l.inp.stop).2.2.1
  have c3 := (rodata_spec v6 l.out.stop).2.2.2.1
  have c4 := (section_spec v7 l.rodata.stop).2.2.1
  have c5 := (section_spec v8 l.data.stop).2.2.1
  rw [← e1] at c1
  rw [← e2] at c2
  rw [← e3] at c3
  rw [← e4] at c4
  rw [← e5] at c5
  have q1 := placedIn_of v4 (s := l.inp) (by rw [c1]; exact Nat.le_refl _)
  have q2 := placedIn_of v5 (s := l.out) (by rw [c2]; exact Nat.le_refl _)
  have q3 := placedIn_of v6 (s := l.rodata) c3
  have q4 := placedIn_of v7 (s := l.data) (by rw [c4]; exact Nat.le_refl _)
  have q5 := placedIn_of v8 (s := l.bss) (by rw [c5]; exact Nat.le_refl _)
  have eg := select_inv hg
  have r := fun p => @taken_range gc is p
  have n := taken_nodup gc is
  intro x hx
  simp only [outGroups, List.mem_cons, List.not_mem_nil, or_false] at hx
  rcases hx with rfl | rfl | rfl | rfl | rfl | rfl
  · refine ⟨?_, ?_, ?_⟩
    · intro k hk
      rcases List.mem_append.mp hk with hk | hk
      · rcases List.mem_append.mp hk with hk | hk <;> exact r _ k hk
      · exact r _ k hk
    · refine taken_append_nodup (taken_append_nodup (n _) (taken_apart (by decide))) fun k hk => ?_
      rcases List.mem_append.mp hk with hk | hk <;> exact taken_apart (by decide) k hk
    · show PlacedIn l.text ((taken gc is .init ++ taken gc is .initRust ++ taken gc is .text).filterMap _) (textAddrs g)
      rw [List.filterMap_append, List.filterMap_append]
      rw [show g.init ++ g.initRust ++ g.text = pieces gc is .init ++ pieces gc is .initRust ++ pieces gc is .text by rw [eg]] at hpt
      exact hpt
  · exact ⟨r _, n _, by rw [show g.inp = pieces gc is .inp by rw [eg]] at q1 ⊢; exact q1⟩
  · exact ⟨r _, n _, by rw [show g.out = pieces gc is .out by rw [eg]] at q2 ⊢; exact q2⟩
  · refine ⟨?_, taken_append_nodup (n _) (taken_apart (by decide)), ?_⟩
    · intro k hk
      rcases List.mem_append.mp hk with hk | hk <;> exact r _ k hk
    · show PlacedIn l.rodata ((taken gc is .srodata ++ taken gc is .rodata).filterMap _) (addrs l.rodata.addr g.rodata)
      rw [List.filterMap_append]
      rw [show g.rodata = pieces gc is .srodata ++ pieces gc is .rodata by rw [eg]] at q3 ⊢
      exact q3
  · refine ⟨?_, taken_append_nodup (n _) (taken_apart (by decide)), ?_⟩
    · intro k hk
      rcases List.mem_append.mp hk with hk | hk <;> exact r _ k hk
    · show PlacedIn l.data ((taken gc is .sdata ++ taken gc is .data).filterMap _) (addrs l.data.addr g.data)
      rw [List.filterMap_append]
      rw [show g.data = pieces gc is .sdata ++ pieces gc is .data by rw [eg]] at q4 ⊢
      exact q4
  · exact ⟨r _, n _, by rw [show g.bss = pieces gc is .bss by rw [eg]] at q5 ⊢; exact q5⟩

theorem groups_parts {gc : Bool} {is : List InSec} {g : Guest} {l : Layout} : ∀ x ∈ outGroups gc is g l,
    (∀ p ∈ x.parts, l.part p = some x.sect) ∧ ∀ k, k ∈ x.keys ↔ ∃ p ∈ x.parts, k ∈ taken gc is p := by
  intro x hx
  simp only [outGroups, List.mem_cons, List.not_mem_nil, or_false] at hx
  rcases hx with rfl | rfl | rfl | rfl | rfl | rfl <;>
    simp [Layout.part]

/-- Numbers of one description ascend. -/
def Ascending (gc : Bool) (is : List InSec) (ks : List Nat) : Prop :=
  ks.Pairwise fun k k' => ∀ p, k ∈ taken gc is p → k' ∈ taken gc is p → k < k'

theorem taken_ascending (gc : Bool) (is : List InSec) (p : Part) : Ascending gc is (taken gc is p) :=
  (List.Pairwise.filter _ List.pairwise_lt_range).imp fun h _ _ _ => h

theorem ascending_append {gc : Bool} {is : List InSec} {ks : List Nat} {p : Part} (h : Ascending gc is ks)
    (hd : ∀ k ∈ ks, k ∉ taken gc is p) : Ascending gc is (ks ++ taken gc is p) := by
  refine List.pairwise_append.mpr ⟨h, taken_ascending gc is p, fun k hk k' hk' q h1 h2 => ?_⟩
  have : p = q := Decidable.byContradiction fun hne => taken_apart hne k' hk' h2
  exact absurd (this ▸ h1) (hd k hk)

theorem groups_ascending {gc : Bool} {is : List InSec} {g : Guest} {l : Layout} : ∀ x ∈ outGroups gc is g l,
    Ascending gc is x.keys := by
  have n := taken_ascending gc is
  intro x hx
  simp only [outGroups, List.mem_cons, List.not_mem_nil, or_false] at hx
  rcases hx with rfl | rfl | rfl | rfl | rfl | rfl
  · refine ascending_append (ascending_append (n _) (taken_apart (by decide))) fun k hk => ?_
    rcases List.mem_append.mp hk with hk | hk <;> exact taken_apart (by decide) k hk
  · exact n _
  · exact n _
  · exact ascending_append (n _) (taken_apart (by decide))
  · exact ascending_append (n _) (taken_apart (by decide))
  · exact n _

theorem groups_all {gc : Bool} {is : List InSec} {g : Guest} {l : Layout} {p : Part} {S : Sect} (h : l.part p = some S) :
    ∃ x ∈ outGroups gc is g l, p ∈ x.parts := by
  cases p <;> first | (simp [outGroups]; done) | (cases h)

theorem groups_pairwise {gc : Bool} {is : List InSec} {g : Guest} {l : Layout} (hV : Guest.Valid g)
    (hl : link g = some l) : (outGroups gc is g l).Pairwise fun x y =>
      x.sect.addr + x.sect.size ≤ y.sect.addr ∧ ∀ p ∈ x.parts, p ∉ y.parts := by
  obtain ⟨hr, -, hp, ht, -⟩ := C64_ram hV hl
  have hb : ∀ s ∈ l.ramSections, l.text.addr + l.text.size ≤ s.addr := fun s hs => by
    have := (hr s hs).2.1
    omega
  simp only [Layout.ramSections, List.pairwise_cons, List.mem_cons, List.not_mem_nil, or_false,
      forall_eq_or_imp, forall_eq, List.Pairwise.nil, and_true, false_implies, implies_true] at hp hb
  simp only [outGroups, List.pairwise_cons, List.mem_cons, List.not_mem_nil, or_false,
      forall_eq_or_imp, forall_eq, List.Pairwise.nil, and_true, false_implies, implies_true]
  simp [hp, hb]

theorem placements_inv {gc : Bool} {is : List InSec} {l : Layout} {pl : List (Nat × Nat)}
    (hv : ∀ s ∈ is, Piece.Valid s.piece) (h : placements gc is = some (l, pl)) :
    ∃ g, select gc is = some g ∧ link g = some l ∧ pl = (outGroups gc is g l).flatMap fun x => x.keys.zip x.addrs := by
  unfold placements at h
  cases hg : select gc is with
  | none => rw [hg] at h; cases h
  | some g =>
    rw [hg] at h
    cases hl : link g with
    | none => simp [hl] at h
    | some l' =>
      simp only [hl, Option.bind_eq_bind, Option.bind_some, Option.some.injEq, Prod.mk.injEq] at h
      obtain ⟨rfl, rfl⟩ := h
      refine ⟨g, rfl, hl, ?_⟩
      have e0 := (text_placed (select_valid hv hg) hl).1
      have eg := select_inv hg
      have l1 : (taken gc is .init).length = (addrs 0 g.init).length := by
        rw [addrs_length, eg, ← pieces_length]
      have l2 : (taken gc is .initRust).length = (addrs (alignUp (fill 0 g.init) 4) g.initRust).length := by
        rw [addrs_length, eg, ← pieces_length]
      rw [e0]
      simp only [outGroups, textAddrs, List.flatMap_cons, List.flatMap_nil, List.append_nil]
      rw [List.zip_append (by simp only [List.length_append]; rw [l1, l2]), List.zip_append l1]
      simp only [List.append_assoc]

/-- With valid alignments: every section that stays and has an output section gets exactly one address; it is aligned and
inside that section; no two overlap; sections of one description are in the order of the input; and nothing else is placed. -/
theorem C84_placed {gc : Bool} {is : List InSec} {l : Layout} {pl : List (Nat × Nat)}
    (hv : ∀ s ∈ is, Piece.Valid s.piece) (h : placements gc is = some (l, pl)) :
    (∀ k a, (k, a) ∈ pl → ∃ s p S, is[k]? = some s ∧ Stays gc is k ∧ Named s.name p ∧ l.part p = some S ∧
      s.piece.align ∣ a ∧ S.addr ≤ a ∧ a + s.piece.size ≤ S.addr + S.size) ∧
    (∀ (k : Nat) s p S, is[k]? = some s → Stays gc is k → Named s.name p → l.part p = some S → ∃ a, (k, a) ∈ pl) ∧
    (∀ k a a', (k, a) ∈ pl → (k, a') ∈ pl → a = a') ∧
    (∀ (k k' a a' : Nat) s s', k ≠ k' → (k, a) ∈ pl → (k', a') ∈ pl → is[k]? = some s → is[k']? = some s' →
      a + s.piece.size ≤ a' ∨ a' + s'.piece.size ≤ a) ∧
    ∀ (k k' a a' : Nat) s s' p, k < k' → (k, a) ∈ pl → (k', a') ∈ pl → is[k]? = some s → is[k']? = some s' → Named s.name p →
      Named s'.name p → a + s.piece.size ≤ a' := by
  obtain ⟨g, hg, hl, rfl⟩ := placements_inv hv h
  have hP := groups_placing hv hg hl
  have hQ := @groups_parts gc is g l
  have hW := @groups_pairwise gc is g l (select_valid hv hg) hl
  have key : ∀ (x y : OutGroup) (k k' a a' : Nat) s s', x ∈ outGroups gc is g l → y ∈ outGroups gc is g l →
      (k, a) ∈ x.keys.zip x.addrs → (k', a') ∈ y.keys.zip y.addrs → is[k]? = some s → is[k']? = some s' →
      x = y ∨ ((∀ p ∈ x.parts, p ∉ y.parts) ∧ (a + s.piece.size ≤ a' ∨ a' + s'.piece.size ≤ a)) := by
    intro x y k k' a a' s s' hx hy h1 h2 hs hs'
    obtain ⟨i, hi, ei⟩ := List.getElem_of_mem hx
    obtain ⟨j, hj, ej⟩ := List.getElem_of_mem hy
    obtain ⟨t, ht, -, b1, b2⟩ := (hP x hx).bounds h1
    obtain ⟨t', ht', -, b1', b2'⟩ := (hP y hy).bounds h2
    rw [hs] at ht
    rw [hs'] at ht'
    cases ht
    cases ht'
    rcases Nat.lt_trichotomy i j with hij | hij | hij
    · have := List.pairwise_iff_getElem.mp hW i j hi hj hij
      rw [ei, ej] at this
      exact .inr ⟨this.2, .inl (by omega)⟩
    · subst hij
      exact .inl (ei ▸ ej)
    · have := List.pairwise_iff_getElem.mp hW j i hj hi hij
      rw [ei, ej] at this
      exact .inr ⟨fun p hp hp' => this.2 p hp' hp, .inr (by omega)⟩
  have keyOf : ∀ (x : OutGroup) (k a : Nat), (k, a) ∈ x.keys.zip x.addrs → k ∈ x.keys := fun x k a hm => (List.of_mem_zip hm).1
  refine ⟨?_, ?_, ?_, ?_, ?_⟩
  · intro k a hm
    obtain ⟨x, hx, hm⟩ := List.mem_flatMap.mp hm
    obtain ⟨s, hs, hb⟩ := (hP x hx).bounds hm
    obtain ⟨p, hp, hk⟩ := ((hQ x hx).2 k).mp (keyOf x k a hm)
    obtain ⟨s', hs', hst, hn⟩ := mem_taken.mp hk
    rw [hs] at hs'
    cases hs'
    exact ⟨s, p, x.sect, hs, hst, hn, (hQ x hx).1 p hp, hb⟩
  · intro k s p S hs hst hn hS
    obtain ⟨x, hx, hp⟩ := @groups_all gc is g l p S hS
    obtain ⟨a, ha⟩ := (hP x hx).total (((hQ x hx).2 k).mpr ⟨p, hp, mem_taken.mpr ⟨s, hs, hst, hn⟩⟩)
    exact ⟨a, List.mem_flatMap.mpr ⟨x, hx, ha⟩⟩
  · intro k a a' h1 h2
    obtain ⟨x, hx, h1⟩ := List.mem_flatMap.mp h1
    obtain ⟨y, hy, h2⟩ := List.mem_flatMap.mp h2
    obtain ⟨s, hs, -⟩ := (hP x hx).bounds h1
    rcases key x y k k a a' s s hx hy h1 h2 hs hs with rfl | ⟨hd, -⟩
    · obtain ⟨i, i1, i2⟩ := Placing.mem h1
      obtain ⟨j, j1, j2⟩ := Placing.mem h2
      have := (hP x hx).inj i1 j1
      subst this
      rw [i2] at j2
      exact Option.some.inj j2
    · obtain ⟨p, hp, hk⟩ := ((hQ x hx).2 k).mp (keyOf x k a h1)
      obtain ⟨q, hq, hk'⟩ := ((hQ y hy).2 k).mp (keyOf y k a' h2)
      have : p = q := Decidable.byContradiction fun hne => taken_apart hne k hk hk'
      exact absurd hq (this ▸ hd p hp)
  · intro k k' a a' s s' hne h1 h2 hs hs'
    obtain ⟨x, hx, h1⟩ := List.mem_flatMap.mp h1
    obtain ⟨y, hy, h2⟩ := List.mem_flatMap.mp h2
    rcases key x y k k' a a' s s' hx hy h1 h2 hs hs' with rfl | ⟨-, hd⟩
    · obtain ⟨i, i1, i2⟩ := Placing.mem h1
      obtain ⟨j, j1, j2⟩ := Placing.mem h2
      rcases Nat.lt_trichotomy i j with hij | hij | hij
      · exact .inl ((hP x hx).order hij i1 i2 j1 j2 s hs)
      · subst hij
        rw [i1] at j1
        exact absurd (Option.some.inj j1) hne
      · exact .inr ((hP x hx).order hij j1 j2 i1 i2 s' hs')
    · exact hd
  · intro k k' a a' s s' p hlt h1 h2 hs hs' hn hn'
    obtain ⟨x, hx, h1⟩ := List.mem_flatMap.mp h1
    obtain ⟨y, hy, h2⟩ := List.mem_flatMap.mp h2
    have part : ∀ (z : OutGroup) (j b : Nat) t, z ∈ outGroups gc is g l → (j, b) ∈ z.keys.zip z.addrs → is[j]? = some t →
        Named t.name p → p ∈ z.parts ∧ j ∈ taken gc is p := by
      intro z j b t hz hm ht hnt
      obtain ⟨q, hq, hk⟩ := ((hQ z hz).2 j).mp (keyOf z j b hm)
      obtain ⟨t', ht', -, hn'⟩ := mem_taken.mp hk
      rw [ht] at ht'
      cases ht'
      have := named_unique hnt hn'
      exact this ▸ ⟨hq, hk⟩
    obtain ⟨p1, t1⟩ := part x k a s hx h1 hs hn
    obtain ⟨p2, t2⟩ := part y k' a' s' hy h2 hs' hn'
    rcases key x y k k' a a' s s' hx hy h1 h2 hs hs' with rfl | ⟨hd, -⟩
    · obtain ⟨i, i1, i2⟩ := Placing.mem h1
      obtain ⟨j, j1, j2⟩ := Placing.mem h2
      rcases Nat.lt_trichotomy i j with hij | hij | hij
      · exact (hP x hx).order hij i1 i2 j1 j2 s hs
      · subst hij
        rw [i1] at j1
        have := Option.some.inj j1
        omega
      · obtain ⟨li, ei⟩ := List.getElem?_eq_some_iff.mp i1
        obtain ⟨lj, ej⟩ := List.getElem?_eq_some_iff.mp j1
        have := List.pairwise_iff_getElem.mp (groups_ascending x hx) j i lj li hij p
        rw [ei, ej] at this
        have := this t2 t1
        omega
    · exact absurd p2 (hd p p1)

/-- A small guest: start-up code, entry point, a function, both tapes, a constant, a variable, and a function and a variable
nothing refers to. -/
def exSections : List InSec := [
  ⟨".text.unused", ⟨400, 4⟩, [6], false⟩,
  ⟨".init", ⟨36, 4⟩, [2], true⟩,
  ⟨".init.rust", ⟨20, 4⟩, [3], false⟩,
  ⟨".text.main", ⟨120, 4⟩, [4, 5, 7, 8, 3], false⟩,
  ⟨".inpdata", ⟨32, 4⟩, [], false⟩,
  ⟨".outdata", ⟨8, 4⟩, [], false⟩,
  ⟨".data.unused", ⟨64, 16⟩, [], false⟩,
  ⟨".rodata.table", ⟨10, 2⟩, [], false⟩,
  ⟨".bss.HEAP_POS", ⟨4, 4⟩, [], false⟩]

theorem exSections_valid : ∀ s ∈ exSections, Piece.Valid s.piece := by
  simp only [exSections, List.mem_cons, List.not_mem_nil, or_false, forall_eq_or_imp, forall_eq]
  exact ⟨⟨2, by decide, rfl⟩, ⟨2, by decide, rfl⟩, ⟨2, by decide, rfl⟩, ⟨2, by decide, rfl⟩, ⟨2, by decide, rfl⟩,
    ⟨2, by decide, rfl⟩, ⟨4, by decide, rfl⟩, ⟨1, by decide, rfl⟩, ⟨2, by decide, rfl⟩⟩

example : (placements true exSections).map (·.2) =
    some [(1, 0), (2, 36), (3, 56), (4, 0x40000), (5, 0x40020), (7, 0x40028), (8, 0x40034)] := by decide +kernel

example : (placements false exSections).map (·.2) =
    some [(1, 0), (2, 36), (0, 56), (3, 456), (4, 0x40000), (5, 0x40020), (7, 0x40028), (6, 0x40040), (8, 0x40080)] := by
  decide +kernel

/-- What a placed section refers to is placed as well, unless the script has no description for it; and a table of addresses
is empty. -/
theorem C84_complete {gc : Bool} {is : List InSec} {l : Layout} {pl : List (Nat × Nat)}
    (hv : ∀ s ∈ is, Piece.Valid s.piece) (h : placements gc is = some (l, pl)) (k j a : Nat) (s t : InSec)
    (hm : (k, a) ∈ pl) (hs : is[k]? = some s) (hj : j ∈ s.refs) (ht : is[j]? = some t) (hn : ∃ p, Named t.name p) :
    (∃ b, (j, b) ∈ pl) ∨ (Named t.name .got ∧ t.piece.size = 0) := by
  obtain ⟨h1, h2, -⟩ := C84_placed hv h
  obtain ⟨s', q, S, hs', hst, hq, hS, -⟩ := h1 k a hm
  rw [hs] at hs'
  cases hs'
  obtain ⟨g, hg, hl, -⟩ := placements_inv hv h
  have hstj : Stays gc is j := fun e => .ref (hst e) hs hj
  obtain ⟨p, hp⟩ := hn
  cases hpS : l.part p with
  | some S' => exact .inl (h2 j t p S' ht hstj hp hpS)
  | none =>
    have : p = .got ∨ p = .discard := by cases p <;> first | (cases hpS; done) | simp
    rcases this with rfl | rfl
    · right
      refine ⟨hp, ?_⟩
      obtain ⟨-, -, -, -, -, -, -, -, -, -, -, h0⟩ := link_inv hl
      have hm' : j ∈ taken gc is .got := mem_taken.mpr ⟨t, ht, hstj, hp⟩
      have hmem : t.piece ∈ pieces gc is .got := List.mem_filterMap.mpr ⟨j, hm', by rw [ht]; rfl⟩
      rw [show g.got = pieces gc is .got by rw [select_inv hg]] at h0
      have hpos := pos_of_valid (pieces_valid (gc := gc) hv .got)
      obtain ⟨i, hi⟩ := List.getElem?_of_mem hmem
      have hl' : i < (addrs 0 (pieces gc is .got)).length := by
        rw [addrs_length]; exact (List.getElem?_eq_some_iff.mp hi).1
      have := addrs_spec hpos 0 i _ _ hi (List.getElem?_eq_getElem hl')
      omega
    · exfalso
      have hnd : ¬ Named s.name .discard := fun hd => by
        have := named_unique hq hd
        subst this
        cases hS
      have hnone : select gc is = none := (C84_refused gc is).mpr ⟨k, j, s, t, hs, hst, hnd, hj, ht, hp⟩
      rw [hg] at hnone
      cases hnone

example : ∃ pl, placements true exSections = some pl := ⟨_, rfl⟩

/-- A list with a single member. -/
theorem eq_singleton {ks : List Nat} {k : Nat} (hd : ks.Nodup) (hk : k ∈ ks) (hu : ∀ j ∈ ks, j = k) : ks = [k] := by
  match ks, hd, hk, hu with
  | [a], _, _, hu => rw [hu a (by simp)]
  | a :: b :: ks, hd, _, hu =>
    have e1 := hu a (by simp)
    have e2 := hu b (by simp)
    rw [e1, e2] at hd
    simp at hd

theorem section_single (dot : Nat) (p : Piece) (hv : Piece.Valid p) :
    (section_ dot [p]).size = p.size ∧ addrs (section_ dot [p]).addr [p] = [(section_ dot [p]).addr] := by
  obtain ⟨k, -, hk⟩ := hv
  have hpos : 0 < p.align := by rw [hk]; exact Nat.two_pow_pos k
  have hmax : p.align ∣ sectAlign [p] := by
    show p.align ∣ max 4 p.align
    rw [hk]
    rcases Nat.le_total k 2 with h | h
    · have : (2 : Nat) ^ k ≤ 4 := Nat.pow_le_pow_right (n := 2) (by decide) h
      rw [Nat.max_eq_left this]
      exact Nat.pow_dvd_pow 2 h
    · have : 4 ≤ (2 : Nat) ^ k := Nat.pow_le_pow_right (n := 2) (by decide) h
      rw [Nat.max_eq_right this]
      exact Nat.dvd_refl _
  have ha := (alignUp_spec dot (sectAlign [p]) (Nat.lt_of_lt_of_le (by decide) (foldl_max_ge [p] 4).1)).1
  have e : alignUp (section_ dot [p]).addr p.align = (section_ dot [p]).addr :=
    alignUp_of_dvd hpos (Nat.dvd_trans hmax ha)
  refine ⟨?_, ?_⟩
  · show alignUp (section_ dot [p]).addr p.align + p.size - (section_ dot [p]).addr = p.size
    rw [e]
    omega
  · show [alignUp (section_ dot [p]).addr p.align] = _
    rw [e]

/-- If one section of the guest is the input tape (the output tape), the section of the program the tools look up by that
name is that one: same address, same size.  The input tape is at the start of the RAM. -/
theorem C84_tapes {gc : Bool} {is : List InSec} {l : Layout} {pl : List (Nat × Nat)}
    (hv : ∀ s ∈ is, Piece.Valid s.piece) (h : placements gc is = some (l, pl)) (k : Nat) (s : InSec) (hs : is[k]? = some s) :
    (s.name = ".inpdata" → (∀ (j : Nat) t, is[j]? = some t → t.name = ".inpdata" → j = k) →
      (k, l.inp.addr) ∈ pl ∧ l.inp.addr = 0x40000 ∧ l.inp.size = s.piece.size) ∧
    (s.name = ".outdata" → (∀ (j : Nat) t, is[j]? = some t → t.name = ".outdata" → j = k) →
      (k, l.out.addr) ∈ pl ∧ l.out.size = s.piece.size) := by
  obtain ⟨g, hg, hl, rfl⟩ := placements_inv hv h
  obtain ⟨-, e1, e2, -⟩ := link_inv hl
  have hvs := hv s (List.mem_of_getElem? hs)
  have single : ∀ p, Named s.name p → MustStay s.name → (∀ (j : Nat) t, is[j]? = some t → Named t.name p → j = k) →
      taken gc is p = [k] ∧ pieces gc is p = [s.piece] := by
    intro p hn hm hu
    have ht : taken gc is p = [k] := by
      refine eq_singleton (taken_nodup gc is p) (mem_taken.mpr ⟨s, hs, fun _ => .root hs (.inl hm), hn⟩) fun j hj => ?_
      obtain ⟨t, ht, -, hnt⟩ := mem_taken.mp hj
      exact hu j t ht hnt
    refine ⟨ht, ?_⟩
    unfold pieces
    rw [ht, List.filterMap_cons, hs]
    rfl
  refine ⟨fun hn hu => ?_, fun hn hu => ?_⟩
  · obtain ⟨t1, t2⟩ := single .inp hn (by simp [MustStay, hn]) hu
    have eg : g.inp = [s.piece] := by rw [select_inv hg]; exact t2
    rw [eg] at e1
    obtain ⟨z1, z2⟩ := section_single RAM_ORIGIN s.piece hvs
    rw [← e1] at z1 z2
    refine ⟨List.mem_flatMap.mpr ⟨_, List.mem_cons_of_mem _ (List.mem_cons_self ..), ?_⟩, ?_, z1⟩
    · show (k, l.inp.addr) ∈ (taken gc is .inp).zip (addrs l.inp.addr g.inp)
      rw [t1, eg, z2]
      simp
    · rw [e1]
      exact (section_spec (ps := [s.piece]) (by simpa using hvs) RAM_ORIGIN).2.2.2.2 (by decide)
  · obtain ⟨t1, t2⟩ := single .out hn (by simp [MustStay, hn]) hu
    have eg : g.out = [s.piece] := by rw [select_inv hg]; exact t2
    rw [eg] at e2
    obtain ⟨z1, z2⟩ := section_single l.inp.stop s.piece hvs
    rw [← e2] at z1 z2
    refine ⟨List.mem_flatMap.mpr ⟨_, List.mem_cons_of_mem _ (List.mem_cons_of_mem _ (List.mem_cons_self ..)), ?_⟩, z1⟩
    show (k, l.out.addr) ∈ (taken gc is .out).zip (addrs l.out.addr g.out)
    rw [t1, eg, z2]
    simp

example : ∃ l pl, placements true exSections = some (l, pl) ∧ (4, l.inp.addr) ∈ pl ∧ l.inp.addr = 0x40000 ∧ l.inp.size = 32 := by
  obtain ⟨x, hx⟩ : ∃ x, placements true exSections = some x := ⟨_, rfl⟩
  refine ⟨x.1, x.2, hx, (C84_tapes exSections_valid hx 4 _ rfl).1 rfl ?_⟩
  intro j t ht hn
  match j, ht with
  | 4, _ => rfl
  | 0, ht => cases ht; exact absurd hn (by decide)
  | 1, ht => cases ht; exact absurd hn (by decide)
  | 2, ht => cases ht; exact absurd hn (by decide)
  | 3, ht => cases ht; exact absurd hn (by decide)
  | 5, ht => cases ht; exact absurd hn (by decide)
  | 6, ht => cases ht; exact absurd hn (by decide)
  | 7, ht => cases ht; exact absurd hn (by decide)
  | 8, ht => cases ht; exact absurd hn (by decide)
  | j + 9, ht => cases ht

/-- With two variables in the input section the tools see one tape of both. -/
theorem C84_two_inputs : ∃ is l pl, placements true is = some (l, pl) ∧
    is.map (fun s => (s.name, s.piece.size)) = [(".init", 36), (".inpdata", 8), (".inpdata", 24)] ∧
    (1, 0x40000) ∈ pl ∧ (2, 0x40008) ∈ pl ∧ l.inp = ⟨0x40000, 32⟩ :=
  ⟨[⟨".init", ⟨36, 4⟩, [], true⟩, ⟨".inpdata", ⟨8, 4⟩, [], false⟩, ⟨".inpdata", ⟨24, 4⟩, [], false⟩],
    ⟨⟨0, 36⟩, ⟨0x40000, 32⟩, ⟨0x40020, 0⟩, ⟨0x40020, 0⟩, ⟨0x40020, 0⟩, ⟨0x40020, 0⟩, 0x41000, 0x40820, 0x40020⟩,
    [(0, 0), (1, 0x40000), (2, 0x40008)], by decide +kernel, by decide +kernel, by decide, by decide, rfl⟩

/-- The first section with the name `.init` is at address 0, where the machine starts. -/
theorem C84_start {gc : Bool} {is : List InSec} {l : Layout} {pl : List (Nat × Nat)}
    (hv : ∀ s ∈ is, Piece.Valid s.piece) (h : placements gc is = some (l, pl)) (k : Nat) (s : InSec) (hs : is[k]? = some s)
    (hn : s.name = ".init") (hf : ∀ (j : Nat) t, is[j]? = some t → t.name = ".init" → k ≤ j) : (k, 0) ∈ pl := by
  obtain ⟨g, hg, hl, rfl⟩ := placements_inv hv h
  have hk : k ∈ taken gc is .init := mem_taken.mpr ⟨s, hs, fun _ => .root hs (.inl (by simp [MustStay, hn])), hn⟩
  have hfirst : (taken gc is .init)[0]? = some k := by
    cases ht : taken gc is .init with
    | nil => rw [ht] at hk; simp at hk
    | cons j ks =>
      have hj : j ∈ taken gc is .init := by rw [ht]; simp
      obtain ⟨t, htj, -, hnt⟩ := mem_taken.mp hj
      have h1 := hf j t htj hnt
      have := List.pairwise_iff_getElem.mp (taken_ascending gc is .init)
      obtain ⟨i, hi, ei⟩ := List.getElem_of_mem hk
      cases i with
      | zero =>
        simp only [ht, List.getElem_cons_zero] at ei
        rw [ei]
        rfl
      | succ i =>
        have := this 0 (i + 1) (by omega) hi (by omega) .init (List.getElem_mem ..) (List.getElem_mem ..)
        rw [ei] at this
        simp only [ht, List.getElem_cons_zero] at this
        omega
  obtain ⟨-, -, -, -, -, h0, -⟩ := text_placed (select_valid hv hg) hl
  have hlen : 0 < (addrs 0 g.init).length := by
    rw [addrs_length, select_inv hg]
    show 0 < (pieces gc is .init).length
    rw [pieces_length]
    exact List.length_pos_of_mem hk
  have hz := h0 _ (List.getElem?_eq_getElem hlen)
  refine List.mem_flatMap.mpr ⟨_, List.mem_cons_self .., List.mem_of_getElem? (i := 0) (List.getElem?_zip_eq_some.mpr ⟨?_, ?_⟩)⟩
  · show (taken gc is .init ++ taken gc is .initRust ++ taken gc is .text)[0]? = some k
    rw [List.append_assoc, List.getElem?_append_left (List.length_pos_of_mem hk)]
    exact hfirst
  · show (textAddrs g)[0]? = some 0
    unfold textAddrs
    rw [List.append_assoc, List.getElem?_append_left hlen, List.getElem?_eq_getElem hlen, hz]

/-! ### Leaving sections out does no harm -/

theorem alignUp_le {x y a : Nat} (ha : 0 < a) (hd : a ∣ y) (h : x ≤ y) : alignUp x a ≤ y := by
  obtain ⟨k, rfl⟩ := hd
  obtain ⟨⟨m, hm⟩, -, h2⟩ := alignUp_spec x a ha
  rw [hm] at h2 ⊢
  have : a * m < a * (k + 1) := by rw [Nat.mul_succ]; omega
  have := Nat.lt_of_mul_lt_mul_left this
  exact Nat.mul_le_mul_left a (by omega)

theorem fill_mono {ps qs : List Piece} (h : ps.Sublist qs) : Pos qs → ∀ {d e : Nat}, d ≤ e → fill d ps ≤ fill e qs := by
  induction h with
  | slnil => intro _ d e hde; exact hde
  | @cons ps qs q _ ih =>
    intro hp d e hde
    have := (alignUp_spec e q.align (hp q (by simp))).2.1
    exact ih (fun x hx => hp x (List.mem_cons_of_mem _ hx)) (by omega)
  | @cons_cons ps qs q _ ih =>
    intro hp d e hde
    have hq := hp q (by simp)
    have ha := alignUp_spec e q.align hq
    have := alignUp_le (x := d) hq ha.1 (by omega)
    exact ih (fun x hx => hp x (List.mem_cons_of_mem _ hx)) (by omega)

theorem sectAlign_dvd {ps qs : List Piece} (h : ps.Sublist qs) (hv : ∀ p ∈ qs, Piece.Valid p) :
    sectAlign ps ∣ sectAlign qs := by
  obtain ⟨k, -, -, hk⟩ := sectAlign_pow (fun p hp => hv p (h.subset hp))
  obtain ⟨m, -, -, hm⟩ := sectAlign_pow hv
  have : sectAlign ps ≤ sectAlign qs := by
    have key : ∀ (ps qs : List Piece), ps.Sublist qs → ∀ a b : Nat, a ≤ b →
        ps.foldl (fun a p => max a p.align) a ≤ qs.foldl (fun a p => max a p.align) b := by
      intro ps qs h
      induction h with
      | slnil => intro a b h; exact h
      | @cons ps qs q _ ih => intro a b h; exact ih a (max b q.align) (by omega)
      | @cons_cons ps qs q _ ih => intro a b h; exact ih (max a q.align) (max b q.align) (by omega)
    exact key ps qs h 4 4 (Nat.le_refl _)
  rw [hk, hm] at this ⊢
  exact Nat.pow_dvd_pow 2 ((Nat.pow_le_pow_iff_right (by decide)).mp this)

theorem start_mono {ps qs : List Piece} (h : ps.Sublist qs) (hv : ∀ p ∈ qs, Piece.Valid p) {d e : Nat} (hde : d ≤ e) :
    alignUp d (sectAlign ps) ≤ alignUp e (sectAlign qs) := by
  have hp : ∀ qs : List Piece, 0 < sectAlign qs := fun qs => Nat.lt_of_lt_of_le (by decide) (foldl_max_ge qs 4).1
  have ha := alignUp_spec e (sectAlign qs) (hp qs)
  exact alignUp_le (hp ps) (Nat.dvd_trans (sectAlign_dvd h hv) ha.1) (by omega)

theorem section_mono {ps qs : List Piece} (h : ps.Sublist qs) (hv : ∀ p ∈ qs, Piece.Valid p) {d e : Nat} (hde : d ≤ e) :
    (section_ d ps).stop ≤ (section_ e qs).stop := by
  rw [(section_spec hv e).2.2.1, (section_spec (fun p hp => hv p (h.subset hp)) d).2.2.1]
  exact fill_mono h (pos_of_valid hv) (start_mono h hv hde)

theorem rodata_mono {ps qs : List Piece} (h : ps.Sublist qs) (hv : ∀ p ∈ qs, Piece.Valid p) {d e : Nat} (hde : d ≤ e) :
    (rodataSection d ps).stop ≤ (rodataSection e qs).stop := by
  have hv' : ∀ p ∈ ps, Piece.Valid p := fun p hp => hv p (h.subset hp)
  have key : ∀ (ps : List Piece) (d : Nat), (∀ p ∈ ps, Piece.Valid p) →
      (rodataSection d ps).stop = alignUp (fill (alignUp d (sectAlign ps)) ps) 4 := by
    intro ps d hv
    have hf := fill_ge (pos_of_valid hv) (alignUp d (sectAlign ps))
    have ha := (alignUp_spec (fill (alignUp d (sectAlign ps)) ps) 4 (by decide)).2.1
    show alignUp d (sectAlign ps) + (alignUp (fill (alignUp d (sectAlign ps)) ps) 4 - alignUp d (sectAlign ps)) = _
    omega
  rw [key ps d hv', key qs e hv]
  have hm := fill_mono h (pos_of_valid hv) (start_mono h hv hde)
  have ha := alignUp_spec (fill (alignUp e (sectAlign qs)) qs) 4 (by decide)
  exact alignUp_le (by decide) ha.1 (by omega)

theorem taken_sublist (is : List InSec) (p : Part) : (taken true is p).Sublist (taken false is p) := by
  have e : taken true is p = (taken false is p).filter fun k => decide (k ∈ live true is) := by
    unfold taken
    rw [List.filter_filter]
    apply List.filter_congr
    intro k hk
    have hk := List.mem_range.mp hk
    have : k ∈ live false is := (mem_live hk).mpr fun h => Bool.noConfusion h
    simp [this]
  rw [e]
  exact List.filter_sublist

theorem pieces_sublist (is : List InSec) (p : Part) : (pieces true is p).Sublist (pieces false is p) :=
  (taken_sublist is p).filterMap _

/-- If the guest links with all its sections, it links without those nothing refers to, and neither the code nor the data gets
longer. -/
theorem C84_collected {is : List InSec} {l : Layout} {pl : List (Nat × Nat)}
    (hv : ∀ s ∈ is, Piece.Valid s.piece) (h : placements false is = some (l, pl)) :
    ∃ l' pl', placements true is = some (l', pl') ∧ l'.text.size ≤ l.text.size ∧ l'.fin ≤ l.fin ∧
      ∀ k a, (k, a) ∈ pl' → ∃ b, (k, b) ∈ pl := by
  obtain ⟨g, hg, hl, -⟩ := placements_inv hv h
  obtain ⟨g', hg'⟩ : ∃ g', select true is = some g' := by
    cases h' : select true is with
    | some g' => exact ⟨g', rfl⟩
    | none =>
      obtain ⟨k, j, s, t, hs, -, hr⟩ := (C84_refused true is).mp h'
      have := (C84_refused false is).mpr ⟨k, j, s, t, hs, fun h => Bool.noConfusion h, hr⟩
      rw [hg] at this
      cases this
  have sub := pieces_sublist is
  have vg := select_valid hv hg
  obtain ⟨v1, v2, v3, v4, v5, v6, v7, v8⟩ := valid_parts vg
  have vg' := select_valid hv hg'
  have eg := select_inv hg
  have eg' := select_inv hg'
  have s1 : g'.init.Sublist g.init := by rw [eg, eg']; exact sub _
  have s2 : g'.initRust.Sublist g.initRust := by rw [eg, eg']; exact sub _
  have s3 : g'.text.Sublist g.text := by rw [eg, eg']; exact sub _
  have s4 : g'.inp.Sublist g.inp := by rw [eg, eg']; exact sub _
  have s5 : g'.out.Sublist g.out := by rw [eg, eg']; exact sub _
  have s6 : g'.rodata.Sublist g.rodata := by rw [eg, eg']; exact (sub _).append (sub _)
  have s7 : g'.data.Sublist g.data := by rw [eg, eg']; exact (sub _).append (sub _)
  have s8 : g'.bss.Sublist g.bss := by rw [eg, eg']; exact sub _
  have s9 : g'.got.Sublist g.got := by rw [eg, eg']; exact sub _
  obtain ⟨-, e1, e2, e3, e4, e5, -, -, ef, ht, hb, h0⟩ := link_inv hl
  have m1 := section_mono s4 v4 (Nat.le_refl RAM_ORIGIN)
  have m2 := section_mono s5 v5 m1
  have m3 := rodata_mono s6 v6 m2
  have m4 := section_mono s7 v7 m3
  have m5 := section_mono s8 v8 m4
  rw [← e1, ← e2, ← e3, ← e4, ← e5] at m5
  have hgot : fill 0 g'.got = 0 := by
    have hp : Pos g.got := by
      rw [eg]
      exact pos_of_valid (pieces_valid hv _)
    have := fill_mono s9 hp (Nat.le_refl 0)
    omega
  obtain ⟨t0, t1, -⟩ := text_placed vg hl
  have tsize : ∀ g : Guest, Guest.Valid g → (textSection g).stop =
      alignUp (fill (fill (alignUp (fill 0 g.init) 4) g.initRust) g.text) 4 := by
    intro g vg
    obtain ⟨v1, v2, v3, -⟩ := valid_parts vg
    have hall : ∀ p ∈ g.init ++ g.initRust ++ g.text, Piece.Valid p := by
      intro p hp
      simp only [List.mem_append] at hp
      rcases hp with (hp | hp) | hp
      · exact v1 p hp
      · exact v2 p hp
      · exact v3 p hp
    have h0 : alignUp FLASH_ORIGIN (sectAlign (g.init ++ g.initRust ++ g.text)) = 0 :=
      (sect_start hall 0).2.2 (Nat.dvd_zero _)
    show alignUp FLASH_ORIGIN _ + (alignUp (fill (fill (alignUp (fill (alignUp FLASH_ORIGIN _) g.init) 4) g.initRust) g.text) 4
      - alignUp FLASH_ORIGIN _) = _
    rw [h0, Nat.zero_add, Nat.sub_zero]
  have tm : (textSection g').stop ≤ (textSection g).stop := by
    rw [tsize g vg, tsize g' vg']
    have up : ∀ {x y : Nat}, x ≤ y → alignUp x 4 ≤ alignUp y 4 := fun {x y} hxy => by
      have := alignUp_spec y 4 (by decide)
      exact alignUp_le (by decide) this.1 (by omega)
    exact up (fill_mono s3 (pos_of_valid v3) (fill_mono s2 (pos_of_valid v2) (up (fill_mono s1 (pos_of_valid v1) (Nat.le_refl 0)))))
  have htext : l.text = textSection g := (link_inv hl).1
  obtain ⟨l', hl'⟩ : ∃ l', link g' = some l' := by
    unfold link
    simp only
    rw [if_pos]
    · exact ⟨_, rfl⟩
    · refine ⟨?_, ?_, hgot⟩
      · rw [htext] at ht
        exact Nat.le_trans tm ht
      · exact Nat.le_trans m5 hb
  obtain ⟨f1, f2, f3, f4, f5, f6, -, -, ff, -⟩ := link_inv hl'
  have hpl : ∃ pl', placements true is = some (l', pl') := by
    unfold placements
    rw [hg']
    simp only [Option.bind_eq_bind, Option.bind_some, hl']
    exact ⟨_, rfl⟩
  obtain ⟨pl', hpl⟩ := hpl
  obtain ⟨t0', -⟩ := text_placed vg' hl'
  refine ⟨l', pl', hpl, ?_, ?_, ?_⟩
  · rw [← htext, ← f1] at tm
    unfold Sect.stop at tm
    omega
  · rw [ef, ff, f6, f5, f4, f3, f2]
    exact m5
  · intro k a hm
    obtain ⟨s, p, S, hs, -, hn, hS, -⟩ := (C84_placed hv hpl).1 k a hm
    have : ∃ S', l.part p = some S' := by
      cases p <;> first | exact ⟨_, rfl⟩ | cases hS
    obtain ⟨S', hS'⟩ := this
    exact (C84_placed hv h).2.1 k s p S' hs (fun h => Bool.noConfusion h) hn hS'

example : ((placements false exSections).map fun x => (x.1.text.size, x.1.fin)) = some (576, 0x40084) ∧
    ((placements true exSections).map fun x => (x.1.text.size, x.1.fin)) = some (176, 0x40038) := by decide +kernel

/-- A section of zeros with a name the script does not know is put behind `_end`, where the allocator hands out memory: the
first block the program gets is this section. -/
theorem C84_orphan : ∃ (is : List InSec) (l : Layout) (pl : List (Nat × Nat)) (a : Nat) (h : Heap) (b : Block),
    placements true is = some (l, pl) ∧ orphans true is = [3] ∧ is[3]?.map (fun s => (s.name, s.piece.size)) = some (".scratch", 16) ∧
    orphanAddrs l [⟨16, 4⟩] = [a] ∧ l.fin ≤ a ∧
    heapRun (BitVec.ofNat 32 l.fin) Heap.init [.alloc 16 4 0x41000] = (h, some [b]) ∧ b.ptr.toNat = a ∧ b.size = 16 :=
  ⟨[⟨".init", ⟨36, 4⟩, [1], true⟩, ⟨".init.rust", ⟨40, 4⟩, [2, 3], false⟩, ⟨".inpdata", ⟨8, 4⟩, [], false⟩, ⟨".scratch", ⟨16, 4⟩, [], false⟩],
    ⟨⟨0, 76⟩, ⟨0x40000, 8⟩, ⟨0x40008, 0⟩, ⟨0x40008, 0⟩, ⟨0x40008, 0⟩, ⟨0x40008, 0⟩, 0x41000, 0x40808, 0x40008⟩,
    [(0, 0), (1, 36), (2, 0x40000)], 0x40008, ⟨0x40018⟩, ⟨0x40008, 16⟩, by decide +kernel, by decide +kernel, by decide +kernel,
    by decide +kernel, by decide, by decide +kernel, by decide, rfl⟩

end Verif.Props
