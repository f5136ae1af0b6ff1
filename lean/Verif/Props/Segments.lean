import Verif.Lemmas.Segments
import Verif.Props.Layout
import Verif.Lemmas.LinkVectors
import Verif.Model.ElfBytes
/-
  C82: guests as lld writes them.  Nothing is lost: `.bss` has a segment of its own, so that every segment with contents is
  loaded.
-/
namespace Verif.Props
open Model Spec Model.Link Spec.ElfFile

section
variable {g : Guest} {l : Layout} {k : Kinds} {c : Contents} {e : Elf}

theorem ramOut_order (hv : Guest.Valid g) (h : link g = some l) (k : Kinds) :
    (ramOut l k).Pairwise fun a b => a.sect.addr + a.sect.size ≤ b.sect.addr := by
  obtain ⟨-, -, r3, -⟩ := C64_ram hv h
  have hs : ((ramOut l k).map (·.sect)).Sublist l.ramSections := by
    unfold ramOut
    rw [List.map_append]
    exact (outSecs_sublist _ false).append (List.Sublist.refl [l.bss])
  exact List.pairwise_map.mp (r3.sublist hs)

theorem mem_ramOut {o : OutSec} (h : o ∈ ramOut l k) :
    o.sect ∈ l.ramSections ∧ (o.nobits = true → o.sect = l.bss ∧ o.write = true) ∧ (o.nobits = false → o.sect ≠ l.bss → o.sect ∈
      [l.inp, l.out, l.rodata, l.data]) := by
  rcases List.mem_append.mp h with h | h
  · obtain ⟨h1, h2⟩ := mem_outSecs _ _ _ h
    refine ⟨?_, fun c => (by rw [h1] at c; cases c), fun _ _ => h2⟩
    have : o.sect ∈ [l.inp, l.out, l.rodata, l.data] := h2
    exact List.mem_append_left [l.bss] this
  · rw [List.mem_singleton.mp h]
    exact ⟨by simp [Layout.ramSections], fun _ => ⟨rfl, rfl⟩, fun c => by cases c⟩

/-- What a load segment in RAM is like. -/
structure RamSeg (l : Layout) (q : Phdr) : Prop where
  ram : q.isRam
  pos : 0 < q.memsz
  low : 0x40000 ≤ q.vaddr
  high : q.vaddr + q.memsz ≤ l.fin
  file : q.filesz = q.memsz ∨ (q.filesz = 0 ∧ q.vaddr = l.bss.addr ∧ q.memsz = l.bss.size)
  start : ∃ s ∈ l.ramSections, s.addr = q.vaddr

theorem ramSeg_of (hv : Guest.Valid g) (h : link g = some l) (k : Kinds) (off : Nat) (q : Phdr)
    (hq : q ∈ phdrs off (groups (ramOut l k))) : RamSeg l q := by
  obtain ⟨r1, r2, -⟩ := C64_ram hv h
  have G := grouped _ (ramOut_order hv h k)
  obtain ⟨a, ha, q1, q2, q3, q4, q5⟩ := mem_phdrs q _ _ hq
  obtain ⟨ha, hz⟩ := List.mem_filter.mp ha
  have hz : a.size ≠ 0 := by simpa using hz
  obtain ⟨o, o1, o2, -, o3⟩ := G.first a ha
  obtain ⟨o', p1, p2, -, p3⟩ := G.last a ha
  have hup := G.up a ha
  have m1 := r1 _ (mem_ramOut o1).1
  have m2 := r1 _ (mem_ramOut p1).1
  rw [o2] at m1
  rw [p2] at m2
  have hsz : a.size = a.last.addr + a.last.size - a.first.addr := rfl
  refine ⟨⟨q1, ?_⟩, by omega, by omega, by omega, ?_, ⟨_, (mem_ramOut o1).1, by rw [o2, q3]⟩⟩
  · rw [q2]; cases a.write <;> simp
  · cases hn : a.nobits with
    | false => left; rw [q5, q4, hn]; rfl
    | true =>
      right
      have b1 := ((mem_ramOut o1).2.1 (by rw [o3, hn])).1
      have b2 := ((mem_ramOut p1).2.1 (by rw [p3, hn])).1
      rw [b1] at o2
      rw [b2] at p2
      refine ⟨by rw [q5, hn]; rfl, by rw [q3, o2], ?_⟩
      rw [q4, hsz, ← o2, ← p2]; omega

/-- Every RAM section lld keeps is inside one load segment; the ones with contents inside one that is loaded. -/
theorem seg_covers (hv : Guest.Valid g) (h : link g = some l) (k : Kinds) (off : Nat) (o : OutSec) (ho : o ∈ ramOut l k)
    (h0 : 0 < o.sect.size) :
    ∃ q ∈ phdrs off (groups (ramOut l k)), q.vaddr ≤ o.sect.addr ∧ o.sect.addr + o.sect.size ≤ q.vaddr + q.memsz ∧
      (o.nobits = false → q.filesz = q.memsz) := by
  have G := grouped _ (ramOut_order hv h k)
  obtain ⟨a, a1, a2, a3, -, a5⟩ := G.cover o ho
  have hup := G.up a a1
  have hsz : a.size = a.last.addr + a.last.size - a.first.addr := rfl
  have ha : a ∈ groups (ramOut l k) := List.mem_filter.mpr ⟨a1, by simp; omega⟩
  obtain ⟨q, q1, -, -, q3, q4, q5⟩ := phdrs_has a _ off ha
  exact ⟨q, q1, by omega, by omega, fun hn => by rw [q5, q4, a5, hn]; rfl⟩

theorem segs_order (hv : Guest.Valid g) (h : link g = some l) (k : Kinds) (off : Nat) :
    (phdrs off (groups (ramOut l k))).Pairwise fun a b => a.vaddr + a.memsz ≤ b.vaddr := by
  have G := grouped _ (ramOut_order hv h k)
  exact phdrs_order _ _ (fun a ha => G.up a (List.mem_filter.mp ha).1) (G.order.sublist List.filter_sublist)

/-- The segment table of a guest: code, then the segments in RAM, in ascending order without overlap, inside the RAM.  Each of
them has all its bytes in the file or is exactly `.bss`: the two never share one, so that the loss of `C64_data_lost` does not
occur. -/
theorem C82_segments (hv : Guest.Valid g) (h : link g = some l) (k : Kinds) (ht : 0 < l.text.size) :
    ∃ txt ram, Link.segments l k = txt :: (ram ++ [stackPhdr]) ∧ txt.isText ∧ txt.vaddr = 0 ∧ txt.memsz = l.text.size ∧
      txt.filesz = l.text.size ∧ ram.Pairwise (fun a b => a.vaddr + a.memsz ≤ b.vaddr) ∧
      ∀ q ∈ ram, q.isRam ∧ 0 < q.memsz ∧ 0x40000 ≤ q.vaddr ∧ q.vaddr + q.memsz ≤ l.fin ∧
        (q.filesz = q.memsz ∨ (q.filesz = 0 ∧ q.vaddr = l.bss.addr ∧ q.memsz = l.bss.size)) := by
  obtain ⟨t1, -⟩ := C64_text hv h
  refine ⟨⟨PT_LOAD, PF_R + PF_X, PAGE, l.text.addr, l.text.size, l.text.size⟩, phdrs (PAGE + l.text.size) (groups (ramOut l k)),
    ?_, ⟨rfl, rfl⟩, ?_, rfl, rfl, segs_order hv h k _, fun q hq => ?_⟩
  · unfold Link.segments
    rw [if_neg (by omega), List.append_assoc]
    rfl
  · exact t1
  · have := ramSeg_of hv h k _ q hq
    exact ⟨this.ram, this.pos, this.low, this.high, this.file⟩

theorem ramOut_has (hi : k.inp ≠ none) (ho : k.out ≠ none) (s : Sect) (hs : s ∈ l.ramSections) :
    ∃ o ∈ ramOut l k, o.sect = s := by
  have left : ∀ (v : Option Bool) (b : Bool), (v ≠ none ∨ b = true) →
      (s, v, b) ∈ [(l.inp, k.inp, false), (l.out, k.out, false), (l.rodata, k.rodata, true), (l.data, k.data, true)] →
      ∃ o ∈ ramOut l k, o.sect = s := fun v b hb hm => by
    obtain ⟨o, o1, o2, -⟩ := outSecs_has s v b hb _ false hm
    exact ⟨o, List.mem_append_left _ o1, o2⟩
  simp only [Layout.ramSections, List.mem_cons, List.not_mem_nil, or_false] at hs
  rcases hs with rfl | rfl | rfl | rfl | rfl
  · exact left k.inp false (.inl hi) (by simp)
  · exact left k.out false (.inl ho) (by simp)
  · exact left k.rodata true (.inr rfl) (by simp)
  · exact left k.data true (.inr rfl) (by simp)
  · exact ⟨_, List.mem_append_right _ (List.mem_singleton_self _), rfl⟩

theorem ramOut_content (hi : k.inp ≠ none) (ho : k.out ≠ none) (s : Sect) (hs : s ∈ [l.inp, l.out, l.rodata, l.data]) :
    ∃ o ∈ ramOut l k, o.sect = s ∧ o.nobits = false := by
  have left : ∀ (v : Option Bool) (b : Bool), (v ≠ none ∨ b = true) →
      (s, v, b) ∈ [(l.inp, k.inp, false), (l.out, k.out, false), (l.rodata, k.rodata, true), (l.data, k.data, true)] →
      ∃ o ∈ ramOut l k, o.sect = s ∧ o.nobits = false := fun v b hb hm => by
    obtain ⟨o, o1, o2⟩ := outSecs_has s v b hb _ false hm
    exact ⟨o, List.mem_append_left _ o1, o2⟩
  simp only [List.mem_cons, List.not_mem_nil, or_false] at hs
  rcases hs with rfl | rfl | rfl | rfl
  · exact left k.inp false (.inl hi) (by simp)
  · exact left k.out false (.inl ho) (by simp)
  · exact left k.rodata true (.inr rfl) (by simp)
  · exact left k.data true (.inr rfl) (by simp)

theorem first_nonempty : ∀ (ss : List Sect), (∃ s ∈ ss, 0 < s.size) →
    ∃ as s bs, ss = as ++ s :: bs ∧ (∀ t ∈ as, t.size = 0) ∧ 0 < s.size
  | [], h => by obtain ⟨s, h, -⟩ := h; cases h
  | t :: ss, h => by
    by_cases h0 : 0 < t.size
    · exact ⟨[], t, ss, rfl, nofun, h0⟩
    · obtain ⟨s, hs, h1⟩ := h
      rcases List.mem_cons.mp hs with rfl | hs
      · exact absurd h1 h0
      · obtain ⟨as, s', bs, e1, e2, e3⟩ := first_nonempty ss ⟨s, hs, h1⟩
        refine ⟨t :: as, s', bs, by rw [e1]; rfl, fun u hu => ?_, e3⟩
        rcases List.mem_cons.mp hu with rfl | hu
        · omega
        · exact e2 u hu

/-- Where the code and the segments in RAM are in the file. -/
theorem lld_bytes (hc : c.Of l) (he : LldFile e l k c) :
    4096 + l.text.size ≤ e.bytes.length ∧ (∀ i, i < l.text.size → e.bytes[4096 + i]? = c.text[i]?) ∧
    ∀ q ∈ phdrs (4096 + l.text.size) (groups (ramOut l k)), q.offset + q.filesz ≤ e.bytes.length ∧
      ∀ i, i < q.filesz → e.bytes[q.offset + i]? = some (imageOf l c (q.vaddr + i)) := by
  obtain ⟨head, rest, h1, h2⟩ := he.bytes
  have hct := hc.1
  have hlen : e.bytes.length = 4096 + (l.text.size + ((body (imageOf l c) (4096 + l.text.size) (groups (ramOut l k))).length +
      rest.length)) := by
    rw [h2]; simp only [List.length_append, h1, hct]
  refine ⟨by omega, fun i hi => ?_, fun q hq => ?_⟩
  · rw [h2, List.getElem?_append_right (by omega), List.getElem?_append_left (by omega)]
    congr 1; omega
  · obtain ⟨b1, b2, b3⟩ := body_at (imageOf l c) q _ _ hq
    refine ⟨by omega, fun i hi => ?_⟩
    rw [← b3 i hi, h2, List.getElem?_append_right (by omega), List.getElem?_append_right (by omega),
      List.getElem?_append_left (by omega)]
    exact congrArg (fun n : Nat => (body (imageOf l c) (4096 + l.text.size) (groups (ramOut l k)))[n]?) (by omega)

/-- The file is what C64 expects of a linker, with any sections in RAM, if there are input sections for both tapes. -/
theorem C82_linked (hv : Guest.Valid g) (h : link g = some l) (hc : c.Of l) (he : LldFile e l k c) (ht : 0 < l.text.size)
    (hi : k.inp ≠ none) (ho : k.out ≠ none) (hne : ∃ s ∈ l.ramSections, 0 < s.size) : LinkedAs e l := by
  obtain ⟨t1, -⟩ := C64_text hv h
  obtain ⟨r1, r2, -⟩ := C64_ram hv h
  obtain ⟨b1, -, b3⟩ := lld_bytes hc he
  have htab : e.segments = ⟨PT_LOAD, PF_R + PF_X, PAGE, l.text.addr, l.text.size, l.text.size⟩ ::
      (phdrs (4096 + l.text.size) (groups (ramOut l k)) ++ [stackPhdr]) := by
    rw [he.table]; unfold Link.segments
    rw [if_neg (by omega), List.append_assoc]; rfl
  refine ⟨⟨[], _, _, htab, nofun, ⟨rfl, rfl⟩, rfl, rfl, rfl, b1⟩, fun q hq hr => ?_, ?_, ?_, ?_⟩
  · rw [htab] at hq
    rcases List.mem_cons.mp hq with rfl | hq
    · exact absurd hr.2 (show ¬ (5 = 4 ∨ 5 = 6) by decide)
    · rcases List.mem_append.mp hq with hq | hq
      · have R := ramSeg_of hv h k _ q hq
        obtain ⟨s, s1, s2⟩ := R.start
        refine ⟨⟨s, s1, by omega⟩, R.high, ?_, (b3 q hq).1⟩
        rcases R.file with f | f <;> omega
      · rw [List.mem_singleton.mp hq] at hr
        exact absurd hr.1 (by decide)
  · obtain ⟨as, s, bs, e1, e2, e3⟩ := first_nonempty _ hne
    have hs : s ∈ l.ramSections := by rw [e1]; simp
    have hsa := C64_first hv h as bs s e1 e2
    obtain ⟨o, o1, o2⟩ := ramOut_has hi ho s hs
    obtain ⟨q, q1, q2, -, -⟩ := seg_covers hv h k (4096 + l.text.size) o o1 (by rw [o2]; exact e3)
    have hord := segs_order hv h k (4096 + l.text.size)
    cases hph : phdrs (4096 + l.text.size) (groups (ramOut l k)) with
    | nil => rw [hph] at q1; cases q1
    | cons ph rest =>
      have hm : ph ∈ phdrs (4096 + l.text.size) (groups (ramOut l k)) := by rw [hph]; exact List.mem_cons_self
      have R := ramSeg_of hv h k _ ph hm
      refine ⟨[⟨PT_LOAD, PF_R + PF_X, PAGE, l.text.addr, l.text.size, l.text.size⟩], ph, rest ++ [stackPhdr],
        by rw [htab, hph]; rfl, ?_, R.ram, as, s, bs, e1, e2, e3, ?_⟩
      · intro q hq
        rw [List.mem_singleton.mp hq]
        exact fun hr => absurd hr.2 (show ¬ (5 = 4 ∨ 5 = 6) by decide)
      · have := R.low
        rw [o2] at q2
        rw [hph] at q1 hord
        rcases List.mem_cons.mp q1 with rfl | q1
        · omega
        · have := (List.pairwise_cons.mp hord).1 q q1
          omega
  · rw [he.inp, if_neg hi]
  · rw [he.out, if_neg ho]

theorem image_at (hv : Guest.Valid g) (h : link g = some l) (hc : c.Of l) (x : Sect × List (BitVec 8)) (hx : x ∈ c.ram l)
    (i : Nat) (hi : i < x.1.size) : some (imageOf l c (x.1.addr + i)) = x.2[i]? := by
  obtain ⟨-, -, r3, -⟩ := C64_ram hv h
  have hlen := hc.2 x hx
  have hpw : (c.ram l).Pairwise fun a b => a.1.addr + a.1.size ≤ b.1.addr := by
    refine List.pairwise_map.mp (r3.sublist ?_)
    show [l.inp, l.out, l.rodata, l.data].Sublist ([l.inp, l.out, l.rodata, l.data] ++ [l.bss])
    exact List.sublist_append_left _ _
  have hf : (c.ram l).find? (fun y => decide (y.1.addr ≤ x.1.addr + i ∧ x.1.addr + i < y.1.addr + y.1.size)) = some x := by
    obtain ⟨as, bs, hab⟩ := List.append_of_mem hx
    rw [hab] at hpw ⊢
    refine find_split _ as bs x (fun q hq => ?_) (by simp; omega)
    have := (List.pairwise_append.mp hpw).2.2 q hq x List.mem_cons_self
    simp only [decide_eq_false_iff_not]
    omega
  unfold imageOf
  rw [hf, Option.bind_some, Nat.add_sub_cancel_left, List.getElem?_eq_getElem (by omega)]
  rfl

theorem image_zero (a : Nat) (h : ∀ x ∈ c.ram l, ¬ x.1.has a) : imageOf l c a = 0#8 := by
  unfold imageOf
  have : (c.ram l).find? (fun y => decide (y.1.addr ≤ a ∧ a < y.1.addr + y.1.size)) = none := by
    rw [List.find?_eq_none]
    intro x hx
    have := h x hx
    simpa [Sect.has] using this
  rw [this]; rfl

/-- Nothing is lost: the file lld writes for a guest is loaded with the code as ROM, every section's contents at its
addresses, and zeros everywhere else in the RAM. -/
theorem C82_loads (hv : Guest.Valid g) (h : link g = some l) (hc : c.Of l) (he : LldFile e l k c) (ht : 0 < l.text.size)
    (hi : k.inp ≠ none) (ho : k.out ≠ none) (hne : ∃ s ∈ l.ramSections, 0 < s.size) :
    ∃ p, Phantom.fromElf e = some p ∧ p.bootRom.data = c.text ∧ p.bootRam.offset = 0x40000 ∧ p.bootRam.data.length = 4096 ∧
      p.input = ⟨l.inp.addr, l.inp.size⟩ ∧ p.output = ⟨l.out.addr, l.out.size⟩ ∧
      (∀ x ∈ c.ram l, ∀ i, i < x.1.size → p.bootRam.data[x.1.addr + i - 0x40000]? = x.2[i]?) ∧
      ∀ a, 0x40000 ≤ a → a < 0x41000 → (∀ x ∈ c.ram l, ¬ x.1.has a) → p.bootRam.data[a - 0x40000]? = some 0#8 := by
  have hl := C82_linked hv h hc he ht hi ho hne
  obtain ⟨p, hp, p1, p2, -, p4, p5, -⟩ := C64_loads hv h e hl
  obtain ⟨z1, z2, z3⟩ := C39_zero e p hp
  obtain ⟨r1, r2, r3, -⟩ := C64_ram hv h
  obtain ⟨b1, b2, b3⟩ := lld_bytes hc he
  have htab : e.segments = ⟨PT_LOAD, PF_R + PF_X, PAGE, l.text.addr, l.text.size, l.text.size⟩ ::
      (phdrs (4096 + l.text.size) (groups (ramOut l k)) ++ [stackPhdr]) := by
    rw [he.table]; unfold Link.segments
    rw [if_neg (by omega), List.append_assoc]; rfl
  have hb : p.bootRam.offset = 0x40000 := p1
  -- a loaded segment puts the image into the RAM
  have hseg : ∀ q ∈ phdrs (4096 + l.text.size) (groups (ramOut l k)), q.filesz = q.memsz → ∀ a, q.vaddr ≤ a →
      a < q.vaddr + q.memsz → p.bootRam.data[a - 0x40000]? = some (imageOf l c a) := by
    intro q hq hf a a1 a2
    obtain ⟨as, bs, hab⟩ := List.append_of_mem hq
    have hord := segs_order hv h k (4096 + l.text.size)
    rw [hab] at hord
    have R := ramSeg_of hv h k _ q hq
    have := C64_data_loaded hv h e hl p hp
      (⟨PT_LOAD, PF_R + PF_X, PAGE, l.text.addr, l.text.size, l.text.size⟩ :: as) (bs ++ [stackPhdr]) q
      (by rw [htab, hab]; simp) R.ram hf (fun r hr hram => ?_) a a1 a2
    · rw [this, (b3 q hq).2 (a - q.vaddr) (by omega)]
      congr 2; omega
    · rcases List.mem_append.mp hr with hr | hr
      · exact (List.pairwise_cons.mp (List.pairwise_append.mp hord).2.1).1 r hr
      · rw [List.mem_singleton.mp hr] at hram
        exact absurd hram.1 (by decide)
  refine ⟨p, hp, ?_, hb, z2, p4, p5, fun x hx i hi' => ?_, fun a a1 a2 hno => ?_⟩
  · obtain ⟨pre, txt, post, g1, g2, g3, -, -, -, -, g8, g9⟩ := C39_rom e p hp
    have htx : txt = ⟨PT_LOAD, PF_R + PF_X, PAGE, l.text.addr, l.text.size, l.text.size⟩ := by
      cases pre with
      | nil => rw [htab] at g1; simp only [List.nil_append, List.cons.injEq] at g1; exact g1.1.symm
      | cons a r =>
        exfalso
        rw [htab] at g1
        simp only [List.cons_append, List.cons.injEq] at g1
        exact g3 a List.mem_cons_self (by rw [← g1.1]; exact ⟨rfl, rfl⟩)
    subst htx
    refine List.ext_getElem? fun i => ?_
    by_cases hi' : i < l.text.size
    · rw [g9 i hi']
      exact b2 i hi'
    · have h8 : p.bootRom.data.length = l.text.size := g8
      rw [List.getElem?_eq_none (by omega), List.getElem?_eq_none (by rw [hc.1]; omega)]
  · rw [← image_at hv h hc x hx i hi']
    have hxs : x.1 ∈ [l.inp, l.out, l.rodata, l.data] := List.mem_map.mpr ⟨x, hx, rfl⟩
    obtain ⟨o, o1, o2, o3⟩ := ramOut_content hi ho x.1 hxs
    obtain ⟨q, q1, q2, q3, q4⟩ := seg_covers hv h k (4096 + l.text.size) o o1 (by rw [o2]; omega)
    rw [o2] at q2 q3
    exact hseg q q1 (q4 o3) _ (by omega) (by omega)
  · by_cases hcov : ∃ q ∈ phdrs (4096 + l.text.size) (groups (ramOut l k)), q.filesz = q.memsz ∧ q.vaddr ≤ a ∧
        a < q.vaddr + q.memsz
    · obtain ⟨q, q1, q2, q3, q4⟩ := hcov
      rw [hseg q q1 q2 a q3 q4, image_zero a hno]
    · refine z3 (a - 0x40000) (by omega) (fun q hq hr hlo => hcov ?_)
      rw [hb, show 0x40000 + (a - 0x40000) = a by omega] at hlo
      rw [htab] at hq
      rcases List.mem_cons.mp hq with rfl | hq
      · exact absurd hr.2 (show ¬ (5 = 4 ∨ 5 = 6) by decide)
      · rcases List.mem_append.mp hq with hq | hq
        · unfold Phdr.loads at hlo
          exact ⟨q, hq, by omega, by omega, by omega⟩
        · rw [List.mem_singleton.mp hq] at hr
          exact absurd hr.1 (by decide)

/-- A guest without input sections for one of the tapes is not loaded, whatever else it has: lld drops the section, and the
loader does not find its name. -/
theorem C82_tapes_needed (hk : Kinds.Of k g) (he : LldFile e l k c) (hn : g.inp = [] ∨ g.out = []) :
    Phantom.fromElf e = none := by
  rw [← hk.inp, ← hk.out] at hn
  cases hp : Phantom.fromElf e with
  | none => rfl
  | some p =>
    obtain ⟨_, -, -, -, -, -, -, -, -, -, h1, h2⟩ := fromElf_inv hp
    rw [he.inp] at h1
    rw [he.out] at h2
    rcases hn with hn | hn
    · rw [if_pos hn] at h1; cases h1
    · rw [if_pos hn] at h2; cases h2

/-- End to end: as C64_output, for the file lld writes.  The ROM is the code, so that the parser's acceptance is a fact about the
guest alone. -/
theorem C82_output (F : Fhe) (rand : Nat → Nat → Nat → F.C.Rand) (chk dbg phantomDebug : Bool)
    (threads n : Nat) (hth : 0 < threads) (hn : n < 2 ^ 32)
    (hv : Guest.Valid g) (h : link g = some l) (hc : c.Of l) (he : LldFile e l k c) (ht : 0 < l.text.size)
    (hi : k.inp ≠ none) (ho : k.out ≠ none) (hne : ∃ s ∈ l.ramSections, 0 < s.size) (hfile : e.bytes.length < 2 ^ 63)
    (tape : List Byte) (hlen : tape.length = l.inp.size) (parser : Parser)
    (hpa : Parser.new.addAll dbg (packWords c.text) = some parser) :
    ∃ p ev vm0 vm1, Phantom.fromElf e = some p ∧ p.encryptedVm F.C rand dbg phantomDebug threads tape n = some ev ∧
      p.testVm chk n = some vm0 ∧ vm0.readInputTape chk tape = some vm1 ∧
      ∀ vm2, (∀ k v, k < n → vm1.steps chk k = some v → v.Executes chk (encOk 4096)) → vm1.execute chk = some vm2 →
        ∃ ev2, ev.execute F.C F.decU F.decP = some ev2 ∧ ev2.outputTape F.C chk = vm2.outputTape chk := by
  obtain ⟨p, hp, h1, -⟩ := C82_loads hv h hc he ht hi ho hne
  obtain ⟨p', hp', h2⟩ := C64_output F rand chk dbg phantomDebug threads n hth hn hv h e
    (C82_linked hv h hc he ht hi ho hne) hfile ht tape hlen
  rw [hp] at hp'
  have := Option.some.inj hp'
  subst this
  obtain ⟨ev, vm0, vm1, a1, a2, a3, a4⟩ := h2 parser (by rw [h1]; exact hpa)
  exact ⟨p, ev, vm0, vm1, hp, a1, a2, a3, a4⟩

/-- There is such a file for every guest. -/
theorem lldElf_is (l : Layout) (k : Kinds) (c : Contents) : LldFile (lldElf l k c) l k c := by
  refine ⟨rfl, ⟨List.replicate 4096 0#8, [], List.length_replicate, by rw [List.append_nil]; rfl⟩, ?_, ?_⟩
  · unfold lldElf Elf.sectionByName
    by_cases hi : k.inp = none <;> by_cases ho : k.out = none <;> simp [hi, ho]
  · unfold lldElf Elf.sectionByName
    by_cases hi : k.inp = none <;> by_cases ho : k.out = none <;> simp [hi, ho]

end

/-! ### The guest of C64_data_lost, linked by lld -/

def lldContents4 : Contents :=
  { text := wordBytes [0x0000006F#32], inp := List.replicate 4 0#8, out := List.replicate 4 0#8, rodata := [5, 0, 0, 0]
    data := [7, 0, 0, 0] }

def exKinds4 : Kinds := ⟨some true, some true, some false, some true⟩

example : lldContents4.Of exLayout4 := ⟨by decide, by decide⟩

example : Kinds.Of exKinds4 exGuest4 := ⟨by decide, by decide, by decide, by decide⟩

/-- Tapes, constants, variables and `.bss` in four segments: the flags differ, and `.bss` is kept apart. -/
example : Link.segments exLayout4 exKinds4 = [⟨1, 5, 0x1000, 0, 4, 4⟩, ⟨1, 6, 0x2000, 0x40000, 8, 8⟩,
    ⟨1, 4, 0x2008, 0x40008, 4, 4⟩, ⟨1, 6, 0x200C, 0x4000C, 4, 4⟩, ⟨1, 6, 0x2010, 0x40010, 0, 8⟩, stackPhdr] := by decide

/-- Now the variable is loaded too. -/
example : (Phantom.fromElf (lldElf exLayout4 exKinds4 lldContents4)).map
    (fun p => (p.bootRam.data[8]?, p.bootRam.data[12]?, p.bootRam.data[16]?)) = some (some 5, some 7, some 0) := by
  decide +kernel

/-- Without constants between them the tapes and the variables share a segment. -/
example : Link.segments { exLayout4 with rodata := ⟨0x40008, 0⟩, data := ⟨0x40008, 4⟩, bss := ⟨0x4000C, 8⟩ }
    { exKinds4 with rodata := none } = [⟨1, 5, 0x1000, 0, 4, 4⟩, ⟨1, 6, 0x2000, 0x40000, 12, 12⟩,
    ⟨1, 6, 0x200C, 0x4000C, 0, 8⟩, stackPhdr] := by decide

/-- A guest that takes no input has no section for it, and is not loaded. -/
example : Phantom.fromElf (lldElf exLayout4 { exKinds4 with inp := none } lldContents4) = none :=
  C82_tapes_needed (g := { exGuest4 with inp := [] }) ⟨by decide, by decide, by decide, by decide⟩ (lldElf_is _ _ _)
    (.inl rfl)

/-! ### A file lld has written -/

def exCode5 : List Byte :=
  wordBytes [0x00040137#32, 0x00012083#32, 0x00812183#32, 0x00C12203#32, 0x003080B3#32, 0x004080B3#32, 0x00112223#32, 0x0000006F#32]

def exGuest5 : Guest := { exGuest4 with init := [⟨32, 4⟩] }
def exLayout5 : Layout := { exLayout4 with text := ⟨0, 32⟩ }
def exContents5 : Contents := { lldContents4 with text := exCode5 }

example : link exGuest5 = some exLayout5 := by decide

/-- The file, parsed. -/
def exElf5 : Elf := (ElfBytes.parse lldFile).getD ⟨[], [], []⟩

theorem ex5_parse : ElfBytes.parse lldFile = some exElf5 := by
  have : (ElfBytes.parse lldFile).isSome = true := by decide +kernel
  obtain ⟨x, hx⟩ := Option.isSome_iff_exists.mp this
  unfold exElf5
  rw [hx]; rfl

/-- It is what the model says of lld, byte for byte where the model says something. -/
theorem ex5_lld : LldFile exElf5 exLayout5 exKinds4 exContents5 where
  table := by decide +kernel
  bytes := by
    refine ⟨lldFile.take 4096, lldFile.drop (4096 + 32 + (body (imageOf exLayout5 exContents5) (4096 + exLayout5.text.size)
      (groups (ramOut exLayout5 exKinds4))).length), by decide +kernel, ?_⟩
    exact eq_of_beq (by decide +kernel)
  inp := by decide +kernel
  out := by decide +kernel

/-- From the bytes of that file to the output tape: the input, the constant and the variable are added. -/
example : ((ElfBytes.fromBytes lldFile).bind fun p => (p.testVm true 8).bind fun vm =>
    (vm.readInputTape true [0xFE, 0, 0, 1]).bind fun vm => (vm.execute true).bind fun vm => vm.outputTape true) =
    some [0x0A, 1, 0, 1] := by decide +kernel

/-- The conditions of C82_loads and C82_output are met. -/
example : Guest.Valid exGuest5 ∧ exContents5.Of exLayout5 ∧ 0 < exLayout5.text.size ∧ (∃ s ∈ exLayout5.ramSections, 0 < s.size) ∧
    (Parser.new.addAll true (packWords exContents5.text)).isSome = true := by
  refine ⟨?_, ⟨by decide, by decide⟩, by decide, ⟨exLayout5.inp, by decide, by decide⟩, by decide +kernel⟩
  intro p hp
  simp only [exGuest5, exGuest4, List.cons_append, List.nil_append, List.mem_cons, List.not_mem_nil, or_false] at hp
  rcases hp with rfl | rfl | rfl | rfl | rfl | rfl <;> exact ⟨2, by decide, rfl⟩

end Verif.Props
