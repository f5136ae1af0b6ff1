import Verif.Lemmas.Link
import Verif.Props.EndToEnd
import Verif.Props.Alloc
import Verif.Props.Boot
/-
  C64: the memory layout given by the linker script, and what the loader, the start-up code and the allocator
  get from it.
-/
namespace Verif.Props
open Model Spec Model.Link

/-- The parts of a successful link. -/
theorem link_inv {g : Guest} {l : Layout} (h : link g = some l) :
    l.text = textSection g ∧ l.inp = section_ RAM_ORIGIN g.inp ∧ l.out = section_ l.inp.stop g.out ∧
    l.rodata = rodataSection l.out.stop g.rodata ∧ l.data = section_ l.rodata.stop g.data ∧
    l.bss = section_ l.data.stop g.bss ∧ l.stackStart = 0x41000 ∧ l.gp = l.data.addr + 0x800 ∧
    l.fin = l.bss.stop ∧ l.text.stop ≤ 0x40000 ∧ l.bss.stop ≤ 0x41000 ∧ fill 0 g.got = 0 := by
  unfold link at h
  simp only at h
  split at h
  · next hc =>
    cases h
    refine ⟨rfl, rfl, rfl, rfl, rfl, rfl, rfl, rfl, rfl, ?_, hc.2.1, hc.2.2⟩
    have := hc.1
    rwa [show FLASH_ORIGIN + FLASH_LENGTH = 0x40000 from rfl] at this
  · cases h

section
variable {g : Guest} {l : Layout}

theorem valid_parts (hv : Guest.Valid g) :
    (∀ p ∈ g.init, Piece.Valid p) ∧ (∀ p ∈ g.initRust, Piece.Valid p) ∧ (∀ p ∈ g.text, Piece.Valid p) ∧
    (∀ p ∈ g.inp, Piece.Valid p) ∧ (∀ p ∈ g.out, Piece.Valid p) ∧ (∀ p ∈ g.rodata, Piece.Valid p) ∧
    (∀ p ∈ g.data, Piece.Valid p) ∧ (∀ p ∈ g.bss, Piece.Valid p) := by
  refine ⟨?_, ?_, ?_, ?_, ?_, ?_, ?_, ?_⟩ <;> intro p hp <;> apply hv p <;> simp [hp]

/-- The addresses of the pieces of `.text`. -/
def textAddrs (g : Guest) : List Nat :=
  addrs 0 g.init ++ addrs (alignUp (fill 0 g.init) 4) g.initRust ++
    addrs (fill (alignUp (fill 0 g.init) 4) g.initRust) g.text

theorem text_placed (hv : Guest.Valid g) (h : link g = some l) :
    l.text.addr = 0 ∧ l.text.size = alignUp (fill (fill (alignUp (fill 0 g.init) 4) g.initRust) g.text) 4 ∧
    l.text.size % 4 = 0 ∧ l.text.size ≤ 0x40000 ∧
    PlacedIn l.text (g.init ++ g.initRust ++ g.text) (textAddrs g) ∧
    (∀ a, (addrs 0 g.init)[0]? = some a → a = 0) ∧
    ∀ a, (addrs (alignUp (fill 0 g.init) 4) g.initRust)[0]? = some a → a % 4 = 0 := by
  obtain ⟨v1, v2, v3, -⟩ := valid_parts hv
  obtain ⟨e, -, -, -, -, -, -, -, -, hs, -⟩ := link_inv h
  have hall : ∀ p ∈ g.init ++ g.initRust ++ g.text, Piece.Valid p := by
    intro p hp
    simp only [List.mem_append] at hp
    rcases hp with (hp | hp) | hp
    · exact v1 p hp
    · exact v2 p hp
    · exact v3 p hp
  have h0 : alignUp FLASH_ORIGIN (sectAlign (g.init ++ g.initRust ++ g.text)) = 0 :=
    (sect_start hall 0).2.2 (Nat.dvd_zero _)
  have p1 := pos_of_valid v1
  have p2 := pos_of_valid v2
  have p3 := pos_of_valid v3
  have ea : l.text.addr = 0 := by rw [e]; exact h0
  have es : l.text.size = alignUp (fill (fill (alignUp (fill 0 g.init) 4) g.initRust) g.text) 4 := by
    rw [e]
    show alignUp (fill (fill (alignUp (fill (alignUp FLASH_ORIGIN _) g.init) 4) g.initRust) g.text) 4
      - alignUp FLASH_ORIGIN _ = _
    rw [h0, Nat.sub_zero]
  have a1 := alignUp_spec (fill 0 g.init) 4 (by decide)
  have a2 := alignUp_spec (fill (fill (alignUp (fill 0 g.init) 4) g.initRust) g.text) 4 (by decide)
  have f2 := fill_ge p2 (alignUp (fill 0 g.init) 4)
  have f3 := fill_ge p3 (fill (alignUp (fill 0 g.init) 4) g.initRust)
  have hstop : l.text.addr + l.text.size ≤ 0x40000 := hs
  unfold textAddrs
  refine ⟨ea, es, ?_, by omega, ⟨?_, ?_, ?_⟩, ?_, ?_⟩
  · rw [es]; exact Nat.mod_eq_zero_of_dvd a2.1
  · simp [addrs_length]
  · intro i p a hp ha
    rw [ea, es, Nat.zero_add]
    rw [List.getElem?_append, List.getElem?_append] at hp ha
    simp only [List.length_append, addrs_length] at hp ha
    split at hp
    · split at hp
      · next h1 h2 =>
        rw [if_pos h1, if_pos h2] at ha
        have := addrs_spec p1 _ _ _ _ hp ha
        exact ⟨this.1, Nat.zero_le _, by omega⟩
      · next h1 h2 =>
        rw [if_pos h1, if_neg h2] at ha
        have := addrs_spec p2 _ _ _ _ hp ha
        exact ⟨this.1, Nat.zero_le _, by omega⟩
    · next h1 =>
      rw [if_neg h1] at ha
      have := addrs_spec p3 _ _ _ _ hp ha
      exact ⟨this.1, Nat.zero_le _, by omega⟩
  · intro i j p a b hij hp ha hb
    have hj : j < g.init.length + g.initRust.length + g.text.length := by
      have := (List.getElem?_eq_some_iff.mp hb).1
      simpa [addrs_length, Nat.add_assoc] using this
    rw [List.getElem?_append, List.getElem?_append] at hp ha hb
    simp only [List.length_append, addrs_length] at hp ha hb
    by_cases i1 : i < g.init.length
    · rw [if_pos (by omega), if_pos i1] at hp ha
      have hi := addrs_spec p1 _ _ _ _ hp ha
      by_cases j1 : j < g.init.length
      · rw [if_pos (by omega), if_pos j1] at hb
        exact addrs_order p1 _ _ _ _ _ _ hij hp ha hb
      · by_cases j2 : j < g.init.length + g.initRust.length
        · rw [if_pos j2, if_neg j1] at hb
          have := addrs_spec p2 _ _ _ _ (List.getElem?_eq_getElem (by omega)) hb
          omega
        · rw [if_neg j2] at hb
          have := addrs_spec p3 _ _ _ _ (List.getElem?_eq_getElem (by omega)) hb
          omega
    · by_cases i2 : i < g.init.length + g.initRust.length
      · rw [if_pos i2, if_neg i1] at hp ha
        have hi := addrs_spec p2 _ _ _ _ hp ha
        by_cases j2 : j < g.init.length + g.initRust.length
        · rw [if_pos j2, if_neg (by omega)] at hb
          exact addrs_order p2 _ _ _ _ _ _ (by omega) hp ha hb
        · rw [if_neg j2] at hb
          have := addrs_spec p3 _ _ _ _ (List.getElem?_eq_getElem (by omega)) hb
          omega
      · rw [if_neg i2] at hp ha
        rw [if_neg (by omega)] at hb
        exact addrs_order p3 _ _ _ _ _ _ (by omega) hp ha hb
  · intro a ha
    cases hi : g.init with
    | nil => rw [hi] at ha; simp [addrs] at ha
    | cons p ps =>
      rw [hi] at ha
      simp only [addrs, List.getElem?_cons_zero, Option.some.injEq] at ha
      rw [← ha]
      exact alignUp_of_dvd (p1 p (by rw [hi]; simp)) (Nat.dvd_zero _)
  · intro a ha
    cases hi : g.initRust with
    | nil => rw [hi] at ha; simp [addrs] at ha
    | cons p ps =>
      rw [hi] at ha
      simp only [addrs, List.getElem?_cons_zero, Option.some.injEq] at ha
      obtain ⟨k, -, hk⟩ := v2 p (by rw [hi]; simp)
      rw [← ha, hk]
      apply Nat.mod_eq_zero_of_dvd
      by_cases hk2 : 2 ≤ k
      · exact Nat.dvd_trans (Nat.pow_dvd_pow 2 hk2) (alignUp_spec _ _ (Nat.two_pow_pos k)).1
      · rw [alignUp_of_dvd (Nat.two_pow_pos k) (Nat.dvd_trans (Nat.pow_dvd_pow 2 (show k ≤ 2 by omega)) a1.1)]
        exact a1.1

/-- `.text` is at address 0, a whole number of words, within the 256 KiB before the RAM; its pieces are aligned
and disjoint, the first piece of `.init` (which holds `_start`) is at address 0, and those of `.init.rust` are
at multiples of 4. -/
theorem C64_text (hv : Guest.Valid g) (h : link g = some l) :
    l.text.addr = 0 ∧ l.text.size % 4 = 0 ∧ l.text.size ≤ 0x40000 ∧
    ∃ as bs cs, PlacedIn l.text (g.init ++ g.initRust ++ g.text) (as ++ bs ++ cs) ∧
      as.length = g.init.length ∧ bs.length = g.initRust.length ∧
      (∀ a, as[0]? = some a → a = 0) ∧ ∀ a, bs[0]? = some a → a % 4 = 0 := by
  obtain ⟨h1, -, h2, h3, h4, h5, h6⟩ := text_placed hv h
  exact ⟨h1, h2, h3, addrs 0 g.init, addrs (alignUp (fill 0 g.init) 4) g.initRust,
    addrs (fill (alignUp (fill 0 g.init) 4) g.initRust) g.text, h4, addrs_length _ _, addrs_length _ _, h5, h6⟩

/-- The RAM sections follow each other without overlap, at multiples of 4, from 0x40000 to `_end`, which is not
above the end of the RAM; their pieces are aligned and disjoint.  `.text` ends before them. -/
theorem C64_ram (hv : Guest.Valid g) (h : link g = some l) :
    (∀ s ∈ l.ramSections, 4 ∣ s.addr ∧ 0x40000 ≤ s.addr ∧ s.addr + s.size ≤ l.fin) ∧ l.fin ≤ 0x41000 ∧
    l.ramSections.Pairwise (fun a b => a.addr + a.size ≤ b.addr) ∧
    l.text.addr + l.text.size ≤ 0x40000 ∧
    (∃ as, PlacedIn l.inp g.inp as) ∧ (∃ as, PlacedIn l.out g.out as) ∧ (∃ as, PlacedIn l.rodata g.rodata as) ∧
    (∃ as, PlacedIn l.data g.data as) ∧ ∃ as, PlacedIn l.bss g.bss as := by
  obtain ⟨-, -, -, v4, v5, v6, v7, v8⟩ := valid_parts hv
  obtain ⟨-, e1, e2, e3, e4, e5, -, -, ef, hs, hb, -⟩ := link_inv h
  obtain ⟨a1, b1, c1, d1, -⟩ := section_spec v4 RAM_ORIGIN
  obtain ⟨a2, b2, c2, d2, -⟩ := section_spec v5 l.inp.stop
  obtain ⟨a3, b3, -, c3, d3, -⟩ := rodata_spec v6 l.out.stop
  obtain ⟨a4, b4, c4, d4, -⟩ := section_spec v7 l.rodata.stop
  obtain ⟨a5, b5, c5, d5, -⟩ := section_spec v8 l.data.stop
  rw [← e1] at a1 b1 c1 d1
  rw [← e2] at a2 b2 c2 d2
  rw [← e3] at a3 b3 c3 d3
  rw [← e4] at a4 b4 c4 d4
  rw [← e5] at a5 b5 c5 d5
  have q1 := placedIn_of v4 (s := l.inp) (by rw [c1]; exact Nat.le_refl _)
  have q2 := placedIn_of v5 (s := l.out) (by rw [c2]; exact Nat.le_refl _)
  have q3 := placedIn_of v6 (s := l.rodata) c3
  have q4 := placedIn_of v7 (s := l.data) (by rw [c4]; exact Nat.le_refl _)
  have q5 := placedIn_of v8 (s := l.bss) (by rw [c5]; exact Nat.le_refl _)
  have hR : RAM_ORIGIN = 0x40000 := rfl
  simp only [Sect.stop] at *
  refine ⟨?_, by omega, ?_, hs, ⟨_, q1⟩, ⟨_, q2⟩, ⟨_, q3⟩, ⟨_, q4⟩, ⟨_, q5⟩⟩
  · intro s hs'
    simp only [Layout.ramSections, List.mem_cons, List.not_mem_nil, or_false] at hs'
    rcases hs' with rfl | rfl | rfl | rfl | rfl <;> refine ⟨by assumption, ?_, ?_⟩ <;> omega
  · simp only [Layout.ramSections, List.pairwise_cons, List.mem_cons, List.not_mem_nil, or_false,
      forall_eq_or_imp, forall_eq, List.Pairwise.nil, and_true, false_implies, implies_true]
    refine ⟨⟨?_, ?_, ?_, ?_⟩, ⟨?_, ?_, ?_⟩, ⟨?_, ?_⟩, ?_⟩ <;> omega

/-- The first RAM section that is not empty is at 0x40000. -/
theorem C64_first (hv : Guest.Valid g) (h : link g = some l) (as bs : List Sect) (s : Sect)
    (hs : l.ramSections = as ++ s :: bs) (h0 : ∀ t ∈ as, t.size = 0) : s.addr = 0x40000 := by
  obtain ⟨-, -, -, v4, v5, v6, v7, v8⟩ := valid_parts hv
  obtain ⟨-, e1, e2, e3, e4, e5, -, -, -, -, -, -⟩ := link_inv h
  have d : (4096 : Nat) ∣ 0x40000 := by decide
  have n1 : l.inp.addr = 0x40000 := by rw [e1]; exact (section_spec v4 RAM_ORIGIN).2.2.2.2 d
  have n2 : l.inp.size = 0 → l.out.addr = 0x40000 := fun z => by
    have : l.inp.stop = 0x40000 := by unfold Sect.stop; omega
    rw [e2, this]; exact (section_spec v5 _).2.2.2.2 d
  have n3 : l.inp.size = 0 → l.out.size = 0 → l.rodata.addr = 0x40000 := fun z1 z => by
    have := n2 z1
    have : l.out.stop = 0x40000 := by unfold Sect.stop; omega
    rw [e3, this]; exact (rodata_spec v6 _).2.2.2.2.2 d
  have n4 : l.inp.size = 0 → l.out.size = 0 → l.rodata.size = 0 → l.data.addr = 0x40000 := fun z1 z2 z => by
    have := n3 z1 z2
    have : l.rodata.stop = 0x40000 := by unfold Sect.stop; omega
    rw [e4, this]; exact (section_spec v7 _).2.2.2.2 d
  have n5 : l.inp.size = 0 → l.out.size = 0 → l.rodata.size = 0 → l.data.size = 0 → l.bss.addr = 0x40000 :=
    fun z1 z2 z3 z => by
      have := n4 z1 z2 z3
      have : l.data.stop = 0x40000 := by unfold Sect.stop; omega
      rw [e5, this]; exact (section_spec v8 _).2.2.2.2 d
  unfold Layout.ramSections at hs
  rcases as with _ | ⟨t1, _ | ⟨t2, _ | ⟨t3, _ | ⟨t4, _ | ⟨t5, as⟩⟩⟩⟩⟩ <;>
    simp only [List.nil_append, List.cons_append, List.cons.injEq] at hs
  · rw [← hs.1]; exact n1
  · rw [← hs.2.1]; exact n2 (hs.1 ▸ h0 t1 (by simp))
  · rw [← hs.2.2.1]; exact n3 (hs.1 ▸ h0 t1 (by simp)) (hs.2.1 ▸ h0 t2 (by simp))
  · rw [← hs.2.2.2.1]
    exact n4 (hs.1 ▸ h0 t1 (by simp)) (hs.2.1 ▸ h0 t2 (by simp)) (hs.2.2.1 ▸ h0 t3 (by simp))
  · rw [← hs.2.2.2.2.1]
    exact n5 (hs.1 ▸ h0 t1 (by simp)) (hs.2.1 ▸ h0 t2 (by simp)) (hs.2.2.1 ▸ h0 t3 (by simp))
      (hs.2.2.2.1 ▸ h0 t4 (by simp))
  · have := hs.2.2.2.2.2
    cases as <;> simp at this

/-- The symbols: the stack starts at the end of the RAM, above all sections; `_end` is the end of the last
section; every byte of `.data` and `.bss` is within the reach of a signed 12-bit offset from the global
pointer. -/
theorem C64_symbols (hv : Guest.Valid g) (h : link g = some l) :
    l.stackStart = 0x41000 ∧ (∀ s ∈ l.ramSections, ∀ a, s.has a → a < l.fin) ∧ l.fin ≤ l.stackStart ∧
    (∀ a, l.data.has a ∨ l.bss.has a → -2048 ≤ (a : Int) - l.gp ∧ (a : Int) - l.gp ≤ 2047) := by
  obtain ⟨r1, r2, -⟩ := C64_ram hv h
  obtain ⟨-, -, -, -, -, e5, es, eg, ef, -⟩ := link_inv h
  refine ⟨es, fun s hs a ha => ?_, by omega, fun a ha => ?_⟩
  · have := (r1 s hs).2.2
    unfold Sect.has at ha
    omega
  · have m1 := r1 l.data (by simp [Layout.ramSections])
    have m2 := r1 l.bss (by simp [Layout.ramSections])
    have m3 : l.data.addr ≤ l.bss.addr := by
      have := (section_spec (valid_parts hv).2.2.2.2.2.2.2 l.data.stop).2.1
      rw [← e5] at this
      unfold Sect.stop at this
      omega
    unfold Sect.has at ha
    omega

/-- The allocator, started with the address of `_end`: its blocks are disjoint from each other and from all
sections, and inside the RAM as long as the stack pointer is. -/
theorem C64_heap (hv : Guest.Valid g) (h : link g = some l) (fin : GSize) (hf : fin.toNat = l.fin)
    (cs : List HeapCall) (h' : Heap) (bs : List Block) (hc : ValidLayouts cs)
    (hr : heapRun fin Heap.init cs = (h', some bs))
    (hsp : ∀ size align sp, (size, align, sp) ∈ requests cs → sp.toNat ≤ l.stackStart) :
    bs.Pairwise Block.Disjoint ∧ ∀ b ∈ bs, 0x40000 ≤ b.ptr.toNat ∧ b.ptr.toNat + b.size.toNat ≤ 0x41000 ∧
      ∀ s ∈ l.ramSections, ∀ a, s.has a → a < b.ptr.toNat := by
  obtain ⟨d1, d2⟩ := C44_disjoint fin cs h' bs hc hr
  obtain ⟨s1, s2, s3, -⟩ := C64_symbols hv h
  obtain ⟨r1, -⟩ := C64_ram hv h
  refine ⟨d2, fun b hb => ?_⟩
  have hlo := d1 b hb
  rw [hf] at hlo
  obtain ⟨i, hi⟩ := List.getElem?_of_mem hb
  refine ⟨?_, ?_, fun s hs a ha => Nat.lt_of_lt_of_le (s2 s hs a ha) hlo⟩
  · have := r1 l.inp (by simp [Layout.ramSections])
    omega
  · have hlen : bs.length = (requests cs).length := (run_inv fin cs _ _ _ hc hr).2.2.1
    have hi' : i < (requests cs).length := by
      rw [← hlen]; exact (List.getElem?_eq_some_iff.mp hi).1
    obtain ⟨q, hq⟩ : ∃ q, (requests cs)[i]? = some q := ⟨_, List.getElem?_eq_getElem hi'⟩
    have := C45_history fin cs h' bs hc hr i b q.1 q.2.1 q.2.2 hi hq
    have := hsp q.1 q.2.1 q.2.2 (List.mem_of_getElem? hq)
    omega

/-- The start-up code (C56) gets what it needs: with the symbols of the script the entry point is a multiple of
4 in the lowest 256 KiB, the stack pointer is the end of the RAM, and the code leads from address 0 to the entry
point with the three pointers set. -/
theorem C64_boot (hv : Guest.Valid g) (h : link g = some l) (p : Piece) (ps : List Piece)
    (hi : g.initRust = p :: ps) (h0 : 0 < p.size) :
    ∃ entry, 4 ∣ entry ∧ entry + p.size ≤ l.text.size ∧
    ∀ (fetch : Word → Option Instr) (s : Arch), s.pc = 0#32 → (s.x 10#5).toInt ≤ 0 →
      BootAt fetch (BitVec.ofNat 32 l.gp) (BitVec.ofNat 32 l.stackStart) (BitVec.ofNat 32 entry) →
      ∃ s', Runs fetch (fun i s => i.harmless s ∧ i.encSupported s) 7 s s' ∧ s'.pc.toNat = entry ∧ s'.mem = s.mem ∧
        (s'.x 2#5).toNat = 0x41000 ∧ (s'.x 3#5).toNat = l.gp := by
  obtain ⟨t1, t2, t3, as, bs, cs, hp, la, lb, -, h4⟩ := C64_text hv h
  have hb : 0 < bs.length := by rw [lb, hi]; simp
  obtain ⟨entry, he⟩ : ∃ a, bs[0]? = some a := ⟨_, List.getElem?_eq_getElem hb⟩
  have hmem := hp.2.1 g.init.length p entry
    (by rw [List.append_assoc, List.getElem?_append_right (Nat.le_refl _), Nat.sub_self, hi]; rfl)
    (by rw [List.append_assoc, List.getElem?_append_right (by omega), la, Nat.sub_self,
          List.getElem?_append_left hb, he])
  have h4' := h4 entry he
  obtain ⟨es, -, -⟩ := C64_symbols hv h
  obtain ⟨r1, r2, -⟩ := C64_ram hv h
  have hd := r1 l.data (by simp [Layout.ramSections])
  obtain ⟨-, -, -, -, -, -, -, eg, -⟩ := link_inv h
  have be : (BitVec.ofNat 32 entry).toNat = entry := by rw [BitVec.toNat_ofNat]; omega
  have bg : (BitVec.ofNat 32 l.gp).toNat = l.gp := by rw [BitVec.toNat_ofNat]; omega
  refine ⟨entry, Nat.dvd_of_mod_eq_zero h4', by omega, fun fetch s hpc hx hb => ?_⟩
  obtain ⟨s', q1, q2, q3, q4⟩ := C56_isa fetch s _ _ _ hpc hx hb (by omega) (by omega)
  refine ⟨s', q1, by rw [q2, be], q3, ?_, ?_⟩
  · rw [q4, es]; rfl
  · rw [q4]
    show (BitVec.ofNat 32 l.gp).toNat = _
    exact bg

theorem loadSegments_total (e : Elf) (base : Nat) (phs : List Phdr) (ram : List Byte) (hl : ram.length = 4096)
    (h : ∀ q ∈ phs, base ≤ q.vaddr ∧ q.vaddr + q.memsz ≤ base + 4096 ∧
      (q.filesz = q.memsz → q.offset + q.memsz ≤ e.bytes.length)) :
    ∃ out, loadSegments e base phs ram = some out := by
  induction phs generalizing ram with
  | nil => exact ⟨ram, rfl⟩
  | cons q phs ih =>
    obtain ⟨h1, h2, h3⟩ := h q (by simp)
    have hseg : ∃ r, loadSegment e base ram q = some r ∧ r.length = 4096 := by
      unfold loadSegment
      split
      · next hc =>
        have hs : slice e.bytes q.offset q.memsz = some ((e.bytes.drop q.offset).take q.memsz) := by
          unfold slice; rw [if_pos (h3 hc.2)]
        have hsl := (slice_get hs).2.1
        rw [hs, Option.bind_some]
        have hc' : ∃ r, copyInto ram base q.vaddr ((e.bytes.drop q.offset).take q.memsz) = some r := by
          unfold copyInto
          rw [if_pos ⟨h1, by rw [hsl]; omega⟩]
          exact ⟨_, rfl⟩
        obtain ⟨r, hr⟩ := hc'
        exact ⟨r, hr, by rw [(copyInto_get hr).2.2.1, hl]⟩
      · exact ⟨ram, rfl, hl⟩
    obtain ⟨r, hr, hrl⟩ := hseg
    obtain ⟨out, ho⟩ := ih r hrl (fun q hq => h q (by simp [hq]))
    exact ⟨out, by show (loadSegment e base ram q).bind _ = _; rw [hr, Option.bind_some, ho]⟩

theorem find_split {α : Type} (f : α → Bool) (pre post : List α) (x : α) (hp : ∀ q ∈ pre, f q = false) (hx : f x = true) :
    (pre ++ x :: post).find? f = some x := by
  rw [List.find?_append]
  have : pre.find? f = none := List.find?_eq_none.mpr (fun q hq => by rw [hp q hq]; decide)
  rw [this, List.find?_cons_of_pos hx]; rfl

/-- The ELF file of such a layout is accepted by the loader, which then has what the theorems about both VMs
(C41, C42, C57, C63) assume of it: the RAM at 0x40000, a ROM of whole words, both tapes inside the RAM. -/
theorem C64_loads (hv : Guest.Valid g) (h : link g = some l) (e : Elf) (hl : LinkedAs e l) :
    ∃ p, Phantom.fromElf e = some p ∧ p.bootRam.offset = ramBase ∧ p.bootRom.data.length = l.text.size ∧
      p.bootRom.data.length % 4 = 0 ∧ p.input = ⟨l.inp.addr, l.inp.size⟩ ∧ p.output = ⟨l.out.addr, l.out.size⟩ ∧
      ramBase ≤ p.input.startAddr ∧ p.input.startAddr + p.input.size ≤ p.output.startAddr ∧
      p.output.startAddr + p.output.size ≤ ramBase + 4096 := by
  obtain ⟨t1, t2, t3, -⟩ := C64_text hv h
  obtain ⟨r1, r2, r3, -⟩ := C64_ram hv h
  obtain ⟨pre, txt, post, g1, g2, g3, g4, g5, g6, g7⟩ := hl.text
  obtain ⟨pre', ph, post', f1, f2, f3, as, s, bs, f4, f5, -, f6⟩ := hl.first
  have hs : s.addr = 0x40000 := C64_first hv h as bs s f4 f5
  have htx : e.textHeader = some txt := by
    unfold Elf.textHeader
    rw [List.find?_filter, g1]
    refine find_split _ _ _ _ (fun q hq => ?_) ?_
    · exact decide_eq_false (fun c => g2 q hq ⟨of_decide_eq_true c.1, of_decide_eq_true c.2⟩)
    · exact decide_eq_true ⟨decide_eq_true g3.1, decide_eq_true g3.2⟩
  have hro : e.ramOffset = 0x40000 := by
    unfold Elf.ramOffset Elf.ramHeaders
    rw [List.filter_filter, List.head?_filter, f1]
    rw [find_split _ pre' post' ph]
    · show ph.vaddr = _
      rw [f6, hs]
    · intro q hq
      have := f2 q hq
      unfold Phdr.isRam at this
      apply Bool.and_eq_false_iff.mpr
      by_cases hq1 : q.ptype = 1
      · exact Or.inl (decide_eq_false (fun c => this ⟨hq1, c⟩))
      · exact Or.inr (decide_eq_false hq1)
    · exact Bool.and_eq_true_iff.mpr ⟨decide_eq_true f3.2, decide_eq_true f3.1⟩
  have hsl : slice e.bytes txt.offset txt.memsz = some ((e.bytes.drop txt.offset).take txt.memsz) := by
    unfold slice; rw [if_pos g7]
  have hll := (slice_get hsl).2.1
  obtain ⟨ram, hram⟩ := loadSegments_total e e.ramOffset e.ramHeaders (List.replicate RAM_SIZE 0#8)
    (List.length_replicate) (fun q hq => by
      obtain ⟨m1, m2⟩ := (mem_ramHeaders e q).mp hq
      obtain ⟨⟨s', hs1, hs2⟩, m4, m5, m6⟩ := hl.ram q m1 m2
      have := (r1 s' hs1).2.1
      rw [hro]
      exact ⟨by omega, by omega, fun c => by omega⟩)
  have hfe : Phantom.fromElf e = some
      { bootRom := ⟨(e.bytes.drop txt.offset).take txt.memsz, txt.vaddr, txt.memsz⟩
        bootRam := ⟨ram, e.ramOffset, RAM_SIZE⟩, output := ⟨l.out.addr, l.out.size⟩
        input := ⟨l.inp.addr, l.inp.size⟩ } := by
    unfold Phantom.fromElf
    rw [htx, Option.bind_some, if_pos ⟨by omega, by omega⟩, hsl, Option.bind_some, hram, Option.bind_some, hl.inp,
      Option.bind_some, hl.out]
    rfl
  have hi := r1 l.inp (by simp [Layout.ramSections])
  have ho := r1 l.out (by simp [Layout.ramSections])
  have hio : l.inp.addr + l.inp.size ≤ l.out.addr := by
    unfold Layout.ramSections at r3
    exact (List.pairwise_cons.mp r3).1 l.out (by simp)
  refine ⟨_, hfe, hro, by rw [← g5]; exact hll, ?_, rfl, rfl, hi.2.1, hio, ?_⟩
  · show ((e.bytes.drop txt.offset).take txt.memsz).length % 4 = 0
    rw [hll, g5]; exact t2
  · show l.out.addr + l.out.size ≤ 0x40000 + 4096
    omega

/-- The test VM of an accepted image can be set up and given a tape. -/
theorem testVm_total (chk : Bool) (n : Nat) (e : Elf) (p : Phantom) (tape : List Byte)
    (hfile : e.bytes.length < 2 ^ 63) (hp : Phantom.fromElf e = some p)
    (hl : tape.length = p.input.size) (hb : p.bootRam.offset ≤ p.input.startAddr)
    (he : p.input.startAddr + p.input.size ≤ p.bootRam.offset + 4096) :
    ∃ vm0 vm1, p.testVm chk n = some vm0 ∧ vm0.readInputTape chk tape = some vm1 ∧ vm1.output = p.output ∧
      vm1.ram.offset = p.bootRam.offset ∧ vm1.ram.size = 4096 ∧ vm1.ram.data.length = 4096 := by
  obtain ⟨z1, z2, -⟩ := C39_zero e p hp
  obtain ⟨_, txt, _, -, -, -, -, -, r1, r2, r3, -⟩ := C39_rom e p hp
  have hromlt : p.bootRom.size < 2 ^ 63 := by
    obtain ⟨txt', -, -, -, hsl, -, hsz, -⟩ := fromElf_inv hp
    have := (slice_get hsl).1
    omega
  have key (b : BootMemory) (hs : b.size = b.data.length) (hlt : b.size < 2 ^ 63) :
      (TMem.new b.offset b.size).loadMemory chk b.offset b.data = some ⟨b.data, b.offset, b.size⟩ := by
    unfold TMem.loadMemory TMem.new usizeSub usizeAdd
    simp only [Nat.le_refl, if_true, Nat.sub_self, Option.bind_some, Nat.zero_add]
    rw [if_pos (by omega), Option.bind_some, if_pos ⟨by omega, by simp; omega⟩]
    simp [hs]
  obtain ⟨bytes, hby⟩ : ∃ r, copyInto p.bootRam.data p.bootRam.offset p.input.startAddr tape = some r := by
    unfold copyInto
    rw [if_pos ⟨hb, by omega⟩]
    exact ⟨_, rfl⟩
  have hvm : p.testVm chk n = some { registers := List.replicate 32 0#32, rom := ⟨p.bootRom.data, p.bootRom.offset, p.bootRom.size⟩
                                     ram := ⟨p.bootRam.data, p.bootRam.offset, p.bootRam.size⟩, pc := 0#32, input := p.input
                                     output := p.output, maxCycles := n } := by
    unfold Phantom.testVm TestVM.init
    rw [key _ (r2.trans r3.symm) hromlt, key _ (z1.trans z2.symm) (by rw [z1]; decide)]
    rfl
  refine ⟨_, _, hvm, test_input_eq chk _ tape bytes hl (by show p.bootRam.data.length < _; omega) hby, rfl, rfl, z1, ?_⟩
  show bytes.length = 4096
  rw [(copyInto_get hby).2.2.1, z2]

/-- End to end, for every guest linked with the script: if the parser accepts the instructions, the tape has the
length of the section `.inpdata`, and the test VM runs the guest within what the encrypted VM supports, then both
VMs can be set up and the encrypted VM, under any correct library, gives the output tape of the test VM. -/
theorem C64_output (F : Fhe) (rand : Nat → Nat → Nat → F.C.Rand) (chk dbg phantomDebug : Bool)
    (threads n : Nat) (ht : 0 < threads) (hn : n < 2 ^ 32)
    (hv : Guest.Valid g) (h : link g = some l) (e : Elf) (hl : LinkedAs e l) (hfile : e.bytes.length < 2 ^ 63)
    (htext : 0 < l.text.size) (tape : List Byte) (hlen : tape.length = l.inp.size) :
    ∃ p, Phantom.fromElf e = some p ∧ ∀ parser, Parser.new.addAll dbg (packWords p.bootRom.data) = some parser →
    ∃ ev vm0 vm1, p.encryptedVm F.C rand dbg phantomDebug threads tape n = some ev ∧
      p.testVm chk n = some vm0 ∧ vm0.readInputTape chk tape = some vm1 ∧
      ∀ vm2, (∀ k v, k < n → vm1.steps chk k = some v → v.Executes chk (encOk 4096)) → vm1.execute chk = some vm2 →
        ∃ ev2, ev.execute F.C F.decU F.decP = some ev2 ∧ ev2.outputTape F.C chk = vm2.outputTape chk := by
  obtain ⟨p, hp, hb, h1, h4, hi, ho, b1, b2, b3⟩ := C64_loads hv h e hl
  have hlen' : tape.length = p.input.size := by rw [hi]; exact hlen
  have he : p.input.startAddr + p.input.size ≤ p.bootRam.offset + 4096 := by rw [hb]; omega
  refine ⟨p, hp, fun parser hpa => ?_⟩
  obtain ⟨ev, hev⟩ := C42_setup F rand dbg phantomDebug threads n e p tape parser hp h4
    (by intro c; rw [c] at h1; simp at h1; omega) hpa hlen' (by rw [hb]; exact b1) he
  obtain ⟨vm0, vm1, v1, v2, -⟩ := testVm_total chk n e p tape hfile hp hlen' (by rw [hb]; exact b1) he
  exact ⟨ev, vm0, vm1, hev, v1, v2, fun vm2 hex hrun =>
    C42_output F rand chk dbg phantomDebug threads n e p tape ev vm0 vm1 vm2 hfile hp hb ht hn hev v1 v2 hex hrun⟩

/-- What C39 means for such a guest: initialised variables are lost if the linker puts `.data` and a `.bss` that
is not empty in one segment (as is usual for adjacent sections of equal flags; with this script lld does not, C82): the
segment is larger in memory than in the file, the loader skips it, and the variables start as zeros whatever the file says. -/
theorem C64_data_lost (hv : Guest.Valid g) (h : link g = some l) (e : Elf) (hl : LinkedAs e l) (p : Phantom)
    (hp : Phantom.fromElf e = some p) (q : Phdr) (hlt : q.filesz < q.memsz) (hq : ∀ r ∈ e.segments, r.isRam →
      r = q ∨ r.vaddr + r.memsz ≤ l.data.addr) (a : Nat) (ha : l.data.has a) :
    p.bootRam.data[a - 0x40000]? = some 0#8 := by
  obtain ⟨p', hp', hb, -⟩ := C64_loads hv h e hl
  rw [hp'] at hp
  have := Option.some.inj hp
  subst this
  obtain ⟨r1, r2, -⟩ := C64_ram hv h
  have hd := r1 l.data (by simp [Layout.ramSections])
  unfold Sect.has at ha
  have hb' : p'.bootRam.offset = 0x40000 := hb
  refine (C39_zero e p' hp').2.2 (a - 0x40000) (by omega) (fun r hr hram c => ?_)
  rw [hb'] at c
  unfold Phdr.loads at c
  rcases hq r hr hram with rfl | hle <;> omega

/-- Without that, they are loaded: a segment with nothing but file contents ends up at its addresses. -/
theorem C64_data_loaded (hv : Guest.Valid g) (h : link g = some l) (e : Elf) (hl : LinkedAs e l) (p : Phantom)
    (hp : Phantom.fromElf e = some p) (pre post : List Phdr) (q : Phdr) (hs : e.segments = pre ++ q :: post)
    (hr : q.isRam) (hf : q.filesz = q.memsz) (hpost : ∀ r ∈ post, r.isRam → q.vaddr + q.memsz ≤ r.vaddr)
    (a : Nat) (h1 : q.vaddr ≤ a) (h2 : a < q.vaddr + q.memsz) :
    p.bootRam.data[a - 0x40000]? = e.bytes[q.offset + (a - q.vaddr)]? := by
  obtain ⟨p', hp', hb, -⟩ := C64_loads hv h e hl
  rw [hp'] at hp
  have := Option.some.inj hp
  subst this
  have hb' : p'.bootRam.offset = 0x40000 := hb
  have := (C39_ram_partial e p' hp' pre post q hs hr hf (a - q.vaddr) (by omega) (fun r hr' hram c => by
    have := hpost r hr' hram
    unfold Phdr.loads at c
    omega)).2.2.1
  rw [hb', show q.vaddr + (a - q.vaddr) = a by omega] at this
  exact this

end

/-! ### A guest -/

/-- `_start` of 36 bytes, an entry point, code of odd size; a tape of 4 bytes each way, constants of 5 bytes,
a variable, and a static buffer aligned to 16. -/
def exGuest : Guest :=
  { init := [⟨36, 4⟩], initRust := [⟨8, 4⟩], text := [⟨22, 2⟩, ⟨100, 4⟩], inp := [⟨4, 4⟩], out := [⟨4, 4⟩]
    rodata := [⟨5, 1⟩], data := [⟨4, 4⟩], bss := [⟨100, 16⟩], got := [] }

example : Guest.Valid exGuest := by
  intro p hp
  simp only [exGuest, List.cons_append, List.nil_append, List.mem_cons, List.not_mem_nil, or_false] at hp
  rcases hp with rfl | rfl | rfl | rfl | rfl | rfl | rfl | rfl | rfl
  · exact ⟨2, by decide, rfl⟩
  · exact ⟨2, by decide, rfl⟩
  · exact ⟨1, by decide, rfl⟩
  · exact ⟨2, by decide, rfl⟩
  · exact ⟨2, by decide, rfl⟩
  · exact ⟨2, by decide, rfl⟩
  · exact ⟨0, by decide, rfl⟩
  · exact ⟨2, by decide, rfl⟩
  · exact ⟨4, by decide, rfl⟩

example : link exGuest = some
    { text := ⟨0, 168⟩, inp := ⟨0x40000, 4⟩, out := ⟨0x40004, 4⟩, rodata := ⟨0x40008, 8⟩, data := ⟨0x40010, 4⟩
      bss := ⟨0x40020, 100⟩, stackStart := 0x41000, gp := 0x40810, fin := 0x40084 } := by decide

/-- More than 4096 bytes of data do not link, and neither does a non-empty `.got`. -/
example : link { exGuest with bss := [⟨5000, 4⟩] } = none := by decide
example : link { exGuest with got := [⟨4, 4⟩] } = none := by decide

/-- The program of `exElf3` (C42) as a guest of the script. -/
def exGuest3 : Guest :=
  { init := [⟨20, 4⟩], initRust := [], text := [], inp := [⟨4, 4⟩], out := [⟨4, 4⟩], rodata := [], data := []
    bss := [], got := [] }

def exLayout3 : Layout :=
  { text := ⟨0, 20⟩, inp := ⟨0x40000, 4⟩, out := ⟨0x40004, 4⟩, rodata := ⟨0x40008, 0⟩, data := ⟨0x40008, 0⟩
    bss := ⟨0x40008, 0⟩, stackStart := 0x41000, gp := 0x40808, fin := 0x40008 }

example : link exGuest3 = some exLayout3 := by decide

example : LinkedAs exElf3 exLayout3 where
  text := ⟨[], _, _, rfl, by simp, ⟨rfl, rfl⟩, rfl, rfl, rfl, by decide⟩
  ram := by
    intro q hq hr
    simp only [exElf3, List.mem_cons, List.not_mem_nil, or_false] at hq
    rcases hq with rfl | rfl
    · exact absurd hr (by unfold Phdr.isRam; decide)
    · exact ⟨⟨exLayout3.inp, by simp [Layout.ramSections], by decide⟩, by decide, by decide, by decide⟩
  first := ⟨[⟨1, 5, 0, 0, 20, 20⟩], _, [], rfl, by unfold Phdr.isRam; simp, ⟨rfl, Or.inr rfl⟩, [], _, _, rfl,
    by simp, by decide, rfl⟩
  inp := by decide
  out := by decide

/-- A guest with a variable of value 7 and a static buffer. -/
def exGuest4 : Guest :=
  { init := [⟨4, 4⟩], initRust := [], text := [], inp := [⟨4, 4⟩], out := [⟨4, 4⟩], rodata := [⟨4, 4⟩], data := [⟨4, 4⟩]
    bss := [⟨8, 4⟩], got := [] }

def exLayout4 : Layout :=
  { text := ⟨0, 4⟩, inp := ⟨0x40000, 4⟩, out := ⟨0x40004, 4⟩, rodata := ⟨0x40008, 4⟩, data := ⟨0x4000C, 4⟩
    bss := ⟨0x40010, 8⟩, stackStart := 0x41000, gp := 0x4080C, fin := 0x40018 }

/-- Its ELF file: tapes, constants (the byte 5), and one segment for `.data` and `.bss`. -/
def exElf4 : Elf :=
  { bytes := wordBytes [0x0000006F#32] ++ List.replicate 8 0#8 ++ [5, 0, 0, 0] ++ [7, 0, 0, 0]
    segments := [⟨1, 5, 0, 0, 4, 4⟩, ⟨1, 6, 4, 0x40000, 8, 8⟩, ⟨1, 4, 12, 0x40008, 4, 4⟩, ⟨1, 6, 16, 0x4000C, 4, 12⟩]
    sections := [(".inpdata", ⟨0x40000, 4⟩), (".outdata", ⟨0x40004, 4⟩)] }

example : link exGuest4 = some exLayout4 := by decide

example : LinkedAs exElf4 exLayout4 where
  text := ⟨[], _, _, rfl, by simp, ⟨rfl, rfl⟩, rfl, rfl, rfl, by decide⟩
  ram := by
    intro q hq hr
    simp only [exElf4, List.mem_cons, List.not_mem_nil, or_false] at hq
    rcases hq with rfl | rfl | rfl | rfl
    · exact absurd hr (by unfold Phdr.isRam; decide)
    · exact ⟨⟨exLayout4.inp, by simp [Layout.ramSections], by decide⟩, by decide, by decide, by decide⟩
    · exact ⟨⟨exLayout4.inp, by simp [Layout.ramSections], by decide⟩, by decide, by decide, by decide⟩
    · exact ⟨⟨exLayout4.inp, by simp [Layout.ramSections], by decide⟩, by decide, by decide, by decide⟩
  first := ⟨[⟨1, 5, 0, 0, 4, 4⟩], _, _, rfl, by unfold Phdr.isRam; simp, ⟨rfl, Or.inr rfl⟩, [], _, _, rfl,
    by simp, by decide, rfl⟩
  inp := by decide
  out := by decide

/-- The constant is loaded, the variable is not. -/
example : (Phantom.fromElf exElf4).map (fun p => (p.bootRam.data[8]?, p.bootRam.data[12]?)) = some (some 5, some 0) := by
  decide +kernel

end Verif.Props
