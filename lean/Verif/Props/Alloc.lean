import Verif.Spec.Heap
/-
  C43, C44, C45: the allocator of the guest runtime.
-/
namespace Verif.Props
open Model Spec

theorem checkedAdd_some {a b c : GSize} : checkedAdd a b = some c ↔ a.toNat + b.toNat = c.toNat := by
  unfold checkedAdd
  have := a.isLt; have := b.isLt; have hc := c.isLt
  split
  · next h =>
    simp only [Option.some.injEq]
    constructor
    · intro h'; subst h'; rw [BitVec.toNat_add, Nat.mod_eq_of_lt h]
    · intro h'; apply BitVec.eq_of_toNat_eq; rw [BitVec.toNat_add, Nat.mod_eq_of_lt h, h']
  · next h => simp only [reduceCtorEq, false_iff]; omega

theorem checkedAdd_none {a b : GSize} : checkedAdd a b = none ↔ 2 ^ 32 ≤ a.toNat + b.toNat := by
  unfold checkedAdd
  split <;> simp only [reduceCtorEq, false_iff, true_iff] <;> omega

theorem and_mask (x align : GSize) {k : Nat} (hk : align.toNat = 2 ^ k) :
    (x &&& (align - 1)).toNat = x.toNat % align.toNat := by
  have h1 : (align - 1).toNat = 2 ^ k - 1 := by
    have : 0 < 2 ^ k := Nat.two_pow_pos k
    have := align.isLt
    rw [BitVec.toNat_sub]
    show (2 ^ 32 - 1 + align.toNat) % 2 ^ 32 = _
    omega
  rw [BitVec.toNat_and, h1, Nat.and_two_pow_sub_one_eq_mod, hk]

/-- Where the heap of the guest starts, or goes on. -/
def heapAt (fin : GSize) (h : Heap) : Nat := if h.pos = 0 then fin.toNat else h.pos.toNat

theorem roundedUp_unique {p a x y : Nat} (hx : RoundedUp p a x) (hy : RoundedUp p a y) : x = y := by
  obtain ⟨⟨m, hm⟩, h1, h2⟩ := hx
  obtain ⟨⟨n, hn⟩, h3, h4⟩ := hy
  subst hm hn
  congr 1
  apply Nat.le_antisymm
  · apply Nat.le_of_lt_succ
    apply Nat.lt_of_mul_lt_mul_left (a := a)
    rw [Nat.mul_succ]; omega
  · apply Nat.le_of_lt_succ
    apply Nat.lt_of_mul_lt_mul_left (a := a)
    rw [Nat.mul_succ]; omega

theorem alignedPos_some {fin align ptr : GSize} {h : Heap} {k : Nat} (hk : align.toNat = 2 ^ k)
    (hp : alignedPos fin h align = some ptr) : RoundedUp (heapAt fin h) align.toNat ptr.toNat := by
  unfold alignedPos at hp
  have h0 : (if h.pos = 0 then fin else h.pos).toNat = heapAt fin h := by
    unfold heapAt; split <;> rfl
  generalize (if h.pos = 0 then fin else h.pos) = hp0 at hp h0
  simp only at hp
  have hm := and_mask hp0 align hk
  have hpos : 0 < align.toNat := by rw [hk]; exact Nat.two_pow_pos k
  have hlt := Nat.mod_lt hp0.toNat hpos
  have hdm := Nat.div_add_mod hp0.toNat align.toNat
  split at hp
  · next hne =>
    rw [checkedAdd_some] at hp
    have hsub : (align - (hp0 &&& (align - 1))).toNat = align.toNat - hp0.toNat % align.toNat := by
      rw [BitVec.toNat_sub, hm]; have := align.isLt; omega
    have hnz : hp0.toNat % align.toNat ≠ 0 := by
      intro hz; apply hne; apply BitVec.eq_of_toNat_eq; rw [hm, hz]; rfl
    rw [hsub] at hp
    refine ⟨⟨hp0.toNat / align.toNat + 1, ?_⟩, by omega, by omega⟩
    rw [Nat.mul_add, Nat.mul_one]; omega
  · next hz =>
    simp only [ne_eq, Decidable.not_not] at hz
    have := Option.some.inj hp
    subst this
    rw [hz] at hm
    refine ⟨Nat.dvd_of_mod_eq_zero (by rw [← hm]; rfl), by omega, by omega⟩

theorem alignedPos_none {fin align : GSize} {h : Heap} {k : Nat} (hk : align.toNat = 2 ^ k)
    (hp : alignedPos fin h align = none) {x : Nat} (hx : RoundedUp (heapAt fin h) align.toNat x) :
    2 ^ 32 ≤ x := by
  unfold alignedPos at hp
  have h0 : (if h.pos = 0 then fin else h.pos).toNat = heapAt fin h := by
    unfold heapAt; split <;> rfl
  generalize (if h.pos = 0 then fin else h.pos) = hp0 at hp h0
  simp only at hp
  have hm := and_mask hp0 align hk
  have hpos : 0 < align.toNat := by rw [hk]; exact Nat.two_pow_pos k
  have hlt := Nat.mod_lt hp0.toNat hpos
  have hdm := Nat.div_add_mod hp0.toNat align.toNat
  split at hp
  · next hne =>
    rw [checkedAdd_none] at hp
    have hsub : (align - (hp0 &&& (align - 1))).toNat = align.toNat - hp0.toNat % align.toNat := by
      rw [BitVec.toNat_sub, hm]; have := align.isLt; omega
    have hnz : hp0.toNat % align.toNat ≠ 0 := by
      intro hz; apply hne; apply BitVec.eq_of_toNat_eq; rw [hm, hz]; rfl
    rw [hsub] at hp
    have : RoundedUp (heapAt fin h) align.toNat (hp0.toNat + (align.toNat - hp0.toNat % align.toNat)) := by
      refine ⟨⟨hp0.toNat / align.toNat + 1, ?_⟩, by omega, by omega⟩
      rw [Nat.mul_add, Nat.mul_one]; omega
    rw [roundedUp_unique hx this]; exact hp
  · cases hp

/-- The exact behaviour of one call.  It returns the least suitably aligned address at or above the
heap position if block and gap fit below the stack pointer, and moves the position to the end of the
block; otherwise it panics and leaves the position alone. -/
theorem C45_exact (fin sp : GSize) (h : Heap) (bytes align : GSize) (k : Nat) (hk : align.toNat = 2 ^ k)
    (x : Nat) (hx : RoundedUp (if h.pos = 0 then fin.toNat else h.pos.toNat) align.toNat x) :
    (x + bytes.toNat + 0x100 ≤ sp.toNat →
      ∃ ptr h', sysAllocAligned fin sp h bytes align = (h', some ptr) ∧ ptr.toNat = x ∧
        h'.pos.toNat = x + bytes.toNat) ∧
    (sp.toNat < x + bytes.toNat + 0x100 → sysAllocAligned fin sp h bytes align = (h, none)) := by
  have hsp := sp.isLt
  have hgap : MEMORY_GAP.toNat = 0x100 := rfl
  unfold sysAllocAligned
  cases h1 : alignedPos fin h align with
  | none =>
    have := alignedPos_none hk h1 hx
    exact ⟨fun hle => absurd hle (by omega), fun _ => rfl⟩
  | some ptr =>
    have hpx := roundedUp_unique (alignedPos_some hk h1) hx
    simp only
    cases h2 : checkedAdd ptr bytes with
    | none =>
      rw [checkedAdd_none] at h2
      exact ⟨fun hle => absurd hle (by omega), fun _ => rfl⟩
    | some hp =>
      rw [checkedAdd_some] at h2
      simp only
      cases h3 : checkedAdd hp MEMORY_GAP with
      | none =>
        rw [checkedAdd_none] at h3
        exact ⟨fun hle => absurd hle (by omega), fun _ => rfl⟩
      | some g =>
        rw [checkedAdd_some] at h3
        simp only [BitVec.lt_def]
        constructor
        · intro hle
          rw [if_neg (by omega)]
          exact ⟨ptr, ⟨hp⟩, rfl, hpx, by show hp.toNat = _; omega⟩
        · intro hlt
          rw [if_pos (by omega)]

/-- A call either succeeds with the block below the gap, or panics and changes nothing. -/
theorem C45_gap (fin sp : GSize) (h : Heap) (bytes align : GSize) :
    (∃ ptr h', sysAllocAligned fin sp h bytes align = (h', some ptr) ∧
      ptr.toNat + bytes.toNat + 0x100 ≤ sp.toNat) ∨
    sysAllocAligned fin sp h bytes align = (h, none) := by
  have hgap : MEMORY_GAP.toNat = 0x100 := rfl
  unfold sysAllocAligned
  cases h1 : alignedPos fin h align with
  | none => exact .inr rfl
  | some ptr =>
    simp only
    cases h2 : checkedAdd ptr bytes with
    | none => exact .inr rfl
    | some hp =>
      rw [checkedAdd_some] at h2
      simp only
      cases h3 : checkedAdd hp MEMORY_GAP with
      | none => exact .inr rfl
      | some g =>
        rw [checkedAdd_some] at h3
        simp only [BitVec.lt_def]
        split
        · exact .inr rfl
        · exact .inl ⟨ptr, _, rfl, by omega⟩

theorem exists_roundedUp (p a : Nat) (ha : 0 < a) : ∃ x, RoundedUp p a x := by
  refine ⟨(p + (a - 1)) / a * a, ⟨_, Nat.mul_comm _ _⟩, ?_, ?_⟩
  · have := Nat.div_add_mod (p + (a - 1)) a
    have := Nat.mod_lt (p + (a - 1)) ha
    rw [Nat.mul_comm a] at *
    omega
  · have := Nat.div_mul_le_self (p + (a - 1)) a
    omega

theorem call_inv {fin sp ptr : GSize} {h h' : Heap} {bytes align : GSize} {k : Nat}
    (hk : align.toNat = 2 ^ k) (hc : sysAllocAligned fin sp h bytes align = (h', some ptr)) :
    align.toNat ∣ ptr.toNat ∧ heapAt fin h ≤ ptr.toNat ∧ h'.pos.toNat = ptr.toNat + bytes.toNat ∧
      ptr.toNat + bytes.toNat + 0x100 ≤ sp.toNat := by
  obtain ⟨x, hx⟩ := exists_roundedUp (heapAt fin h) align.toNat (by rw [hk]; exact Nat.two_pow_pos k)
  obtain ⟨h1, h2⟩ := C45_exact fin sp h bytes align k hk x hx
  by_cases hle : x + bytes.toNat + 0x100 ≤ sp.toNat
  · obtain ⟨p, g, h3, h4, h5⟩ := h1 hle
    rw [hc] at h3
    have e1 : h' = g := congrArg Prod.fst h3
    have e2 : some ptr = some p := congrArg Prod.snd h3
    have e2 := Option.some.inj e2
    subst e1 e2
    exact ⟨h4 ▸ hx.1, h4 ▸ hx.2.1, by omega, by omega⟩
  · rw [h2 (by omega)] at hc
    have e2 : (none : Option GSize) = some ptr := congrArg Prod.snd hc
    cases e2

/-- C43: the block returned by a call is aligned as requested, whatever the state. -/
theorem C43_aligned (fin sp ptr : GSize) (h h' : Heap) (bytes align : GSize) (k : Nat)
    (hk : align.toNat = 2 ^ k) (hc : sysAllocAligned fin sp h bytes align = (h', some ptr)) :
    align.toNat ∣ ptr.toNat := (call_inv hk hc).1

/-- Induction over histories: every block starts at or above the heap position, blocks come in
increasing order, and the position never moves down. -/
theorem run_inv (fin : GSize) (cs : List HeapCall) : ∀ (h h' : Heap) (bs : List Block),
    ValidLayouts cs → heapRun fin h cs = (h', some bs) →
    (∀ b ∈ bs, heapAt fin h ≤ b.ptr.toNat) ∧
    bs.Pairwise (fun a b => a.size.toNat = 0 ∨ a.ptr.toNat + a.size.toNat ≤ b.ptr.toNat) ∧
    bs.length = (requests cs).length ∧
    ∀ (i : Nat) (b : Block) (r : GSize × GSize × GSize), bs[i]? = some b → (requests cs)[i]? = some r →
      b.size = r.1 ∧ r.2.1.toNat ∣ b.ptr.toNat ∧ b.ptr.toNat + b.size.toNat + 0x100 ≤ r.2.2.toNat := by
  induction cs with
  | nil =>
    intro h h' bs _ hr
    have e : some [] = some bs := congrArg Prod.snd hr
    cases e
    exact ⟨by simp, .nil, rfl, by intro i b r hb; simp at hb⟩
  | cons c cs ih =>
    intro h h' bs hv hr
    have hv' : ValidLayouts cs := fun c hc => hv c (List.mem_cons_of_mem _ hc)
    cases c with
    | dealloc p s a => exact ih h h' bs hv' hr
    | alloc size align sp =>
      obtain ⟨k, hk⟩ := hv _ List.mem_cons_self size align sp rfl
      unfold heapRun at hr
      split at hr
      · have e : (none : Option (List Block)) = some bs := congrArg Prod.snd hr
        cases e
      · next h1 ptr hc =>
        split at hr
        · have e : (none : Option (List Block)) = some bs := congrArg Prod.snd hr
          cases e
        · next h2 bs' hr' =>
          have e : some (⟨ptr, size⟩ :: bs') = some bs := congrArg Prod.snd hr
          cases e
          obtain ⟨i1, i2, i3, i4⟩ := call_inv hk hc
          obtain ⟨j1, j2, j3, j4⟩ := ih h1 h2 bs' hv' hr'
          have hreq : requests (.alloc size align sp :: cs) = (size, align, sp) :: requests cs := rfl
          have hge : ∀ b ∈ bs', size.toNat = 0 ∨ ptr.toNat + size.toNat ≤ b.ptr.toNat := by
            intro b hb
            have := j1 b hb
            unfold heapAt at this
            split at this
            · next hz =>
              have hz' : h1.pos.toNat = 0 := by rw [hz]; rfl
              exact .inl (by omega)
            · exact .inr (by omega)
          have hlow : heapAt fin h ≤ heapAt fin h1 := by
            have hh1 : heapAt fin h1 = if h1.pos = 0 then fin.toNat else h1.pos.toNat := rfl
            rw [hh1]
            split
            · next hz =>
              have hz' : h1.pos.toNat = 0 := by rw [hz]; rfl
              omega
            · omega
          refine ⟨?_, ?_, ?_, ?_⟩
          · intro b hb
            rcases List.mem_cons.mp hb with rfl | hb
            · exact i2
            · exact Nat.le_trans hlow (j1 b hb)
          · exact List.pairwise_cons.mpr ⟨hge, j2⟩
          · rw [hreq, List.length_cons, List.length_cons, j3]
          · intro i b r hb hr
            rw [hreq] at hr
            cases i with
            | zero =>
              have hb := Option.some.inj hb
              have hr := Option.some.inj hr
              subst hb hr
              exact ⟨rfl, i1, i4⟩
            | succ i => exact j4 i b r hb hr

/-- C43 over histories: the `i`-th block has the size and the alignment of the `i`-th request. -/
theorem C43_history (fin : GSize) (cs : List HeapCall) (h' : Heap) (bs : List Block)
    (hv : ValidLayouts cs) (hr : heapRun fin Heap.init cs = (h', some bs)) :
    bs.length = (requests cs).length ∧
    ∀ (i : Nat) (b : Block) (size align sp : GSize), bs[i]? = some b → (requests cs)[i]? = some (size, align, sp) →
      b.size = size ∧ Block.Aligned b align := by
  obtain ⟨-, -, h3, h4⟩ := run_inv fin cs _ _ _ hv hr
  exact ⟨h3, fun i b size align sp hb hq => ⟨(h4 i b _ hb hq).1, (h4 i b _ hb hq).2.1⟩⟩

/-- C44: the blocks of a history lie above the static data and do not overlap. -/
theorem C44_disjoint (fin : GSize) (cs : List HeapCall) (h' : Heap) (bs : List Block)
    (hv : ValidLayouts cs) (hr : heapRun fin Heap.init cs = (h', some bs)) :
    (∀ b ∈ bs, fin.toNat ≤ b.ptr.toNat) ∧ bs.Pairwise Block.Disjoint := by
  obtain ⟨h1, h2, -, -⟩ := run_inv fin cs _ _ _ hv hr
  refine ⟨h1, h2.imp ?_⟩
  rintro a b (hab | hab) n ⟨n1, n2, n3, n4⟩ <;> omega

/-- C45 over histories: every block ends at least 256 bytes below the stack pointer of its call, in
particular in the address space. -/
theorem C45_history (fin : GSize) (cs : List HeapCall) (h' : Heap) (bs : List Block)
    (hv : ValidLayouts cs) (hr : heapRun fin Heap.init cs = (h', some bs)) :
    ∀ (i : Nat) (b : Block) (size align sp : GSize), bs[i]? = some b → (requests cs)[i]? = some (size, align, sp) →
      b.ptr.toNat + b.size.toNat + 0x100 ≤ sp.toNat := by
  obtain ⟨-, -, -, h4⟩ := run_inv fin cs _ _ _ hv hr
  exact fun i b size align sp hb hq => (h4 i b _ hb hq).2.2

/-- What the check does not give: the stack may be lower at a later call, and a block handed out
before then lies in it. -/
theorem C45_later_stack : ∃ (fin : GSize) (cs : List HeapCall) (h' : Heap) (bs : List Block),
    ValidLayouts cs ∧ heapRun fin Heap.init cs = (h', some bs) ∧
    ∃ b ∈ bs, ∃ sp : GSize, b.ptr.toNat ≤ sp.toNat ∧ sp.toNat < b.ptr.toNat + b.size.toNat ∧
      ∀ size align, 0 < align.toNat → (∃ k, align.toNat = 2 ^ k) →
        (sysAllocAligned fin sp h' size align).2 = none := by
  refine ⟨0x40100#32, [.alloc 0x800#32 4#32 0x41000#32], ⟨0x40900#32⟩, [⟨0x40100#32, 0x800#32⟩],
    ?_, by decide +kernel, _, List.mem_singleton.mpr rfl, 0x40800#32, by decide, by decide, ?_⟩
  · intro c hc size align sp he
    rw [List.mem_singleton] at hc
    subst hc
    injection he with h1 h2 h3
    subst h2
    exact ⟨2, rfl⟩
  · rintro size align - ⟨k, hk⟩
    obtain ⟨x, hx⟩ := exists_roundedUp (heapAt 0x40100#32 ⟨0x40900#32⟩) align.toNat
      (by rw [hk]; exact Nat.two_pow_pos k)
    obtain ⟨-, h2⟩ := C45_exact 0x40100#32 0x40800#32 ⟨0x40900#32⟩ size align k hk x hx
    have h3 : (0x40900 : Nat) ≤ x := hx.2.1
    have h4 : (0x40800#32 : GSize).toNat = 0x40800 := rfl
    rw [h2 (by omega)]

/-- A history with three blocks of different alignments and one deallocation. -/
example : heapRun 0x40123#32 Heap.init
    [.alloc 5#32 1#32 0x41000#32, .alloc 8#32 8#32 0x40ff0#32, .dealloc 0x40123#32 5#32 1#32,
      .alloc 0x100#32 16#32 0x41000#32] =
    (⟨0x40230#32⟩, some [⟨0x40123#32, 5#32⟩, ⟨0x40128#32, 8#32⟩, ⟨0x40130#32, 0x100#32⟩]) := by
  decide +kernel

/-- A request that fits exactly, and one byte more. -/
example : sysAllocAligned 0x40123#32 0x41000#32 Heap.init 0xddc#32 4#32 = (⟨0x40f00#32⟩, some 0x40124#32) ∧
    sysAllocAligned 0x40123#32 0x41000#32 Heap.init 0xddd#32 4#32 = (Heap.init, none) := by decide +kernel

end Verif.Props
