import Verif.Model.Noise
import Verif.Lemmas.Prepare
/-
  Noise of the memory operations.
-/
namespace Verif.Model

theorem LRel.mono {α β : Type} {R R' : α → β → Prop} (h : ∀ a b, R a b → R' a b) {l : List α}
    {l' : List β} (hl : LRel R l l') : LRel R' l l' := by
  have := LRel.map (f := id) (g := id) h hl
  simpa using this

namespace Noisy

variable (N : Noisy)

theorem G_mono {ν μ a p} (h : ν ≤ μ) (ha : N.G ν a p) : N.G μ a p := by
  intro i
  obtain ⟨e, z, he, hz⟩ := ha i
  exact ⟨e, z, Nat.le_trans he h, hz⟩

theorem G_zero : N.G 0 N.B.glweZero fun _ => 0#2 := by
  intro i
  obtain ⟨z, hz⟩ := N.phase_zero i
  exact ⟨0, z, by simp, by simp [hz]⟩

/-- Noise adds up. -/
theorem G_add {ν μ a b p q} (ha : N.G ν a p) (hb : N.G μ b q) :
    N.G (ν + μ) (N.B.add a b) fun i => p i + q i := by
  intro i
  obtain ⟨e, z, he, hz⟩ := ha i
  obtain ⟨f, y, hf, hy⟩ := hb i
  obtain ⟨x, hx⟩ := N.phase_add a b i
  have hs : ((p i + q i).toNat : Int) = (p i).toNat + (q i).toNat
      ∨ ((p i + q i).toNat : Int) = (p i).toNat + (q i).toNat - 4 := by
    rw [BitVec.toNat_add]
    have := (p i).isLt
    have := (q i).isLt
    omega
  rcases hs with hs | hs
  · refine ⟨e + f, z + y + x, by omega, ?_⟩
    rw [hx, hz, hy, hs]
    simp only [Int.mul_add, Int.mul_sub]
    omega
  · refine ⟨e + f, z + y + x + 1, by omega, ?_⟩
    rw [hx, hz, hy, hs]
    simp only [Int.mul_add, Int.mul_sub]
    omega

/-- Removing the constant coefficient costs one trace: the noise of the coefficient itself cancels. -/
theorem G_clear {ν a p} (ha : N.G ν a p) :
    N.G (ν + N.c.trace) (N.B.sub a (N.B.trace a))
      ((plain N.B.logN N.lib).sub p ((plain N.B.logN N.lib).trace p)) := by
  intro i
  obtain ⟨e, z, he, hz⟩ := ha i
  obtain ⟨f, y, hf, hy⟩ := N.phase_trace a i
  obtain ⟨x, hx⟩ := N.phase_sub a (N.B.trace a) i
  by_cases h0 : i.val = 0
  · rw [if_pos h0] at hy
    refine ⟨-f, x - y, by omega, ?_⟩
    have e1 : (plain N.B.logN N.lib).sub p ((plain N.B.logN N.lib).trace p) i = 0#2 := by
      show p i - constPoly (coeff0 p) i = 0#2
      have e2 : i = ⟨0, by omega⟩ := Fin.ext h0
      unfold constPoly coeff0
      rw [if_pos h0, dif_pos (by omega), ← e2]
      exact BitVec.sub_self _
    rw [e1, hx, hy]
    simp only [Int.mul_sub]
    simp
    omega
  · rw [if_neg h0] at hy
    refine ⟨e - f, z + x - y, by omega, ?_⟩
    have e1 : (plain N.B.logN N.lib).sub p ((plain N.B.logN N.lib).trace p) i = p i := by
      show p i - constPoly (coeff0 p) i = p i
      unfold constPoly
      rw [if_neg h0]
      exact BitVec.sub_zero _
    rw [e1, hx, hy, hz]
    simp only [Int.mul_add, Int.mul_sub]
    omega

end Noisy

variable (N : Noisy)

/-- Bit arrays whose ciphertexts have noise at most `ν`. -/
structure BitArray.NRel (ν : Nat) (b : BitArray N.B) (b' : BitArray (plain N.B.logN N.lib)) : Prop where
  data : LRel (N.G ν) b.data b'.data
  bitSize : b.bitSize = b'.bitSize

/-- Memories whose ciphertexts have noise at most `ν`. -/
structure Memory.NRel (ν : Nat) (m : Memory N.B) (m' : Memory (plain N.B.logN N.lib)) : Prop where
  bits : LRel (BitArray.NRel N ν) m.bits m'.bits
  size : m.size = m'.size
  bitSize : m.bitSize = m'.bitSize
  state : m.state = m'.state

namespace Noisy
/-- Noise added by bringing a word to the front. -/
def front : Nat := N.c.retrieval + N.c.rotation
/-- Noise added by writing a word whose ciphertext has noise `w` back from the front. -/
def back (w : Nat) : Nat :=
  N.c.trace + (w + N.c.getBit) + N.c.normalize + N.c.rotation + N.c.retrieval
end Noisy

variable {N}

theorem BitArray.NRel.mono {ν μ : Nat} (h : ν ≤ μ) {b : BitArray N.B} {b'}
    (hb : BitArray.NRel N ν b b') : BitArray.NRel N μ b b' :=
  ⟨LRel.mono (fun _ _ h' => N.G_mono h h') hb.data, hb.bitSize⟩

theorem Memory.NRel.mono {ν μ : Nat} (h : ν ≤ μ) {m : Memory N.B} {m'}
    (hm : Memory.NRel N ν m m') : Memory.NRel N μ m m' :=
  ⟨LRel.mono (fun _ _ h' => h'.mono h) hm.bits, hm.size, hm.bitSize, hm.state⟩

/-- `List.modify` at one place, the rest only getting a larger bound. -/
theorem LRel.modify_noise {ν μ : Nat} (hνμ : ν ≤ μ) {l l'} (hl : LRel (N.G ν) l l') (k : Nat) {f g}
    (h : ∀ a a', N.G ν a a' → N.G μ (f a) (g a')) :
    LRel (N.G μ) (l.modify k f) (l'.modify k g) := by
  intro i
  have hi := hl i
  cases h1 : l[i]? <;> cases h2 : l'[i]? <;> rw [h1, h2] at hi
  · rw [List.getElem?_modify, List.getElem?_modify, h1, h2]; trivial
  · exact hi.elim
  · exact hi.elim
  · rw [List.getElem?_modify, List.getElem?_modify, h1, h2]
    by_cases e : k = i
    · simp only [e, if_true, Option.map_some]
      exact h _ _ hi
    · simp only [e, if_false, Option.map_some]
      exact N.G_mono hνμ hi

theorem BitArray.NRel.forward {ν : Nat} {b : BitArray N.B} {b'} (h : BitArray.NRel N ν b b') {p p'}
    (hp : N.P p p') (offset : Nat) :
    LRel (N.G (ν + N.front)) (b.forward p offset) (b'.forward p' offset) := by
  unfold BitArray.forward
  simp only
  rw [h.bitSize]
  have eb : ν + N.front = ν + N.c.retrieval + N.c.rotation := by unfold Noisy.front; omega
  rw [eb]
  refine LRel.modify_noise (Nat.le_add_right _ _) ?_ 0
    (fun a a' ha => N.blindRotate false offset (min N.B.logN b'.bitSize) 0 ha hp)
  split
  · exact N.retrieval _ _ h.data hp
  · exact LRel.mono (fun _ _ h' => N.G_mono (by omega) h') h.data

theorem BitArray.NRel.backward {ν ω : Nat} {b : BitArray N.B} {b'} (h : BitArray.NRel N ν b b') {p p'}
    (hp : N.P p p') {w w'} (hw : N.G (ω + N.c.getBit) w w') (offset : Nat) :
    LRel (N.G (ν + N.back ω)) (b.backward w p offset) (b'.backward w' p' offset) := by
  unfold BitArray.backward
  simp only
  rw [h.bitSize]
  have k1 := LRel.modify_noise (Nat.le_add_right ν N.c.trace) h.data 0
    (f := fun a => N.B.sub a (N.B.trace a))
    (g := fun a => (plain N.B.logN N.lib).sub a ((plain N.B.logN N.lib).trace a))
    (fun a a' ha => N.G_clear ha)
  have k2 := LRel.modify_noise
    (Nat.le_trans (Nat.le_add_right _ (ω + N.c.getBit)) (Nat.le_add_right _ N.c.normalize)) k1 0
    (f := fun a => N.B.normalize (N.B.add a w))
    (g := fun a => (plain N.B.logN N.lib).normalize ((plain N.B.logN N.lib).add a w'))
    (fun a a' ha => N.normalize (N.G_add ha hw))
  have k3 := LRel.modify_noise (Nat.le_add_right _ N.c.rotation) k2 0
    (f := fun a => N.B.blindRotate a p true offset (min N.B.logN b'.bitSize) 0)
    (g := fun a => (plain N.B.logN N.lib).blindRotate a p' true offset (min N.B.logN b'.bitSize) 0)
    (fun a a' ha => N.blindRotate _ _ _ _ ha hp)
  have eb : ν + N.back ω = ν + N.c.trace + (ω + N.c.getBit) + N.c.normalize + N.c.rotation
      + N.c.retrieval := by unfold Noisy.back; omega
  rw [eb]
  split
  · exact N.retrievalRev _ _ k3 hp
  · exact LRel.mono (fun _ _ h' => N.G_mono (Nat.le_add_right _ _) h') k3

theorem BitArray.NRel.write {ν ω : Nat} {b : BitArray N.B} {b'} (h : BitArray.NRel N ν b b') {p p'}
    (hp : N.P p p') {w w'} (hw : N.G (ω + N.c.getBit) w w') (offset : Nat) :
    BitArray.NRel N (ν + N.front + N.back ω) (b.write w p offset) (b'.write w' p' offset) :=
  ⟨BitArray.NRel.backward (b := { b with data := b.forward p offset })
    (b' := { b' with data := b'.forward p' offset }) ⟨h.forward hp offset, h.bitSize⟩ hp hw offset,
    h.bitSize⟩

theorem BitArray.NRel.retrieveStateless {ν : Nat} {b : BitArray N.B} {b'} (h : BitArray.NRel N ν b b')
    {p p'} (hp : N.P p p') (offset : Nat) :
    N.G (ν + N.c.retrieve + N.c.rotation) (b.retrieveStateless p offset)
      (b'.retrieveStateless p' offset) := by
  unfold BitArray.retrieveStateless
  rw [h.bitSize]
  exact N.blindRotate _ _ _ _ (N.retrieve _ h.data hp) hp

theorem BitArray.NRel.zeroAt {ν : Nat} {b : BitArray N.B} {b'} (h : BitArray.NRel N ν b b')
    (poly idx : Nat) : BitArray.NRel N (ν + N.c.trace) (b.zeroAt poly idx) (b'.zeroAt poly idx) :=
  ⟨LRel.modify_noise (Nat.le_add_right _ _) h.data _
    (fun _ _ ha => N.rotate _ (N.G_clear (N.rotate _ ha))), h.bitSize⟩

theorem Memory.NRel.withTmp {ν μ : Nat} {m : Memory N.B} {m'} (h : Memory.NRel N ν m m') :
    LRel (fun x x' => BitArray.NRel N ν x.1 x'.1 ∧ ORel (N.G μ) x.2 x'.2) m.withTmp m'.withTmp :=
  LRel.map (fun _ _ hb => ⟨hb, trivial⟩) h.bits

/-- `LRel.parallel` with a relation that changes: every task is run exactly once. -/
theorem LRel.parallel_once {α β : Type} {R S : α → β → Prop} {f : Nat → α → α} {g : Nat → β → β}
    (h : ∀ i a b, R a b → S (f i a) (g i b)) {l : List α} {l' : List β} (hl : LRel R l l')
    (threads : Nat) : ORel (LRel S) (Model.parallel threads f l) (Model.parallel threads g l') := by
  by_cases hc : 0 < threads ∧ 0 < l.length
  · rw [parallel_eq _ _ _ hc.1 hc.2, parallel_eq _ _ _ hc.1 (hl.length ▸ hc.2)]
    exact LRel.mapIdx h hl
  · have hnone : threadOrder threads l.length = none := by
      unfold threadOrder divCeil
      by_cases ht : threads = 0
      · rw [if_pos ht]
      · have h0 : l.length = 0 := by omega
        rw [if_neg ht, h0]
        have : (0 + threads - 1) / threads = 0 := Nat.div_eq_of_lt (by omega)
        simp only [this, if_true]
    unfold Model.parallel
    rw [← hl.length, hnone]
    trivial

theorem Memory.NRel.readStateless {ν : Nat} {m : Memory N.B} {m'} (h : Memory.NRel N ν m m')
    (hν : ν + N.c.retrieve + N.c.rotation ≤ N.limit) (threads : Nat) {p p'} (hp : N.P p p') (offset : Nat) :
    ORel (N.U (ν + N.c.retrieve + N.c.rotation + N.c.pack)) (m.readStateless threads p offset)
      (m'.readStateless threads p' offset) := by
  unfold Memory.readStateless
  rw [isEmpty_eq h.bits.length, h.state]
  split
  · trivial
  split
  · trivial
  refine ORel.bind ?_ (LRel.parallel_once
    (R := fun x x' => BitArray.NRel N ν x.1 x'.1 ∧ ORel (N.G 0) x.2 x'.2)
    (S := fun x x' => ORel (N.G (ν + N.c.retrieve + N.c.rotation)) x.2 x'.2) ?_ h.withTmp threads)
  · intro l l' hl
    refine ORel.map (fun _ _ hr => N.pack hν hr) (LRel.collect (LRel.map ?_ hl))
    intro x x' hx
    exact hx
  · intro _ x x' hx
    exact hx.1.retrieveStateless hp offset

theorem Memory.NRel.readStatefull {ν : Nat} {m : Memory N.B} {m'} (h : Memory.NRel N ν m m')
    (hν : ν + N.front ≤ N.limit) (threads : Nat) {p p'} (hp : N.P p p') (offset : Nat) :
    ORel (fun x x' => Memory.NRel N (ν + N.front) x.1 x'.1 ∧ N.U (ν + N.front + N.c.pack) x.2 x'.2)
      (m.readStatefull threads p offset) (m'.readStatefull threads p' offset) := by
  unfold Memory.readStatefull
  rw [isEmpty_eq h.bits.length, h.state]
  split
  · trivial
  split
  · trivial
  refine ORel.bind ?_ (LRel.parallel_once
    (R := fun x x' => BitArray.NRel N ν x.1 x'.1 ∧ ORel (N.G 0) x.2 x'.2)
    (S := fun x x' => BitArray.NRel N (ν + N.front) x.1 x'.1 ∧ ORel (N.G (ν + N.front)) x.2 x'.2)
    ?_ h.withTmp threads)
  · intro l l' hl
    refine ORel.map (fun _ _ hr => ⟨⟨LRel.map (fun _ _ hx => hx.1) hl, h.size, h.bitSize, rfl⟩, N.pack hν hr⟩)
      (LRel.collect (LRel.map ?_ hl))
    intro x x' hx
    exact hx.2
  · intro _ x x' hx
    exact ⟨⟨hx.1.forward hp offset, hx.1.bitSize⟩, hx.1.forward hp offset 0⟩

theorem Memory.NRel.readStatefullRev {ν ω : Nat} {m : Memory N.B} {m'} (h : Memory.NRel N ν m m')
    (threads : Nat) {w w'} (hw : N.U ω w w') {p p'} (hp : N.P p p') (offset : Nat) :
    ORel (Memory.NRel N (ν + N.back ω)) (m.readStatefullRev threads w p offset)
      (m'.readStatefullRev threads w' p' offset) := by
  unfold Memory.readStatefullRev
  rw [h.state]
  split
  · trivial
  refine ORel.map (fun _ _ hl => ⟨hl, h.size, h.bitSize, rfl⟩)
    (LRel.parallel_once (R := BitArray.NRel N ν) ?_ h.bits threads)
  intro i b b' hb
  exact ⟨hb.backward hp (N.getBit i hw) offset, hb.bitSize⟩

theorem Memory.NRel.write {ν ω : Nat} {m : Memory N.B} {m'} (h : Memory.NRel N ν m m')
    (threads : Nat) {w w'} (hw : N.U ω w w') {p p'} (hp : N.P p p') (offset : Nat) :
    ORel (Memory.NRel N (ν + N.front + N.back ω)) (m.write threads w p offset)
      (m'.write threads w' p' offset) := by
  unfold Memory.write
  rw [h.state]
  split
  · trivial
  refine ORel.map (fun _ _ hl => ⟨hl, h.size, h.bitSize, rfl⟩)
    (LRel.parallel_once (R := BitArray.NRel N ν) ?_ h.bits threads)
  intro i b b' hb
  exact hb.write hp (N.getBit i hw) offset

theorem Memory.NRel.zero {ν : Nat} {m : Memory N.B} {m'} (h : Memory.NRel N ν m m')
    (threads addr : Nat) :
    ORel (Memory.NRel N (ν + N.c.trace)) (m.zero threads addr) (m'.zero threads addr) := by
  unfold Memory.zero
  simp only
  have e : (m.bits.any fun b => decide (b.data.length ≤ addr / 2 ^ N.B.logN))
      = (m'.bits.any fun b => decide (b.data.length ≤ addr / 2 ^ N.B.logN)) := by
    have hb := h.bits
    generalize m.bits = l at hb
    generalize m'.bits = l' at hb
    induction l generalizing l' with
    | nil =>
      have := hb.length
      cases l' with
      | nil => rfl
      | cons => simp at this
    | cons a l ih =>
      cases l' with
      | nil => have := hb.length; simp at this
      | cons b l' =>
        obtain ⟨h1, h2⟩ := hb.uncons
        simp only [List.any_cons]
        rw [ih l' h2, h1.data.length]
  rw [e]
  split
  · trivial
  refine ORel.map (fun _ _ hl => ⟨hl, h.size, h.bitSize, h.state⟩)
    (LRel.parallel_once (R := BitArray.NRel N ν) ?_ h.bits threads)
  intro i b b' hb
  exact hb.zeroAt _ _

theorem Memory.alloc_nrel (K size : Nat) :
    ORel (Memory.NRel N 0) (Memory.alloc N.B K size)
      (Memory.alloc (plain N.B.logN N.lib) K size) := by
  unfold Memory.alloc
  split
  · trivial
  · refine ⟨LRel.replicate ⟨?_, rfl⟩ _, rfl, rfl, rfl⟩
    unfold BitArray.alloc
    exact LRel.replicate N.G_zero _

theorem Memory.encrypt_nrel {ν : Nat} (hν : ν ≤ N.c.fresh) (rand : Nat → Nat → N.C.Rand)
    {m : Memory N.B} {m'} (h : Memory.NRel N ν m m') (data : List (BitVec 32)) :
    ORel (Memory.NRel N N.c.fresh) (m.encrypt N.C rand data)
      (m'.encrypt (plainCipher N.B.logN N.lib) (fun _ _ => ()) data) := by
  unfold Memory.encrypt
  rw [h.bits.length, h.size]
  split
  · trivial
  split
  · refine ⟨LRel.mapIdx ?_ h.bits, rfl, h.bitSize, h.state⟩
    intro i b b' hb
    refine ⟨LRel.mapIdx ?_ hb.data, hb.bitSize⟩
    intro j ct p hc
    split
    · exact N.enc _ _
    · exact N.G_mono hν hc
  · trivial

theorem BitArray.NRel.decrypt {ν : Nat} (hν : ν ≤ N.limit) {b : BitArray N.B} {b'}
    (h : BitArray.NRel N ν b b') (a : Nat) :
    b.decrypt N.C a = b'.decrypt (plainCipher N.B.logN N.lib) a := by
  unfold BitArray.decrypt
  have := h.data (a / 2 ^ N.B.logN)
  cases h1 : b.data[a / 2 ^ N.B.logN]? with
  | none =>
    cases h2 : b'.data[a / 2 ^ N.B.logN]? with
    | none => rfl
    | some p => rw [h1, h2] at this; exact this.elim
  | some ct =>
    cases h2 : b'.data[a / 2 ^ N.B.logN]? with
    | none => rw [h1, h2] at this; exact this.elim
    | some p =>
      rw [h1, h2] at this
      simp only [Option.elim_some]
      rw [N.dec hν this]

theorem Memory.NRel.decrypt {ν : Nat} (hν : ν ≤ N.limit) {m : Memory N.B} {m'}
    (h : Memory.NRel N ν m m') (out : List (BitVec 32)) :
    m.decrypt N.C out = m'.decrypt (plainCipher N.B.logN N.lib) out := by
  unfold Memory.decrypt
  rw [h.bits.length, h.size]
  have e : ∀ (y : BitVec 32) (a i : Nat),
      (m.bits[i]?).elim y (fun b => setBit y i (b.decrypt N.C a))
        = (m'.bits[i]?).elim y fun b => setBit y i (b.decrypt (plainCipher N.B.logN N.lib) a) := by
    intro y a i
    have := h.bits i
    cases h1 : m.bits[i]? with
    | none =>
      cases h2 : m'.bits[i]? with
      | none => rfl
      | some p => rw [h1, h2] at this; exact this.elim
    | some ct =>
      cases h2 : m'.bits[i]? with
      | none => rw [h1, h2] at this; exact this.elim
      | some p =>
        rw [h1, h2] at this
        simp only [Option.elim_some]
        rw [this.decrypt hν a]
  simp only [e]

/-- Bits prepared from words within the limit. -/
theorem prepareMultiple_nrel {ν : Nat} (hν : ν ≤ N.limit) (threads : Nat) {us us'}
    (h : LRel (N.U ν) us us') (counts : List Nat) :
    ORel (LRel N.P) (prepareMultiple N.B threads us counts)
      (prepareMultiple (plain N.B.logN N.lib) threads us' counts) := by
  unfold prepareMultiple
  split
  · have split_rel : ∀ (cs : List Nat) m m', LRel N.Bt m m' →
        LRel N.P (splitWords N.B cs m) (splitWords (plain N.B.logN N.lib) cs m') := by
      intro cs
      induction cs with
      | nil => exact fun _ _ _ => LRel.nil
      | cons c cs ih =>
        intro m m' hm
        exact LRel.cons (N.ofBits (LRel.append (LRel.take hm _) (LRel.replicate N.gzero _)))
          (ih _ _ (LRel.drop hm _))
    refine ORel.bind ?_ (LRel.parallel (R := ORel N.Bt) ?_ (LRel.replicate trivial _) threads)
    · intro l l' hl
      refine ORel.map ?_ (LRel.collect hl)
      exact fun m m' hm => split_rel counts m m' hm
    · intro i a b _
      exact ORel.map (fun u u' hu => N.bootstrap _ hν hu) (h _)
  · trivial

end Verif.Model
