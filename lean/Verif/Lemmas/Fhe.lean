import Verif.Lemmas.Sim
import Verif.Lemmas.Memory
/-
  Memories encrypted with any correct library.
-/
namespace Verif.Model

variable {F : Fhe}

/-- `m` encrypts the words `l`, no access pending. -/
def Fhe.Holds (F : Fhe) (m : Memory F.B) (l : List (BitVec 32)) : Prop :=
  ∃ m', Memory.Rel F.sim m m' ∧ m'.Stores l

/-- `m` encrypts the words `l`, phase one done for index `a`. -/
def Fhe.HoldsPending (F : Fhe) (m : Memory F.B) (l : List (BitVec 32)) (a : Nat) : Prop :=
  ∃ m' addr offset, Memory.Rel F.sim m (Memory.front m' addr offset) ∧ m'.Stores l ∧
    accessIndex addr offset (bitsFor m'.size) = a ∧ a < m'.size

theorem Memory.encrypt_rel (rand : Nat → Nat → F.C.Rand) {m : Memory F.B}
    {m' : Memory (plain F.B.logN F.lib)} (h : Memory.Rel F.sim m m') (data : List (BitVec 32)) :
    ORel (Memory.Rel F.sim) (m.encrypt F.C rand data)
      (m'.encrypt (plainCipher F.B.logN F.lib) (fun _ _ => ()) data) := by
  unfold Memory.encrypt
  rw [h.bits.length, h.size]
  split
  · trivial
  split
  · refine ⟨LRel.mapIdx ?_ h.bits, rfl, h.bitSize, h.state⟩
    intro i b b' hb
    refine ⟨LRel.mapIdx ?_ hb.data, hb.bitSize⟩
    intro j ct p hc
    split
    · exact F.enc_sim _ _
    · exact hc
  · trivial

theorem BitArray.Rel.decrypt {b : BitArray F.B} {b' : BitArray (plain F.B.logN F.lib)}
    (h : BitArray.Rel F.sim b b') (a : Nat) :
    b.decrypt F.C a = b'.decrypt (plainCipher F.B.logN F.lib) a := by
  unfold BitArray.decrypt
  have := h.data (a / 2 ^ F.B.logN)
  cases h1 : b.data[a / 2 ^ F.B.logN]? with
  | none =>
    cases h2 : b'.data[a / 2 ^ F.B.logN]? with
    | none => rfl
    | some p => rw [h1, h2] at this; exact this.elim
  | some ct =>
    cases h2 : b'.data[a / 2 ^ F.B.logN]? with
    | none => rw [h1, h2] at this; exact this.elim
    | some p =>
      rw [h1, h2] at this
      simp only [Option.elim_some]
      rw [F.dec_sim ct p this]

theorem Memory.Rel.decrypt {m : Memory F.B} {m' : Memory (plain F.B.logN F.lib)}
    (h : Memory.Rel F.sim m m') (out : List (BitVec 32)) :
    m.decrypt F.C out = m'.decrypt (plainCipher F.B.logN F.lib) out := by
  unfold Memory.decrypt
  rw [h.bits.length, h.size]
  have e : ∀ (y : BitVec 32) (a i : Nat),
      (m.bits[i]?).elim y (fun b => setBit y i (b.decrypt F.C a))
        = (m'.bits[i]?).elim y fun b => setBit y i (b.decrypt (plainCipher F.B.logN F.lib) a) := by
    intro y a i
    have := h.bits i
    cases h1 : m.bits[i]? with
    | none =>
      cases h2 : m'.bits[i]? with
      | none => rfl
      | some p => rw [h1, h2] at this; exact this.elim
    | some ct =>
      cases h2 : m'.bits[i]? with
      | none => rw [h1, h2] at this; exact this.elim
      | some p =>
        rw [h1, h2] at this
        simp only [Option.elim_some]
        rw [this.decrypt a]
  simp only [e]

/-- Memories freshly encrypted. -/
theorem Fhe.holds_of_encrypt (rand : Nat → Nat → F.C.Rand) (size : Nat) (data : List (BitVec 32))
    (m0 m : Memory F.B) (h0 : Memory.alloc F.B 32 size = some m0)
    (h : m0.encrypt F.C rand data = some m) : F.Holds m (padTo size data) := by
  have r0 := Memory.alloc_rel (S := F.sim) 32 size
  rw [h0] at r0
  obtain ⟨m0', e0, r0⟩ := r0.of_some_left
  have r := Memory.encrypt_rel rand r0 data
  rw [h] at r
  obtain ⟨m', e, r⟩ := r.of_some_left
  exact ⟨m', r, Memory.encrypt_stores _ size data m0' m' e0 e⟩

theorem Memory.alloc_stores {logN : Nat} {L : Lib (2 ^ logN)} (size : Nat)
    (m' : Memory (plain logN L)) (e0 : Memory.alloc (plain logN L) 32 size = some m') :
    m'.Stores (List.replicate size 0#32) := by
  unfold Memory.alloc at e0
  by_cases hs : size = 0
  · rw [if_pos hs] at e0
    cases e0
  rw [if_neg hs] at e0
  have e1 := Option.some.inj e0
  subst e1
  have hmem : ∀ b, b ∈ List.replicate 32 (BitArray.alloc (plain logN L) size) →
      b = BitArray.alloc (plain logN L) size := fun b hb => List.eq_of_mem_replicate hb
  refine ⟨by show 0 < size; omega, List.length_replicate, List.length_replicate, ?_, ?_, rfl⟩
  · intro b hb
    rw [hmem b hb]
    exact ⟨List.length_replicate, rfl⟩
  · intro i b hb a y hy
    rw [hmem b (List.mem_of_getElem? hb)]
    have hy' : y = 0#32 := List.eq_of_mem_replicate (List.mem_of_getElem? hy)
    subst hy'
    have e2 : bitCoeff 0#32 i = 0#2 := by simp [bitCoeff]
    rw [e2]
    unfold BitArray.decrypt BitArray.alloc
    simp only [List.getElem?_replicate]
    split <;> rfl

/-- Freshly allocated memories hold zeros. -/
theorem Fhe.holds_of_alloc (size : Nat) (m0 : Memory F.B)
    (h0 : Memory.alloc F.B 32 size = some m0) : F.Holds m0 (List.replicate size 0#32) := by
  have r0 := Memory.alloc_rel (S := F.sim) 32 size
  rw [h0] at r0
  obtain ⟨m', e0, r0⟩ := r0.of_some_left
  exact ⟨m', r0, Memory.alloc_stores size m' e0⟩

namespace Fhe.Holds
variable {m : Memory F.B} {l : List (BitVec 32)}

theorem length (h : F.Holds m l) : l.length = m.size := by
  obtain ⟨m', r, s⟩ := h
  rw [s.length, r.size]

theorem pos (h : F.Holds m l) : 0 < m.size := by
  obtain ⟨m', r, s⟩ := h
  rw [r.size]
  exact s.pos

theorem idle (h : F.Holds m l) : m.state = false := by
  obtain ⟨m', r, s⟩ := h
  rw [r.state]
  exact s.idle

theorem decrypt (h : F.Holds m l) (out : List (BitVec 32)) (ho : out.length = m.size) :
    m.decrypt F.C out = some l := by
  obtain ⟨m', r, s⟩ := h
  rw [r.decrypt, s.decrypt out (by rw [ho, r.size])]

theorem unique {l' : List (BitVec 32)} (h : F.Holds m l) (h' : F.Holds m l') : l = l' := by
  have e := h.decrypt (List.replicate m.size 0#32) (by simp)
  rw [h'.decrypt (List.replicate m.size 0#32) (by simp)] at e
  exact (Option.some.inj e).symm

theorem readStateless (h : F.Holds m l) (threads : Nat) (ht : 0 < threads) (p : F.B.Prep)
    (addr : BitVec 32) (hp : F.Prepares p addr) (offset : Nat) (w : BitVec 32)
    (hw : l[addr.toNat / 2 ^ offset]? = some w) :
    ∃ u, m.readStateless threads p offset = some u ∧ F.Encrypts u w := by
  obtain ⟨m', r, s⟩ := h
  have := r.readStateless threads hp offset
  rw [s.readStateless threads ht addr offset w hw] at this
  exact this.of_some

theorem readStatefull (h : F.Holds m l) (threads : Nat) (ht : 0 < threads) (p : F.B.Prep)
    (addr : BitVec 32) (hp : F.Prepares p addr) (offset : Nat) (w : BitVec 32)
    (hw : l[accessIndex addr offset (bitsFor m.size)]? = some w) :
    ∃ m1 u, m.readStatefull threads p offset = some (m1, u) ∧ F.Encrypts u w ∧
      F.HoldsPending m1 l (accessIndex addr offset (bitsFor m.size)) := by
  have hlen := h.length
  obtain ⟨m', r, s⟩ := h
  have hw' := hw
  rw [r.size] at hw'
  have := r.readStatefull threads hp offset
  rw [s.readStatefull threads ht addr offset w hw'] at this
  obtain ⟨x, e, r1, ru⟩ := this.of_some
  refine ⟨x.1, x.2, e, ru, m', addr, offset, r1, s, by rw [r.size], ?_⟩
  rw [← r.size]
  exact Nat.lt_of_lt_of_eq (List.getElem?_eq_some_iff.mp hw).1 hlen

theorem write (h : F.Holds m l) (threads : Nat) (ht : 0 < threads) (u : F.B.Uint) (w : BitVec 32)
    (hu : F.Encrypts u w) (p : F.B.Prep) (addr : BitVec 32) (hp : F.Prepares p addr) (offset : Nat)
    (ha : accessIndex addr offset (bitsFor m.size) < m.size) :
    ∃ m1, m.write threads u p offset = some m1 ∧ m1.size = m.size ∧
      F.Holds m1 (l.set (accessIndex addr offset (bitsFor m.size)) w) := by
  obtain ⟨m', r, s⟩ := h
  rw [r.size] at ha ⊢
  obtain ⟨m1', e1, es, s1⟩ := s.write threads ht w addr offset ha
  have := r.write threads hu hp offset
  rw [e1] at this
  obtain ⟨m1, e, r1⟩ := this.of_some
  exact ⟨m1, e, by rw [r1.size, es], m1', r1, s1⟩

theorem zero (h : F.Holds m l) (threads : Nat) (ht : 0 < threads) (addr : Nat) (ha : addr < m.size) :
    ∃ m1, m.zero threads addr = some m1 ∧ m1.size = m.size ∧
      F.Holds m1 (l.set (zeroTarget (2 ^ F.B.logN) addr) 0#32) := by
  obtain ⟨m', r, s⟩ := h
  rw [r.size] at ha ⊢
  obtain ⟨m1', e1, es, s1⟩ := s.zero threads ht addr ha
  have := r.zero threads addr
  rw [e1] at this
  obtain ⟨m1, e, r1⟩ := this.of_some
  exact ⟨m1, e, by rw [r1.size, es], m1', r1, s1⟩

end Fhe.Holds

theorem Fhe.HoldsPending.length {m : Memory F.B} {l : List (BitVec 32)} {a : Nat}
    (h : F.HoldsPending m l a) : l.length = m.size := by
  obtain ⟨m', addr', offset', r, s, e, ha⟩ := h
  rw [s.length, r.size]
  rfl

/-- Phase two. -/
theorem Fhe.HoldsPending.finish {m : Memory F.B} {l : List (BitVec 32)} {a : Nat}
    (h : F.HoldsPending m l a) (threads : Nat) (ht : 0 < threads) (u : F.B.Uint) (w : BitVec 32)
    (hu : F.Encrypts u w) (p : F.B.Prep) (addr : BitVec 32) (hp : F.Prepares p addr) (offset : Nat)
    (ha : accessIndex addr offset (bitsFor m.size) = a) :
    ∃ m1, m.readStatefullRev threads u p offset = some m1 ∧ m1.size = m.size ∧
      F.Holds m1 (l.set a w) := by
  obtain ⟨m', addr', offset', r, s, e, hlt⟩ := h
  have hsz : m.size = m'.size := r.size
  rw [hsz] at ha
  rw [Memory.front_congr s addr' addr offset' offset (by rw [e, ha])] at r
  have := r.readStatefullRev threads hu hp offset
  rw [s.rev threads ht w addr offset] at this
  obtain ⟨m1', e1, es, s1⟩ := s.write threads ht w addr offset (by rw [ha]; exact hlt)
  rw [e1] at this
  obtain ⟨m1, e2, r1⟩ := this.of_some
  rw [ha] at s1
  exact ⟨m1, e2, by rw [r1.size, es, hsz], m1', r1, s1⟩

end Verif.Model
