import Verif.Lemmas.BitArray
/-
  Whole memories, over the plaintext library.
-/
namespace Verif.Model

/-! ### Words and bits -/

theorem getLsbD_wordOf (f : Nat → Bool) (c : Nat) (hc : c ≤ 32) (i : Nat) :
    (wordOf f c).getLsbD i = (decide (i < c) && f i) := by
  induction c with
  | zero => simp [wordOf]
  | succ c ih =>
    have := ih (by omega)
    simp only [wordOf, BitVec.getLsbD_or, this, BitVec.getLsbD_shiftLeft, BitVec.getLsbD_setWidth,
      BitVec.getLsbD_ofBool]
    by_cases h1 : i < c
    · simp [h1, show i < c + 1 by omega]
    · by_cases h2 : i = c
      · subst h2
        simp [show i < 32 by omega]
      · have : ¬ i - c = 0 := by omega
        simp [h1, show ¬ i < c + 1 by omega, this]

theorem wordOf_getLsbD (w : BitVec 32) : wordOf (fun i => w.getLsbD i) 32 = w := by
  apply BitVec.eq_of_getLsbD_eq
  intro i hi
  rw [getLsbD_wordOf _ _ (by omega)]
  simp [hi]

theorem wordOf_congr (f g : Nat → Bool) (c : Nat) (h : ∀ i, i < c → f i = g i) :
    wordOf f c = wordOf g c := by
  induction c with
  | zero => rfl
  | succ c ih =>
    simp only [wordOf]
    rw [ih fun i hi => h i (by omega), h c (by omega)]

theorem bitCoeff_eq_one (y : BitVec 32) (i : Nat) : bitCoeff y i = 1#2 ↔ y.getLsbD i = true := by
  unfold bitCoeff
  cases y.getLsbD i <;> simp

theorem getLsbD_setBit (y : BitVec 32) (i : Nat) (hi : i < 32) (x : BitVec 2) (j : Nat) (hj : j < 32) :
    (setBit y i x).getLsbD j = if j = i then decide (x = 1#2) else y.getLsbD j := by
  have one : ∀ k, (1#32).getLsbD k = decide (k = 0) := by
    intro k
    have e : (1#32) = BitVec.ofNat 32 1 := rfl
    rw [e, BitVec.getLsbD_ofNat]
    cases k with
    | zero => rfl
    | succ k =>
      simp [Nat.testBit_succ]
  unfold setBit
  by_cases e : j = i
  · subst e
    by_cases hx : x = 1#2 <;>
      simp [hx, hj, one]
  · have hne : ¬ (i ≤ j ∧ j - i = 0) := by omega
    by_cases hx : x = 1#2
    · rw [if_pos hx, if_neg e]
      simp only [BitVec.getLsbD_or, BitVec.getLsbD_shiftLeft, one]
      by_cases h : j < i
      · simp [h]
      · simp [show ¬ j - i = 0 by omega]
    · rw [if_neg hx, if_neg e]
      simp only [BitVec.getLsbD_and, BitVec.getLsbD_not, BitVec.getLsbD_shiftLeft, one]
      by_cases h : j < i
      · simp [h, hj]
      · simp [show ¬ j - i = 0 by omega, hj]

theorem getLsbD_setBits (g : Nat → BitVec 2) (k : Nat) (hk : k ≤ 32) (y : BitVec 32) (j : Nat)
    (hj : j < 32) :
    ((List.range k).foldl (fun y i => setBit y i (g i)) y).getLsbD j
      = if j < k then decide (g j = 1#2) else y.getLsbD j := by
  induction k with
  | zero => simp
  | succ k ih =>
    rw [List.range_succ, List.foldl_append]
    simp only [List.foldl_cons, List.foldl_nil]
    rw [getLsbD_setBit _ _ (by omega) _ _ hj, ih (by omega)]
    by_cases e : j = k
    · subst e
      simp
    · rw [if_neg e]
      by_cases h : j < k
      · rw [if_pos h, if_pos (by omega)]
      · rw [if_neg h, if_neg (by omega)]

/-- Decryption of one word. -/
theorem decrypt_word (bits : Nat → BitVec 2) (y w : BitVec 32)
    (h : ∀ i, i < 32 → bits i = bitCoeff w i) :
    (List.range 32).foldl (fun y i => setBit y i (bits i)) y = w := by
  apply BitVec.eq_of_getLsbD_eq
  intro j hj
  rw [getLsbD_setBits _ _ (by omega) _ _ hj, if_pos hj, h j hj]
  unfold bitCoeff
  cases w.getLsbD j <;> simp

theorem foldl_congr' {α β : Type} (f g : β → α → β) (l : List α) (b : β)
    (h : ∀ b a, a ∈ l → f b a = g b a) : l.foldl f b = l.foldl g b := by
  induction l generalizing b with
  | nil => rfl
  | cons a l ih =>
    simp only [List.foldl_cons]
    rw [h b a (by simp)]
    exact ih _ fun b a ha => h b a (by simp [ha])

/-- Decryption of a 32-bit memory whose bit arrays hold the bits of `l`. -/
theorem Memory.decrypt_eq {B : Backend} (C : Cipher B) (m : Memory B) (l out : List (BitVec 32))
    (hw : m.bits.length = 32) (hl : l.length = m.size) (ho : out.length = l.length)
    (hb : ∀ (i : Nat) (b : BitArray B), m.bits[i]? = some b → ∀ (a : Nat) (y : BitVec 32), l[a]? = some y → b.decrypt C a = bitCoeff y i) :
    m.decrypt C out = some l := by
  unfold Memory.decrypt
  rw [if_neg (by omega), if_pos (by
    rw [hw, ho, hl]
    exact Nat.div_le_self _ _)]
  refine congrArg some ?_
  apply List.ext_getElem?
  intro a
  rw [List.getElem?_mapIdx]
  by_cases ha : a < l.length
  · have ho' : a < out.length := by omega
    rw [List.getElem?_eq_getElem ha, List.getElem?_eq_getElem ho', Option.map_some,
      if_pos (by omega), hw]
    refine congrArg some ?_
    have hbits : ∀ i, i < 32 → ∃ b, m.bits[i]? = some b := by
      intro i hi
      exact ⟨_, List.getElem?_eq_getElem (by omega)⟩
    rw [foldl_congr' _ (fun y i => setBit y i ((m.bits[i]?).elim 0#2 fun b => b.decrypt C a))]
    · apply decrypt_word
      intro i hi
      obtain ⟨b, hb'⟩ := hbits i hi
      rw [hb']
      exact hb i b hb' a _ (List.getElem?_eq_getElem ha)
    · intro y i hi
      obtain ⟨b, hb'⟩ := hbits i (List.mem_range.mp hi)
      rw [hb']
      rfl
  · rw [List.getElem?_eq_none (by omega), List.getElem?_eq_none (by omega)]
    rfl

/-! ### Invariant -/

variable {logN : Nat} {L : Lib (2 ^ logN)}

/-- `m` is a 32-bit memory holding the words `l`, with no access pending. -/
structure Memory.Stores (m : Memory (plain logN L)) (l : List (BitVec 32)) : Prop where
  pos : 0 < m.size
  length : l.length = m.size
  width : m.bits.length = 32
  shape : ∀ b ∈ m.bits, BitArray.Shape b m.size
  content : ∀ (i : Nat) (b : BitArray (plain logN L)), m.bits[i]? = some b → ∀ (a : Nat) (y : BitVec 32),
    l[a]? = some y → b.decrypt (plainCipher logN L) a = bitCoeff y i
  idle : m.state = false

theorem Memory.Stores.decrypt {m : Memory (plain logN L)} {l : List (BitVec 32)} (h : m.Stores l)
    (out : List (BitVec 32)) (ho : out.length = m.size) :
    m.decrypt (plainCipher logN L) out = some l :=
  Memory.decrypt_eq _ m l out h.width h.length (by rw [ho, h.length]) h.content

/-- The words stored are unique. -/
theorem Memory.Stores.unique {m : Memory (plain logN L)} {l l' : List (BitVec 32)} (h : m.Stores l)
    (h' : m.Stores l') : l = l' := by
  have e := h.decrypt (List.replicate m.size 0#32) (by simp)
  rw [h'.decrypt (List.replicate m.size 0#32) (by simp)] at e
  cases e
  rfl

theorem bits_mem {m : Memory (plain logN L)} {i : Nat} {b : BitArray (plain logN L)}
    (h : m.bits[i]? = some b) : b ∈ m.bits := List.mem_of_getElem? h

/-! ### Allocation and encryption -/

theorem BitArray.decrypt_encrypt {B : Backend} (C : Cipher B) (rand : Nat → C.Rand) (b : BitArray B)
    (hC : ∀ r p, C.dec (C.enc r p) = p) (bits : List (BitVec 2))
    (hb : b.data.length = divCeil bits.length (2 ^ B.logN)) (a : Nat) (x : BitVec 2)
    (ha : bits[a]? = some x) : (b.encrypt C rand bits).decrypt C a = x := by
  have ha' := (List.getElem?_eq_some_iff.mp ha).1
  have hlt : a / 2 ^ B.logN < divCeil bits.length (2 ^ B.logN) :=
    div_lt_chunks _ _ _ (Nat.two_pow_pos _) ha'
  unfold BitArray.decrypt BitArray.encrypt
  simp only [List.getElem?_mapIdx]
  rw [List.getElem?_eq_getElem (by omega)]
  simp only [Option.map_some, Option.elim_some, if_pos hlt, hC]
  have := Nat.div_add_mod a (2 ^ B.logN)
  rw [Nat.mul_comm] at this
  rw [this, ha]
  rfl

theorem bitBuffer_getElem? (size : Nat) (data : List (BitVec 32)) (i a : Nat) (h : a < size) :
    (bitBuffer size data i)[a]? = some (bitCoeff ((data[a]?).getD 0#32) i) := by
  unfold bitBuffer
  rw [List.getElem?_map, List.getElem?_range h]
  rw [Option.map_some]
  cases data[a]? with
  | some y => rfl
  | none => simp [bitCoeff]

/-- `data` cut or zero-extended to `size` words. -/
def padTo (size : Nat) (data : List (BitVec 32)) : List (BitVec 32) :=
  (List.range size).map fun a => (data[a]?).getD 0#32

theorem padTo_length (size : Nat) (data : List (BitVec 32)) : (padTo size data).length = size := by
  simp [padTo]

theorem padTo_getElem? (size : Nat) (data : List (BitVec 32)) (a : Nat) (h : a < size) :
    (padTo size data)[a]? = some ((data[a]?).getD 0#32) := by
  unfold padTo
  rw [List.getElem?_map, List.getElem?_range h]
  rfl

theorem padTo_eq (size : Nat) (data : List (BitVec 32)) (h : data.length ≤ size) :
    padTo size data = data ++ List.replicate (size - data.length) 0#32 := by
  apply List.ext_getElem?
  intro a
  by_cases ha : a < size
  · rw [padTo_getElem? _ _ _ ha, List.getElem?_append]
    by_cases hd : a < data.length
    · rw [if_pos hd, List.getElem?_eq_getElem hd]
      rfl
    · rw [if_neg hd, List.getElem?_eq_none (by omega), List.getElem?_replicate, if_pos (by omega)]
      rfl
  · rw [List.getElem?_eq_none (by rw [padTo_length]; omega), List.getElem?_eq_none]
    simp
    omega

/-- Bit arrays of an encrypted memory. -/
theorem Memory.encrypt_content {B : Backend} (C : Cipher B) (hC : ∀ r p, C.dec (C.enc r p) = p)
    (rand : Nat → Nat → C.Rand) (K size : Nat) (data : List (BitVec 32)) (m0 m : Memory B)
    (h0 : Memory.alloc B K size = some m0) (h : m0.encrypt C rand data = some m) :
    0 < size ∧ m.size = size ∧ m.state = false ∧ m.bits.length = K ∧
    (∀ b ∈ m.bits, b.data.length = divCeil size (2 ^ B.logN) ∧ b.bitSize = bitsFor size) ∧
    ∀ (i : Nat) (b : BitArray B), m.bits[i]? = some b → ∀ (a : Nat) (y : BitVec 32),
      (padTo size data)[a]? = some y → b.decrypt C a = bitCoeff y i := by
  unfold Memory.alloc at h0
  by_cases hs : size = 0
  · rw [if_pos hs] at h0
    cases h0
  rw [if_neg hs] at h0
  have e0 := Option.some.inj h0
  subst e0
  unfold Memory.encrypt at h
  simp only [List.length_replicate] at h
  by_cases hK : K = 0
  · rw [if_pos hK] at h
    cases h
  rw [if_neg hK] at h
  by_cases hd : data.length / K ≤ size
  case neg =>
    rw [if_neg hd] at h
    cases h
  rw [if_pos hd] at h
  have e1 := Option.some.inj h
  subst e1
  have hlen : ∀ i, (bitBuffer size data i).length = size := fun i => by simp [bitBuffer]
  refine ⟨by omega, rfl, rfl, by simp, ?_, ?_⟩
  · intro b hb
    obtain ⟨i, hi, rfl⟩ := List.mem_mapIdx.mp hb
    simp [BitArray.encrypt, BitArray.alloc]
  · intro i b hb a y ha
    rw [List.getElem?_mapIdx] at hb
    have ha' := (List.getElem?_eq_some_iff.mp ha).1
    rw [padTo_length] at ha'
    rw [List.getElem?_replicate] at hb
    by_cases hi : i < K
    case neg =>
      rw [if_neg hi] at hb
      cases hb
    rw [if_pos hi] at hb
    cases hb
    apply BitArray.decrypt_encrypt C _ _ hC
    · rw [hlen]
      simp [BitArray.alloc]
    · rw [bitBuffer_getElem? _ _ _ _ ha']
      rw [padTo_getElem? _ _ _ ha'] at ha
      cases ha
      rfl

theorem Memory.encrypt_stores (rand : Nat → Nat → Unit) (size : Nat) (data : List (BitVec 32))
    (m0 m : Memory (plain logN L)) (h0 : Memory.alloc (plain logN L) 32 size = some m0)
    (h : m0.encrypt (plainCipher logN L) rand data = some m) : m.Stores (padTo size data) := by
  obtain ⟨h1, h2, h3, h4, h5, h6⟩ :=
    Memory.encrypt_content (plainCipher logN L) (fun _ _ => rfl) rand 32 size data m0 m h0 h
  refine ⟨by omega, by rw [padTo_length, h2], h4, ?_, h6, h3⟩
  intro b hb
  rw [h2]
  exact ⟨(h5 b hb).1, (h5 b hb).2⟩

/-! ### Accesses -/

theorem collect_map_some {α β : Type} (f : α → Option β) (g : α → β) (l : List α)
    (h : ∀ a ∈ l, f a = some (g a)) : collect (l.map f) = some (l.map g) := by
  induction l with
  | nil => rfl
  | cons a l ih =>
    simp only [List.map_cons]
    rw [h a (by simp)]
    simp only [collect]
    rw [ih fun b hb => h b (by simp [hb])]
    rfl

theorem pack_eq (rs : List (Coeffs (2 ^ logN))) (w : BitVec 32) (h : rs.length = 32)
    (hr : ∀ i q, rs[i]? = some q → coeff0 q = bitCoeff w i) : (plain logN L).pack rs = w := by
  have e : (plain logN L).pack rs
      = wordOf (fun i => (rs[i]?).elim false fun p => L.bitOf (coeff0 p)) 32 := rfl
  rw [e, ← wordOf_getLsbD w]
  apply wordOf_congr
  intro i hi
  rw [List.getElem?_eq_getElem (by omega)]
  simp only [Option.elim_some]
  rw [hr i _ (List.getElem?_eq_getElem (by omega))]
  unfold bitCoeff
  cases w.getLsbD i with
  | true => exact L.bitOf_one
  | false => exact L.bitOf_zero

variable {m : Memory (plain logN L)} {l : List (BitVec 32)}

theorem Memory.Stores.withTmp_length (h : m.Stores l) : m.withTmp.length = 32 := by
  unfold Memory.withTmp
  rw [List.length_map, h.width]

/-- Stateless read. -/
theorem Memory.Stores.readStateless (h : m.Stores l) (threads : Nat) (ht : 0 < threads)
    (addr : BitVec 32) (offset : Nat) (w : BitVec 32) (hw : l[addr.toNat / 2 ^ offset]? = some w) :
    m.readStateless threads addr offset = some w := by
  have ha : addr.toNat / 2 ^ offset < m.size := by
    rw [← h.length]
    exact (List.getElem?_eq_some_iff.mp hw).1
  unfold Memory.readStateless
  have hne : m.bits.isEmpty = false := by
    cases hb : m.bits with
    | nil => have := h.width; rw [hb] at this; cases this
    | cons => rfl
  rw [hne, h.idle, parallel_eq _ _ _ ht (by rw [h.withTmp_length]; omega)]
  simp only [Bool.false_eq_true, if_false, Option.bind_some]
  have e : (m.withTmp.mapIdx fun _ p => (p.1, some (p.1.retrieveStateless addr offset))).map Prod.snd
      = m.bits.map fun b => some (b.retrieveStateless addr offset) := by
    apply List.ext_getElem?
    intro i
    simp [Memory.withTmp, Function.comp_def]
  have e' := collect_map_some (fun b : BitArray (plain logN L) => some (b.retrieveStateless addr offset))
    (fun b => b.retrieveStateless addr offset) m.bits (fun _ _ => rfl)
  rw [e, e']
  refine congrArg some (pack_eq (L := L) _ w ?_ ?_)
  · exact (List.length_map _).trans h.width
  · intro i q hq
    rw [List.getElem?_map] at hq
    obtain ⟨b, hb, rfl⟩ := Option.map_eq_some_iff.mp hq
    rw [BitArray.stateless_read b m.size (h.shape b (bits_mem hb)) addr offset ha]
    exact h.content i b hb _ w hw

/-- The state left by phase one. -/
def Memory.front (m : Memory (plain logN L)) (addr : BitVec 32) (offset : Nat) :
    Memory (plain logN L) :=
  { m with bits := m.bits.map fun b => { b with data := b.forward addr offset }, state := true }

theorem Memory.Stores.readStatefull (h : m.Stores l) (threads : Nat) (ht : 0 < threads)
    (addr : BitVec 32) (offset : Nat) (w : BitVec 32)
    (hw : l[accessIndex addr offset (bitsFor m.size)]? = some w) :
    m.readStatefull threads addr offset = some (m.front addr offset, w) := by
  have ha : accessIndex addr offset (bitsFor m.size) < m.size :=
    Nat.lt_of_lt_of_eq (List.getElem?_eq_some_iff.mp hw).1 h.length
  unfold Memory.readStatefull
  have hne : m.bits.isEmpty = false := by
    cases hb : m.bits with
    | nil => have := h.width; rw [hb] at this; cases this
    | cons => rfl
  rw [hne, h.idle, parallel_eq _ _ _ ht (by rw [h.withTmp_length]; omega)]
  simp only [Bool.false_eq_true, if_false, Option.bind_some]
  have e1 : (m.withTmp.mapIdx fun _ p => p.1.retrieveStatefull addr offset).map Prod.snd
      = m.bits.map fun b => (b.retrieveStatefull addr offset).2 := by
    apply List.ext_getElem?
    intro i
    simp [Memory.withTmp, Function.comp_def]
  have e2 : (m.withTmp.mapIdx fun _ p => p.1.retrieveStatefull addr offset).map Prod.fst
      = m.bits.map fun b => { b with data := b.forward addr offset } := by
    apply List.ext_getElem?
    intro i
    simp [Memory.withTmp, Function.comp_def, BitArray.retrieveStatefull]
  rw [e1, e2, collect_map_some _
    (fun b => ((b.retrieveStatefull addr offset).2.getD (fun _ => 0#2) : Coeffs (2 ^ logN)))]
  · rw [Option.map_some]
    refine congrArg some (congrArg (Prod.mk (m.front addr offset)) (pack_eq (L := L) _ w ?_ ?_))
    · exact (List.length_map _).trans h.width
    · intro i q hq
      rw [List.getElem?_map] at hq
      obtain ⟨b, hb, rfl⟩ := Option.map_eq_some_iff.mp hq
      obtain ⟨q, e, hq⟩ :=
        BitArray.statefull_read b m.size (h.shape b (bits_mem hb)) addr offset ha
      rw [e]
      exact hq.trans (h.content i b hb _ w hw)
  · intro b hb
    obtain ⟨q, e, hq⟩ := BitArray.statefull_read b m.size (h.shape b hb) addr offset ha
    rw [e]
    rfl

/-- Write. -/
theorem Memory.Stores.write (h : m.Stores l) (threads : Nat) (ht : 0 < threads) (w : BitVec 32)
    (addr : BitVec 32) (offset : Nat) (ha : accessIndex addr offset (bitsFor m.size) < m.size) :
    ∃ m', m.write threads w addr offset = some m' ∧ m'.size = m.size ∧
      m'.Stores (l.set (accessIndex addr offset (bitsFor m.size)) w) := by
  unfold Memory.write
  rw [h.idle, parallel_eq _ _ _ ht (by rw [h.width]; omega)]
  refine ⟨_, rfl, rfl, ?_⟩
  refine ⟨h.pos, (List.length_set ..).trans h.length, ?_, ?_, ?_, rfl⟩
  · simp [h.width]
  · intro b hb
    obtain ⟨i, hi, rfl⟩ := List.mem_mapIdx.mp hb
    exact (BitArray.write_spec _ m.size (h.shape _ (List.getElem_mem _)) addr offset _ ha).1
  · intro i b hb a y hy
    rw [List.getElem?_mapIdx] at hb
    obtain ⟨b0, hb0, rfl⟩ := Option.map_eq_some_iff.mp hb
    refine ((BitArray.write_spec b0 m.size (h.shape _ (bits_mem hb0)) addr offset _ ha).2 a).trans ?_
    by_cases e : a = accessIndex addr offset (bitsFor m.size)
    · rw [if_pos e]
      rw [List.getElem?_set, if_pos e.symm, if_pos (by rw [h.length]; exact ha)] at hy
      cases hy
      rfl
    · rw [if_neg e]
      rw [List.getElem?_set, if_neg (fun x => e x.symm)] at hy
      exact h.content i b0 hb0 a y hy

theorem forward_congr (b : BitArray (plain logN L)) (addr addr' : BitVec 32) (offset offset' : Nat)
    (h : accessIndex addr offset b.bitSize = accessIndex addr' offset' b.bitSize) :
    b.forward addr offset = b.forward addr' offset' := by
  have e1 : ∀ addr offset, b.forward addr offset = (frontData L b.data b.bitSize addr offset).modify 0
      (polyRotate (-((accessIndex addr offset b.bitSize % 2 ^ logN : Nat) : Int))) := by
    intro addr offset
    have e2 : accessIndex addr offset b.bitSize % 2 ^ logN
        = addr.toNat / 2 ^ offset % 2 ^ (min logN b.bitSize) * 2 ^ 0 := by
      rw [Nat.pow_zero, Nat.mul_one, index_low _ _ _ (accessIndex_lt addr offset b.bitSize)]
      rfl
    rw [e2]
    rfl
  have e3 : frontData L b.data b.bitSize addr offset = frontData L b.data b.bitSize addr' offset' := by
    unfold frontData
    by_cases c : b.bitSize > logN
    · rw [if_pos c, if_pos c, front_index _ _ _ c, front_index _ _ _ c, h]
    · rw [if_neg c, if_neg c]
  rw [e1, e1, e3, h]

theorem Memory.front_congr (h : m.Stores l) (addr addr' : BitVec 32) (offset offset' : Nat)
    (he : accessIndex addr offset (bitsFor m.size) = accessIndex addr' offset' (bitsFor m.size)) :
    m.front addr offset = m.front addr' offset' := by
  unfold Memory.front
  have : (m.bits.map fun b => ({ b with data := b.forward addr offset } : BitArray (plain logN L)))
      = m.bits.map fun b => { b with data := b.forward addr' offset' } := by
    apply List.map_congr_left
    intro b hb
    have hs := (h.shape b hb).bitSize
    rw [forward_congr b addr addr' offset offset' (by rw [hs]; exact he)]
  rw [this]

/-- Phase two after phase one is a write. -/
theorem Memory.Stores.rev (h : m.Stores l) (threads : Nat) (ht : 0 < threads) (w : BitVec 32)
    (addr : BitVec 32) (offset : Nat) :
    (m.front addr offset).readStatefullRev threads w addr offset = m.write threads w addr offset := by
  unfold Memory.readStatefullRev Memory.write
  rw [h.idle, parallel_eq _ _ m.bits ht (by rw [h.width]; omega),
    parallel_eq _ _ (m.front addr offset).bits ht (by simp [Memory.front, h.width])]
  simp only [Memory.front, Bool.true_eq_false, Bool.false_eq_true, if_false, Option.map_some]
  refine congrArg some ?_
  have e : (m.bits.map fun b => ({ b with data := b.forward addr offset } : BitArray (plain logN L))).mapIdx
        (fun i b => b.retrieveStatefullRev ((plain logN L).getBit w i) addr offset)
      = m.bits.mapIdx fun i b => b.write ((plain logN L).getBit w i) addr offset := by
    apply List.ext_getElem?
    intro i
    simp only [List.getElem?_mapIdx, List.getElem?_map, Option.map_map]
    rfl
  rw [e]

theorem modify_eq_set {α : Type} (l : List α) (i : Nat) (f : α → α) (x : α) (h : l[i]? = some x) :
    l.modify i f = l.set i (f x) := by
  apply List.ext_getElem?
  intro j
  rw [List.getElem?_modify, List.getElem?_set]
  by_cases e : i = j
  · subst e
    rw [if_pos rfl, if_pos (List.getElem?_eq_some_iff.mp h).1, h]
    simp
  · simp [e]

/-- `zero`: the word it actually clears. -/
def zeroTarget (n addr : Nat) : Nat := addr / n * n + addr / n % n

theorem zeroAt_spec (b : BitArray (plain logN L)) (size : Nat) (hs : b.Shape size) (poly idx : Nat)
    (hp : poly < divCeil size (2 ^ logN)) (hi : idx < 2 ^ logN) :
    (b.zeroAt poly idx).Shape size ∧
    ∀ a', BitArray.decrypt (plainCipher logN L) (b.zeroAt poly idx) a'
      = if a' = poly * 2 ^ logN + idx then 0#2 else BitArray.decrypt (plainCipher logN L) b a' := by
  have hl : poly < b.data.length := by rw [hs.length]; exact hp
  have e1 : (poly * 2 ^ logN + idx) / 2 ^ logN = poly := by
    rw [Nat.mul_comm, Nat.mul_add_div (Nat.two_pow_pos _), Nat.div_eq_of_lt hi, Nat.add_zero]
  have e2 : (poly * 2 ^ logN + idx) % 2 ^ logN = idx := by
    rw [Nat.mul_comm, Nat.mul_add_mod, Nat.mod_eq_of_lt hi]
  have hp' : b.data[(poly * 2 ^ logN + idx) / 2 ^ logN]? = some b.data[poly] := by
    rw [e1]
    exact List.getElem?_eq_getElem hl
  have hd : (b.zeroAt poly idx).data
      = List.set b.data ((poly * 2 ^ logN + idx) / 2 ^ logN)
          (setCoeff b.data[poly] ((poly * 2 ^ logN + idx) % 2 ^ logN) 0#2) := by
    rw [e1, e2, ← overwrite _ _ hi]
    unfold BitArray.zeroAt
    simp only
    rw [modify_eq_set _ _ _ _ (List.getElem?_eq_getElem hl)]
    refine congrArg (List.set b.data poly) ?_
    refine congrArg (polyRotate (idx : Int)) ?_
    funext i
    have : (constPoly 0#2 : Coeffs (2 ^ logN)) i = 0#2 := by simp [constPoly]
    rw [this, BitVec.add_zero]
  refine ⟨⟨?_, hs.bitSize⟩, fun a' => decrypt_set b _ _ _ _ hp' hd a'⟩
  rw [hd]
  exact (List.length_set ..).trans hs.length

theorem Memory.Stores.zero (h : m.Stores l) (threads : Nat) (ht : 0 < threads) (addr : Nat)
    (ha : addr < m.size) :
    ∃ m', m.zero threads addr = some m' ∧ m'.size = m.size ∧
      m'.Stores (l.set (zeroTarget (2 ^ logN) addr) 0#32) := by
  have hpoly : addr / 2 ^ logN < divCeil m.size (2 ^ logN) :=
    div_lt_chunks _ _ _ (Nat.two_pow_pos _) ha
  unfold Memory.zero
  have hany : (m.bits.any fun b => decide (b.data.length ≤ addr / 2 ^ (plain logN L).logN)) = false := by
    rw [List.any_eq_false]
    intro b hb
    have hs := (h.shape b hb).length
    simp only [decide_eq_true_eq, Nat.not_le]
    rw [hs]
    exact hpoly
  simp only [hany, Bool.false_eq_true, if_false]
  rw [parallel_eq _ _ _ ht (by rw [h.width]; omega)]
  refine ⟨_, rfl, rfl, ?_⟩
  have hi : addr / 2 ^ logN % 2 ^ logN < 2 ^ logN := Nat.mod_lt _ (Nat.two_pow_pos _)
  refine ⟨h.pos, (List.length_set ..).trans h.length, ?_, ?_, ?_, h.idle⟩
  · simp [h.width]
  · intro b hb
    obtain ⟨i, hi', rfl⟩ := List.mem_mapIdx.mp hb
    exact (zeroAt_spec _ m.size (h.shape _ (List.getElem_mem _)) _ _ hpoly hi).1
  · intro i b hb a y hy
    rw [List.getElem?_mapIdx] at hb
    obtain ⟨b0, hb0, rfl⟩ := Option.map_eq_some_iff.mp hb
    refine ((zeroAt_spec b0 m.size (h.shape _ (bits_mem hb0)) _ _ hpoly hi).2 a).trans ?_
    show (if a = zeroTarget (2 ^ logN) addr then _ else _) = _
    by_cases e : a = zeroTarget (2 ^ logN) addr
    · rw [if_pos e]
      rw [List.getElem?_set, if_pos e.symm] at hy
      by_cases hz : zeroTarget (2 ^ logN) addr < l.length
      · rw [if_pos hz] at hy
        cases hy
        simp [bitCoeff]
      · rw [if_neg hz] at hy
        cases hy
    · rw [if_neg e]
      rw [List.getElem?_set, if_neg (fun x => e x.symm)] at hy
      exact h.content i b0 hb0 a y hy

end Verif.Model
