import Verif.Lemmas.TestMem
/-
  C37: the memory of the test VM.  Addresses are below `2^64 - 4` (they are 32-bit values converted to
  `usize`), the offset is a `usize`.
-/
namespace Verif.Props
open Model

/-- Byte `k` of a value. -/
def valByte {n : Nat} (v : BitVec n) (k : Nat) : BitVec 8 := v.extractLsb' (8 * k) 8

theorem valByte_eq {n : Nat} (v : BitVec n) (hn : n ≤ 32) (k : Nat) (hk : 8 * k + 8 ≤ n) :
    (v.setWidth 32 >>> (k * 8)).setWidth 8 = valByte v k := by
  apply BitVec.eq_of_toNat_eq
  have h := v.isLt
  have : v.toNat < 2 ^ 32 := Nat.lt_of_lt_of_le h (Nat.pow_le_pow_right (by omega) hn)
  simp only [valByte, BitVec.toNat_setWidth, BitVec.toNat_ushiftRight, BitVec.extractLsb'_toNat,
    Nat.mod_eq_of_lt this, Nat.mul_comm]

/-- A half-word is read as two bytes, the first being the least significant one. -/
theorem C37_read_half (chk : Bool) (m : TMem) (a : Nat) (ha : a + 4 < 2 ^ 64) (ho : m.offset < 2 ^ 64)
    (h2 : a % 2 = 0) :
    m.readHalf chk a = (m.readByte chk a).bind fun b0 => (m.readByte chk (a + 1)).map fun b1 =>
      BitVec.ofNat 16 (b0.toNat + 256 * b1.toNat) := by
  have e : ∀ b0 b1 : BitVec 8, leHalf b0 b1 = BitVec.ofNat 16 (b0.toNat + 256 * b1.toNat) := fun b0 b1 => by
    rw [← leHalf_toNat, BitVec.ofNat_toNat, BitVec.setWidth_eq]
  unfold TMem.readHalf
  rw [if_pos h2, readNth_eq chk m a 0 (by omega) ho, readNth_eq chk m a 1 (by omega) ho]
  by_cases hp : chk = true ∧ a < m.offset
  · obtain ⟨rfl, h⟩ := hp
    have h' : ¬ m.offset ≤ a := by omega
    simp [TMem.readByte, usizeSub, h, h']
  · simp only [hp, if_false, Nat.add_zero, e]

theorem C37_read_half_odd (chk : Bool) (m : TMem) (a : Nat) (h : a % 2 ≠ 0) : m.readHalf chk a = none := by
  simp [TMem.readHalf, h]

/-- A word is read as four bytes, the first being the least significant one. -/
theorem C37_read_word (chk : Bool) (m : TMem) (a : Nat) (ha : a + 4 < 2 ^ 64) (ho : m.offset < 2 ^ 64)
    (h4 : a % 4 = 0) :
    m.readWord chk a = (m.readByte chk a).bind fun b0 => (m.readByte chk (a + 1)).bind fun b1 =>
      (m.readByte chk (a + 2)).bind fun b2 => (m.readByte chk (a + 3)).map fun b3 =>
      BitVec.ofNat 32 (b0.toNat + 256 * (b1.toNat + 256 * (b2.toNat + 256 * b3.toNat))) := by
  have e : ∀ b0 b1 b2 b3 : BitVec 8, leWord b0 b1 b2 b3
      = BitVec.ofNat 32 (b0.toNat + 256 * (b1.toNat + 256 * (b2.toNat + 256 * b3.toNat))) :=
    fun b0 b1 b2 b3 => by rw [← leWord_toNat, BitVec.ofNat_toNat, BitVec.setWidth_eq]
  unfold TMem.readWord
  rw [if_pos h4, readNth_eq chk m a 0 (by omega) ho, readNth_eq chk m a 1 (by omega) ho,
    readNth_eq chk m a 2 (by omega) ho, readNth_eq chk m a 3 (by omega) ho]
  by_cases hp : chk = true ∧ a < m.offset
  · obtain ⟨rfl, h⟩ := hp
    have h' : ¬ m.offset ≤ a := by omega
    simp [TMem.readByte, usizeSub, h, h']
  · simp only [hp, if_false, Nat.add_zero, e]

theorem C37_read_word_misaligned (chk : Bool) (m : TMem) (a : Nat) (h : a % 4 ≠ 0) :
    m.readWord chk a = none := by
  simp [TMem.readWord, h]

/-- A half-word is written as two bytes, least significant first. -/
theorem C37_write_half (chk : Bool) (m : TMem) (a : Nat) (v : BitVec 16) (ha : a + 4 < 2 ^ 64) :
    m.writeHalf chk a v = (m.writeByte chk a (valByte v 0)).bind fun m =>
      m.writeByte chk (a + 1) (valByte v 1) := by
  unfold TMem.writeHalf
  rw [writeNth_eq chk m a 0 _ (by omega), valByte_eq v (by omega) 0 (by omega)]
  refine congrArg (Option.bind _) (funext fun m => ?_)
  rw [writeNth_eq chk m a 1 _ (by omega), valByte_eq v (by omega) 1 (by omega)]

/-- A word is written as four bytes, least significant first. -/
theorem C37_write_word (chk : Bool) (m : TMem) (a : Nat) (v : BitVec 32) (ha : a + 4 < 2 ^ 64) :
    m.writeWord chk a v = (m.writeByte chk a (valByte v 0)).bind fun m =>
      (m.writeByte chk (a + 1) (valByte v 1)).bind fun m =>
      (m.writeByte chk (a + 2) (valByte v 2)).bind fun m =>
      m.writeByte chk (a + 3) (valByte v 3) := by
  have hb : ∀ k, k < 4 → (v >>> (k * 8)).setWidth 8 = valByte v k := fun k hk => by
    rw [← valByte_eq v (by omega) k (by omega), BitVec.setWidth_eq]
  unfold TMem.writeWord
  rw [writeNth_eq chk m a 0 _ (by omega), hb 0 (by omega)]
  refine congrArg (Option.bind _) (funext fun m => ?_)
  rw [writeNth_eq chk m a 1 _ (by omega), hb 1 (by omega)]
  refine congrArg (Option.bind _) (funext fun m => ?_)
  rw [writeNth_eq chk m a 2 _ (by omega), hb 2 (by omega)]
  refine congrArg (Option.bind _) (funext fun m => ?_)
  rw [writeNth_eq chk m a 3 _ (by omega), hb 3 (by omega)]

/-- After a byte write, the byte written and only that byte has changed.  Addresses repeat with period
`size`: two addresses name the same byte when they are equal modulo `size`. -/
theorem C37_write_byte (chk : Bool) (m m' : TMem) (a b : Nat) (v : BitVec 8) (ha : m.offset ≤ a)
    (hb : m.offset ≤ b) (h : m.writeByte chk a v = some m') :
    m'.offset = m.offset ∧ m'.size = m.size ∧ m'.data.length = m.data.length ∧
    m'.readByte chk b = if (b - m.offset) % m.size = (a - m.offset) % m.size then some v
      else m.readByte chk b := by
  rw [writeByte_of_ge _ _ _ _ ha] at h
  have hg := put_get h (b - m.offset)
  obtain ⟨-, -, rfl⟩ := put_some h
  refine ⟨rfl, rfl, by simp, ?_⟩
  rw [readByte_of_ge _ m _ hb, readByte_of_ge _ _ _ (by exact hb)]
  exact hg

/-- Accesses at or above the offset of an intact memory never panic. -/
theorem C37_total (chk : Bool) (m : TMem) (a : Nat) (v : BitVec 8) (hs : 0 < m.size)
    (hl : m.data.length = m.size) (ha : m.offset ≤ a) :
    (m.readByte chk a).isSome ∧ (m.writeByte chk a v).isSome := by
  have h1 : m.size ≠ 0 := by omega
  have h2 : (a - m.offset) % m.size < m.data.length := by rw [hl]; exact Nat.mod_lt _ hs
  rw [readByte_of_ge _ _ _ ha, writeByte_of_ge _ _ _ _ ha]
  simp [TMem.get, TMem.put, h1, h2]

/-- With overflow checks an access below the offset panics. -/
theorem C37_below (m : TMem) (a : Nat) (v : BitVec 8) (ha : a < m.offset) :
    m.readByte true a = none ∧ m.writeByte true a v = none := by
  have : ¬ m.offset ≤ a := by omega
  simp [TMem.readByte, TMem.writeByte, usizeSub, this]

theorem near (o s a i j : Nat) (h : i < s) (h' : j < s) (ha : o ≤ a) :
    (a + i - o) % s = (a + j - o) % s ↔ i = j := by
  constructor
  · intro e
    rw [show a + i - o = (a - o) + i by omega, show a + j - o = (a - o) + j by omega] at e
    by_cases hij : i ≤ j
    · have : ((a - o) + j - ((a - o) + i)) % s = 0 := Nat.sub_mod_eq_zero_of_mod_eq e.symm
      rw [show (a - o) + j - ((a - o) + i) = j - i by omega, Nat.mod_eq_of_lt (by omega)] at this
      omega
    · have : ((a - o) + i - ((a - o) + j)) % s = 0 := Nat.sub_mod_eq_zero_of_mod_eq e
      rw [show (a - o) + i - ((a - o) + j) = i - j by omega, Nat.mod_eq_of_lt (by omega)] at this
      omega
  · rintro rfl; rfl

/-- Reading a word just written returns it. -/
theorem C37_word_roundtrip (chk : Bool) (m m' : TMem) (a : Nat) (v : BitVec 32) (ha : a + 4 < 2 ^ 64)
    (ho : m.offset < 2 ^ 64) (hm : m.offset ≤ a) (hs : 4 ≤ m.size) (h4 : a % 4 = 0)
    (h : m.writeWord chk a v = some m') : m'.readWord chk a = some v := by
  rw [C37_write_word chk m a v ha] at h
  obtain ⟨m1, h1, h⟩ := Option.bind_eq_some_iff.mp h
  obtain ⟨m2, h2, h⟩ := Option.bind_eq_some_iff.mp h
  obtain ⟨m3, h3, h⟩ := Option.bind_eq_some_iff.mp h
  have g1 := fun b hb => C37_write_byte chk m m1 a b _ hm hb h1
  obtain ⟨o1, s1, -, -⟩ := g1 a hm
  have g2 := fun b hb => C37_write_byte chk m1 m2 (a + 1) b _ (by omega) hb h2
  obtain ⟨o2, s2, -, -⟩ := g2 (a + 1) (by omega)
  have g3 := fun b hb => C37_write_byte chk m2 m3 (a + 2) b _ (by omega) hb h3
  obtain ⟨o3, s3, -, -⟩ := g3 (a + 2) (by omega)
  have g4 := fun b hb => C37_write_byte chk m3 m' (a + 3) b _ (by omega) hb h
  obtain ⟨o4, s4, -, -⟩ := g4 (a + 3) (by omega)
  have e1 : m1.offset = m.offset := o1
  have e2 : m2.offset = m.offset := o2.trans e1
  have e3 : m3.offset = m.offset := o3.trans e2
  have f1 : m1.size = m.size := s1
  have f2 : m2.size = m.size := s2.trans f1
  have f3 : m3.size = m.size := s3.trans f2
  have n := fun i j (hi : i < 4) (hj : j < 4) =>
    near m.offset m.size a i j (by omega) (by omega) hm
  have r : ∀ i, i < 4 → m'.readByte chk (a + i) = some (valByte v i) := by
    intro i hi
    have q4 := (g4 (a + i) (by omega)).2.2.2
    have q3 := (g3 (a + i) (by omega)).2.2.2
    have q2 := (g2 (a + i) (by omega)).2.2.2
    have q1 := (g1 (a + i) (by omega)).2.2.2
    rw [e3, f3] at q4
    rw [e2, f2] at q3
    rw [e1, f1] at q2
    have m3 := n i 3 hi (by omega)
    have m2 := n i 2 hi (by omega)
    have m1 := n i 1 hi (by omega)
    have m0 := n i 0 hi (by omega)
    rw [Nat.add_zero] at m0
    simp only [m3] at q4
    simp only [m2] at q3
    simp only [m1] at q2
    simp only [m0] at q1
    rw [q4, q3, q2, q1]
    have : i = 0 ∨ i = 1 ∨ i = 2 ∨ i = 3 := by omega
    rcases this with rfl | rfl | rfl | rfl <;> simp
  have r0 := r 0 (by omega)
  rw [Nat.add_zero] at r0
  rw [C37_read_word chk m' a ha (by omega) h4, r0, r 1 (by omega), r 2 (by omega), r 3 (by omega)]
  simp only [Option.bind_some, Option.map_some]
  refine congrArg some ?_
  apply BitVec.eq_of_toNat_eq
  have := v.isLt
  simp only [valByte, BitVec.toNat_ofNat, BitVec.extractLsb'_toNat, Nat.shiftRight_eq_div_pow]
  omega

/-- Reading a half-word just written returns it. -/
theorem C37_half_roundtrip (chk : Bool) (m m' : TMem) (a : Nat) (v : BitVec 16) (ha : a + 4 < 2 ^ 64)
    (ho : m.offset < 2 ^ 64) (hm : m.offset ≤ a) (hs : 2 ≤ m.size) (h2 : a % 2 = 0)
    (h : m.writeHalf chk a v = some m') : m'.readHalf chk a = some v := by
  rw [C37_write_half chk m a v ha] at h
  obtain ⟨m1, h1, h⟩ := Option.bind_eq_some_iff.mp h
  have g1 := fun b hb => C37_write_byte chk m m1 a b _ hm hb h1
  obtain ⟨o1, s1, -, -⟩ := g1 a hm
  have g2 := fun b hb => C37_write_byte chk m1 m' (a + 1) b _ (by omega) hb h
  obtain ⟨o2, s2, -, -⟩ := g2 (a + 1) (by omega)
  have n1 := near m.offset m.size a 0 1 (by omega) (by omega) hm
  rw [Nat.add_zero] at n1
  have r0 : m'.readByte chk a = some (valByte v 0) := by
    have q2 := (g2 a (by omega)).2.2.2
    have q1 := (g1 a (by omega)).2.2.2
    rw [o1, s1] at q2
    simp only [n1] at q2
    rw [q2, q1]; simp
  have r1 : m'.readByte chk (a + 1) = some (valByte v 1) := by
    rw [(g2 (a + 1) (by omega)).2.2.2, if_pos rfl]
  rw [C37_read_half chk m' a ha (by omega) h2, r0, r1]
  simp only [Option.bind_some, Option.map_some]
  refine congrArg some ?_
  apply BitVec.eq_of_toNat_eq
  have := v.isLt
  simp only [valByte, BitVec.toNat_ofNat, BitVec.extractLsb'_toNat, Nat.shiftRight_eq_div_pow]
  omega

/-- The size bound of `C37_word_roundtrip` is needed: in a memory of two bytes the bytes of a word
overwrite each other. -/
theorem C37_small_memory :
    ((⟨[0#8, 0#8], 0, 2⟩ : TMem).writeWord true 0 0x04030201#32).bind (fun m => m.readWord true 0)
      = some 0x04030403#32 := by decide +kernel

example : ((TMem.new 0x40000 16).writeWord true 0x40004 0xDEADBEEF#32).bind
    (fun m => m.readHalf true 0x40006) = some 0xDEAD#16 := by decide +kernel
example : (TMem.new 0x40000 16).readByte true 0x3FFFF = none ∧
    (TMem.new 0x40000 16).readByte false 0x3FFFF = some 0#8 := by decide +kernel

end Verif.Props
