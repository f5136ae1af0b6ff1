import Verif.Model.TestVM
import Verif.Lemmas.Bits
/-
  Helper lemmas about the memory of the test VM.
-/
namespace Verif
open Model

theorem usizeSub_of_le {chk : Bool} {a b : Nat} (h : b ≤ a) : usizeSub chk a b = some (a - b) := by
  simp [usizeSub, h]

theorem usizeAdd_of_lt {chk : Bool} {a b : Nat} (h : a + b < 2 ^ 64) : usizeAdd chk a b = some (a + b) := by
  simp [usizeAdd, h]

/-- `(a + i) - o` and `(a - o) + i` coincide, or the first byte already panics. -/
theorem usize_swap (chk : Bool) (a i o : Nat) (hi : a + i < 2 ^ 64) (ho : o < 2 ^ 64) :
    (usizeSub chk a o).bind (fun k => usizeAdd chk k i)
      = if chk = true ∧ a < o then none else usizeSub chk (a + i) o := by
  unfold usizeSub usizeAdd
  by_cases h : o ≤ a
  · have h1 : a - o + i < 2 ^ 64 := by omega
    have h2 : ¬ a < o := by omega
    have h3 : o ≤ a + i := by omega
    simp only [h, h1, h2, h3, if_true, Option.bind_some, and_false, if_false]
    refine congrArg some ?_; omega
  · have h2 : a < o := by omega
    cases chk
    · simp only [h, if_false, Option.bind_some, Bool.false_eq_true, false_and]
      by_cases h3 : o ≤ a + i
      · have : ¬ 2 ^ 64 + a - o + i < 2 ^ 64 := by omega
        simp only [h3, this, if_true, if_false]; refine congrArg some ?_; omega
      · have : 2 ^ 64 + a - o + i < 2 ^ 64 := by omega
        simp only [h3, this, if_true, if_false]; refine congrArg some ?_; omega
    · simp [h, h2]

theorem readNth_eq (chk : Bool) (m : TMem) (a i : Nat) (hi : a + i < 2 ^ 64) (ho : m.offset < 2 ^ 64) :
    m.readNth chk a i = if chk = true ∧ a < m.offset then none else m.readByte chk (a + i) := by
  have h := usize_swap chk a i m.offset hi ho
  unfold TMem.readNth TMem.readByte
  rw [← Option.bind_assoc, h]
  split <;> rfl

theorem writeNth_eq (chk : Bool) (m : TMem) (a i : Nat) (v : U32) (hi : a + i < 2 ^ 64) :
    m.writeNth chk a v i = m.writeByte chk (a + i) ((v >>> (i * 8)).setWidth 8) := by
  unfold TMem.writeNth TMem.writeByte
  rw [usizeAdd_of_lt hi, Option.bind_some]
  have : ((v >>> (i * 8)) &&& 0xFF#32).setWidth 8 = (v >>> (i * 8)).setWidth 8 := by
    apply BitVec.eq_of_toNat_eq
    have h := Nat.and_two_pow_sub_one_eq_mod (v >>> (i * 8)).toNat 8
    simp only [BitVec.toNat_setWidth, BitVec.toNat_and, BitVec.toNat_ofNat]
    rw [show 255 % 2 ^ 32 = 2 ^ 8 - 1 from rfl, h]
    omega
  rw [this]

theorem leHalf_toNat (b0 b1 : BitVec 8) : (leHalf b0 b1).toNat = b0.toNat + 256 * b1.toNat := by
  have h0 := b0.isLt
  have h1 := b1.isLt
  simp only [leHalf, BitVec.toNat_add, BitVec.toNat_shiftLeft, BitVec.toNat_setWidth, BitVec.toNat_ofNat,
    Nat.shiftLeft_eq]
  omega

theorem leWord_toNat (b0 b1 b2 b3 : BitVec 8) : (leWord b0 b1 b2 b3).toNat
    = b0.toNat + 256 * (b1.toNat + 256 * (b2.toNat + 256 * b3.toNat)) := by
  have h0 := b0.isLt
  have h1 := b1.isLt
  have h2 := b2.isLt
  have h3 := b3.isLt
  simp only [leWord, BitVec.toNat_add, BitVec.toNat_shiftLeft, BitVec.toNat_setWidth, BitVec.toNat_ofNat,
    Nat.shiftLeft_eq]
  omega

/-- The bytes of a word, put together again. -/
theorem leWord_bytes (v : U32) : leWord ((v >>> (0 * 8)).setWidth 8) ((v >>> (1 * 8)).setWidth 8)
    ((v >>> (2 * 8)).setWidth 8) ((v >>> (3 * 8)).setWidth 8) = v := by
  apply BitVec.eq_of_toNat_eq
  rw [leWord_toNat]
  have := v.isLt
  simp only [BitVec.toNat_setWidth, BitVec.toNat_ushiftRight, Nat.shiftRight_eq_div_pow]
  omega

theorem leHalf_bytes (v : BitVec 16) : leHalf ((v.setWidth 32 >>> (0 * 8)).setWidth 8)
    ((v.setWidth 32 >>> (1 * 8)).setWidth 8) = v := by
  apply BitVec.eq_of_toNat_eq
  rw [leHalf_toNat]
  have := v.isLt
  simp only [BitVec.toNat_setWidth, BitVec.toNat_ushiftRight, Nat.shiftRight_eq_div_pow]
  omega

theorem readByte_of_ge (chk : Bool) (m : TMem) (a : Nat) (h : m.offset ≤ a) :
    m.readByte chk a = m.get (a - m.offset) := by
  unfold TMem.readByte; rw [usizeSub_of_le h]; rfl

theorem writeByte_of_ge (chk : Bool) (m : TMem) (a : Nat) (v : BitVec 8) (h : m.offset ≤ a) :
    m.writeByte chk a v = m.put (a - m.offset) v := by
  unfold TMem.writeByte; rw [usizeSub_of_le h]; rfl

theorem put_some {m m' : TMem} {i : Nat} {v : BitVec 8} (h : m.put i v = some m') :
    m.size ≠ 0 ∧ i % m.size < m.data.length ∧ m' = { m with data := m.data.set (i % m.size) v } := by
  unfold TMem.put at h
  by_cases h0 : m.size = 0
  · simp [h0] at h
  · by_cases h1 : i % m.size < m.data.length
    · simp only [h0, h1, if_false, if_true] at h
      exact ⟨h0, h1, (Option.some.inj h).symm⟩
    · simp [h0, h1] at h

theorem put_get {m m' : TMem} {i : Nat} {v : BitVec 8} (h : m.put i v = some m') (j : Nat) :
    m'.get j = if j % m.size = i % m.size then some v else m.get j := by
  obtain ⟨h0, h1, rfl⟩ := put_some h
  simp only [TMem.get, h0, if_false, List.getElem?_set]
  by_cases hj : j % m.size = i % m.size
  · simp [hj, h1]
  · have : ¬ i % m.size = j % m.size := fun h => hj h.symm
    simp [hj, this]

end Verif
