import Verif.Model.Scratch
/-
  C62: scratch space of the memory operations.
-/
namespace Verif.Props
open Verif.Model.Scratch

/-- Bytes a piece of code needs at its worst moment. -/
private def need : Use → Nat
  | .skip => 0
  | .call n => n
  | .take n b => n + need b
  | .seq a b => max (need a) (need b)

private theorem runs_iff (u : Use) : ∀ a, u.runs a = true ↔ need u ≤ a := by
  induction u with
  | skip => simp [Use.runs, need]
  | call n => simp [Use.runs, need]
  | take n b ih => intro a; simp [Use.runs, need, ih]; omega
  | seq x y hx hy => intro a; simp [Use.runs, need, hx, hy]; omega

private theorem onThreads_iff (avail t bytes w : Nat) (u : Use) :
    onThreads avail t bytes w u = true ↔ t * bytes ≤ avail ∧ 0 < t ∧ 0 < w ∧ need u ≤ bytes := by
  simp [onThreads, runs_iff, and_assoc]

/-- Zeroing a word and reading statelessly never run out of scratch once the assertion at their
start holds: the reserved size covers the work, for all library sizes and all thread counts. -/
theorem C62_zero (avail t w : Nat) (s : Sizes) (ht : 0 < t) (hw : 0 < w)
    (hassert : t * zeroBytes s ≤ avail) : zero avail t w s = true := by
  rw [zero, onThreads_iff]
  refine ⟨hassert, ht, hw, ?_⟩
  simp [zeroUse, zeroBytes, need]; omega

/-- See `C62_zero`. -/
theorem C62_stateless (avail t w : Nat) (s : Sizes) (ht : 0 < t) (hw : 0 < w)
    (htake : w * s.word + s.pack ≤ avail)
    (hassert : t * statelessBytes s ≤ avail - w * s.word) : readStateless avail t w s = true := by
  have : onThreads (avail - w * s.word) t (statelessBytes s) w (statelessUse s) = true :=
    (onThreads_iff ..).2 ⟨hassert, ht, hw, by simp [statelessUse, statelessBytes, need]⟩
  simp [readStateless, readWith, this, Use.runs]; omega

/-- A stateful read whose start-up assertion holds panics in a thread exactly when the memory fits in
one ciphertext (`bit_size ≤ log_n`) and the blind rotation needs more bytes than the blind retrieval:
the reserved size leaves the rotation out in that case although it runs in every case. -/
theorem C62_stateful_partial (avail t w bs logN : Nat) (s : Sizes) (ht : 0 < t) (hw : 0 < w)
    (htake : w * s.word + s.pack ≤ avail)
    (hassert : t * statefulBytes bs logN s ≤ avail - w * s.word) :
    readStateful avail t w bs logN s = true ↔ logN < bs ∨ s.rotation ≤ s.retrieval := by
  have h := onThreads_iff (avail - w * s.word) t (statefulBytes bs logN s) w (statefulUse bs logN s)
  have e : need (statefulUse bs logN s) ≤ statefulBytes bs logN s ↔
      logN < bs ∨ s.rotation ≤ s.retrieval := by
    by_cases hb : logN < bs <;> simp [statefulUse, statefulBytes, whenUse, need, hb]
  rw [e] at h
  simp only [readStateful, readWith, Bool.and_eq_true, h, Use.runs, decide_eq_true_eq]
  constructor
  · rintro ⟨⟨-, -, -, -, h⟩, -⟩; exact h
  · intro hh; exact ⟨⟨by omega, hassert, ht, hw, hh⟩, by omega⟩

/-- The two writes: with the assertion at their start, a thread panics exactly when the bit
extraction does not fit, or the memory fits in one ciphertext and the blind rotation needs more than
everything that was reserved for the other steps. -/
theorem C62_write_partial (avail t w bs logN : Nat) (s : Sizes) (ht : 0 < t) (hw : 0 < w)
    (hassert : t * (revBytes bs logN s + s.word) ≤ avail) :
    (write avail t w bs logN s = true ↔
      s.getBit ≤ revBytes bs logN s ∧
        (logN < bs ∨ s.rotation ≤ max (s.trace + max s.glwe s.normalize) s.retrieval)) ∧
    readStatefulRev avail t w bs logN s = write avail t w bs logN s := by
  have h1 := onThreads_iff avail t (revBytes bs logN s + s.word) w
    (withBit s (writeUse bs logN s))
  have h2 := onThreads_iff avail t (revBytes bs logN s + s.word) w
    (withBit s (revUse bs logN s))
  have e1 : need (withBit s (writeUse bs logN s)) ≤ revBytes bs logN s + s.word ↔
      s.getBit ≤ revBytes bs logN s ∧
        (logN < bs ∨ s.rotation ≤ max (s.trace + max s.glwe s.normalize) s.retrieval) := by
    by_cases hb : logN < bs <;> simp [withBit, writeUse, revBytes, whenUse, need, hb] <;> omega
  have e2 : need (withBit s (revUse bs logN s)) ≤ revBytes bs logN s + s.word ↔
      s.getBit ≤ revBytes bs logN s ∧
        (logN < bs ∨ s.rotation ≤ max (s.trace + max s.glwe s.normalize) s.retrieval) := by
    by_cases hb : logN < bs <;> simp [withBit, revUse, revBytes, whenUse, need, hb] <;> omega
  rw [e1] at h1
  rw [e2] at h2
  refine ⟨?_, ?_⟩
  · rw [write, h1]
    exact ⟨fun h => h.2.2.2, fun h => ⟨hassert, ht, hw, h⟩⟩
  · rw [readStatefulRev, write, Bool.eq_iff_iff, h1, h2]

/-- The scratch `execute` allocates grows with the number of threads, so that the assertions hold for
every thread count as soon as they hold for one thread with the word ciphertexts set aside; and with
zero threads (`PHANTOM_THREADS=0`) every operation panics. -/
theorem C62_execute (bytes w : Nat) (s : Sizes) (h : bytes + w * s.word ≤ 2 ^ 24) :
    (∀ t, 0 < t → t * bytes ≤ executeScratch t - w * s.word) ∧
    (∀ t, 0 < t → t * bytes ≤ executeScratch t) ∧
    ∀ avail bs logN, zero avail 0 w s = false ∧ readStateless avail 0 w s = false ∧
      readStateful avail 0 w bs logN s = false ∧ readStatefulRev avail 0 w bs logN s = false ∧
      write avail 0 w bs logN s = false := by
  refine ⟨fun t ht => ?_, fun t ht => ?_, fun avail bs logN => ?_⟩
  · have h1 : t * (bytes + w * s.word) ≤ t * 2 ^ 24 := Nat.mul_le_mul_left t h
    have h2 : 1 * (w * s.word) ≤ t * (w * s.word) := Nat.mul_le_mul_right _ ht
    rw [Nat.mul_add] at h1
    simp only [executeScratch, Nat.mul_comm (2 ^ 24) t]
    omega
  · have h1 : t * (bytes + w * s.word) ≤ t * 2 ^ 24 := Nat.mul_le_mul_left t h
    rw [Nat.mul_add] at h1
    simp only [executeScratch, Nat.mul_comm (2 ^ 24) t]
    omega
  · simp [zero, readStateless, readStateful, readStatefulRev, write, readWith, onThreads]

/-- Preparing bits: with the assertion at its start, a thread panics exactly when the size the library reports does not
cover the two temporaries and the largest of the three calls. -/
theorem C62_prepare (avail t bits : Nat) (s : PrepSizes) (ht : 0 < t) (hb : 0 < bits) (hassert : t * s.prepare ≤ avail) :
    prepare avail t bits s = true ↔ s.ggsw + s.lwe + max s.getBit (max s.bootstrap s.ggswPrepare) ≤ s.prepare := by
  rw [prepare, onThreads_iff]
  simp only [prepareUse, need]
  omega

/-- The scratch of `execute` grows with the threads, that of the benchmark and of the cycle tests does not.  Per thread,
`execute` has 2^24 bytes for every number of threads; the benchmark has 2^28 divided by the number of threads, which is
less as soon as there are more than 16.  By default there are 32: a size between 2^23 and 2^24 is fine in `execute` and
panics in the benchmark; and with enough threads every size does. -/
theorem C62_fixed (s : PrepSizes) (bits : Nat) (hb : 0 < bits)
    (hs : s.ggsw + s.lwe + max s.getBit (max s.bootstrap s.ggswPrepare) ≤ s.prepare) :
    (∀ t, 0 < t → (prepare (executeScratch t) t bits s = true ↔ s.prepare ≤ 2 ^ 24)) ∧
    (∀ t, 0 < t → (prepare fixedScratch t bits s = true ↔ s.prepare ≤ 2 ^ 28 / t)) ∧
    (prepare fixedScratch 32 bits s = true ↔ s.prepare ≤ 2 ^ 23) ∧
    (0 < s.prepare → ∃ t0, 0 < t0 ∧ ∀ t, t0 ≤ t → prepare fixedScratch t bits s = false) := by
  have key : ∀ avail t, 0 < t → (prepare avail t bits s = true ↔ t * s.prepare ≤ avail) := by
    intro avail t ht
    constructor
    · intro h
      rw [prepare, onThreads_iff] at h
      exact h.1
    · intro h
      exact (C62_prepare avail t bits s ht hb h).mpr hs
  have fix : ∀ t, 0 < t → (prepare fixedScratch t bits s = true ↔ s.prepare ≤ 2 ^ 28 / t) := by
    intro t ht
    rw [key _ _ ht, Nat.le_div_iff_mul_le ht, Nat.mul_comm]
    exact Iff.rfl
  refine ⟨fun t ht => ?_, fix, ?_, fun h0 => ⟨2 ^ 28 + 1, by omega, fun t ht => ?_⟩⟩
  · rw [key _ _ ht, executeScratch, Nat.mul_comm (2 ^ 24) t]
    exact Nat.mul_le_mul_left_iff ht
  · rw [fix 32 (by decide)]
  · rw [← Bool.not_eq_true, key _ _ (by omega)]
    have := Nat.mul_le_mul ht h0
    unfold fixedScratch
    omega

/-- Sizes at which the reserved space is too small: rotation 10, everything else smaller. -/
def smallSizes : Sizes :=
  { retrieve := 4, rotation := 10, retrieval := 4, trace := 2, normalize := 1, rotate := 1,
    glwe := 3, word := 3, getBit := 2, pack := 5 }

/-- The claim "once the assertion holds no thread runs out of scratch" is false: the register file
(32 words, `bit_size` 5, `log_n` 10) with one thread and one million bytes. -/
theorem C62_stateful_false :
    (1 * statefulBytes 5 10 smallSizes ≤ 1000000 - 32 * smallSizes.word) ∧
    readStateful 1000000 1 32 5 10 smallSizes = false ∧
    write 1000000 1 32 5 10 smallSizes = false ∧
    -- the same sizes are fine for a memory of two ciphertexts
    readStateful 1000000 1 32 11 10 smallSizes = true ∧
    write 1000000 1 32 11 10 smallSizes = true := by decide

example : zero 1000000 3 32 smallSizes = true :=
  C62_zero _ _ _ _ (by decide) (by decide) (by decide)
example : readStateless 1000000 3 32 smallSizes = true :=
  C62_stateless _ _ _ _ (by decide) (by decide) (by decide) (by decide)
-- a size of 12 MB per thread: sixteen threads are fine, the default of 32 is not
def largeSizes : PrepSizes := ⟨12000000, 3000000, 1000, 1000000, 8000000, 500000⟩
example : prepare fixedScratch 16 100 largeSizes = true ∧ prepare fixedScratch 32 100 largeSizes = false ∧
    prepare (executeScratch 32) 32 100 largeSizes = true := by decide
-- one byte less than asserted: panic
example : zero (3 * zeroBytes smallSizes - 1) 3 32 smallSizes = false := by decide

end Verif.Props
