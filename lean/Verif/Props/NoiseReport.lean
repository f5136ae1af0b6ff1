import Verif.Model.NoiseReport
import Verif.Model.Noise
import Verif.Spec.Near
import Verif.Lemmas.Drift
/-
  Noise reports of the debug mode.  C79 says exactly what `Memory::noise` measures: against the stored
  words as far as they go, and beyond the last word of a polynomial that is not full against the previous
  polynomial (or, in the first one, against whatever the scratch held).
-/
namespace Verif.Props
open Model Spec

/-! ### The measurement of one ciphertext -/

theorem coeffNoise_le {delta : Nat} (hd : 0 < delta) (c x : Int) (ν : Nat) :
    coeffNoise delta c x ≤ ν ↔ Near delta c x ν := by
  unfold coeffNoise
  have e1 := Int.bmod_add_bdiv (c - x) (4 * delta)
  have lo : -((4 * delta : Nat) : Int) ≤ 2 * Int.bmod (c - x) (4 * delta) := by
    have := Int.le_bmod (x := c - x) (m := 4 * delta) (by omega)
    omega
  have hi : 2 * Int.bmod (c - x) (4 * delta) ≤ ((4 * delta : Nat) : Int) := by
    have := Int.bmod_lt (x := c - x) (m := 4 * delta) (by omega)
    omega
  constructor
  · intro h
    refine ⟨Int.bmod (c - x) (4 * delta), Int.bdiv (c - x) (4 * delta), h, ?_⟩
    have : ((4 * delta : Nat) : Int) = 4 * (delta : Int) := by push_cast; rfl
    rw [this] at e1
    omega
  · rintro ⟨e, z, he, hc⟩
    -- the representative between the halves is the smallest
    generalize hb : Int.bmod (c - x) (4 * delta) = b at *
    generalize Int.bdiv (c - x) (4 * delta) = y at *
    have : ((4 * delta : Nat) : Int) = 4 * (delta : Int) := by push_cast; rfl
    rw [this] at e1 lo hi
    have e2 : b - e = 4 * (delta : Int) * (z - y) := by rw [Int.mul_sub]; omega
    by_cases hz : z - y = 0
    · rw [hz, Int.mul_zero] at e2
      have : b = e := by omega
      rw [this]; exact he
    · have : 4 * (delta : Int) ≤ (b - e).natAbs := by
        rw [e2, Int.natAbs_mul]
        have h1 : 1 ≤ (z - y).natAbs := by omega
        have h2 : (4 * (delta : Int)).natAbs = 4 * delta := by omega
        rw [h2]
        have := Nat.le_mul_of_pos_right (4 * delta) (show 0 < (z - y).natAbs by omega)
        omega
      omega

theorem largest_le (l : List Nat) (ν : Nat) : largest l ≤ ν ↔ ∀ x ∈ l, x ≤ ν := by
  induction l with
  | nil => simp [largest]
  | cons x xs ih => simp [largest, Nat.max_le, ih]

theorem glweNoise_le {n delta : Nat} (hd : 0 < delta) (phase buf : Fin n → Int) (ν : Nat) :
    glweNoise delta phase buf ≤ ν ↔ ∀ k, Near delta (phase k) (delta * buf k) ν := by
  unfold glweNoise
  rw [largest_le]
  constructor
  · intro h k
    exact (coeffNoise_le hd _ _ _).mp (h _ (List.mem_map.mpr ⟨k, List.mem_finRange k, rfl⟩))
  · intro h x hx
    obtain ⟨k, -, rfl⟩ := List.mem_map.mp hx
    exact (coeffNoise_le hd _ _ _).mpr (h k)

/-! ### The loop over the polynomials -/

theorem noiseLoop_le {n delta : Nat} {G : Type} (phase : G → Fin n → Int) (ν : Nat)
    (cs : List (List (BitVec 2))) (cts : List G) (buf : Fin n → Int) (m : Nat) :
    noiseLoop delta phase buf cs cts m ≤ ν ↔
      m ≤ ν ∧ ∀ j, j < cs.length → ∀ ct, cts[j]? = some ct →
        glweNoise delta (phase ct) ((cs.take (j + 1)).foldl fillBuffer buf) ≤ ν := by
  induction cs generalizing cts buf m with
  | nil => simp [noiseLoop]
  | cons c cs ih =>
    cases cts with
    | nil => simp [noiseLoop]
    | cons ct cts =>
      rw [noiseLoop, ih, Nat.max_le]
      constructor
      · rintro ⟨⟨h1, h2⟩, h3⟩
        refine ⟨h1, fun j hj ct' hct => ?_⟩
        cases j with
        | zero =>
          simp only [List.getElem?_cons_zero, Option.some.injEq] at hct
          subst hct
          simpa using h2
        | succ j =>
          simp only [List.getElem?_cons_succ] at hct
          simpa using h3 j (by simpa using hj) ct' hct
      · rintro ⟨h1, h2⟩
        refine ⟨⟨h1, ?_⟩, fun j hj ct' hct => ?_⟩
        · simpa using h2 0 (by simp) ct (by simp)
        · simpa using h2 (j + 1) (by simpa using hj) ct' (by simpa using hct)

theorem lt_divCeil {n len j : Nat} (hn : 0 < n) : j < divCeil len n ↔ j * n < len := by
  unfold divCeil
  rw [Nat.lt_div_iff_mul_lt hn]
  omega

/-- The buffer when polynomial `j` is measured. -/
theorem buffer_at {n : Nat} (hn : 0 < n) (bits : List (BitVec 2)) (stale : Fin n → Int) (j : Nat)
    (hj : j * n < bits.length) (k : Fin n) :
    ((chunksOf n bits).take (j + 1)).foldl fillBuffer stale k =
      match bits[j * n + k.val]? with
      | some x => (x.toNat : Int)
      | none => if j = 0 then stale k else ((bits[(j - 1) * n + k.val]?).elim 0 fun x => (x.toNat : Int)) := by
  have hlen : (chunksOf n bits).length = divCeil bits.length n := by simp [chunksOf]
  have hc : ∀ i, i * n < bits.length → (chunksOf n bits)[i]? = some ((bits.drop (i * n)).take n) := by
    intro i hi
    unfold chunksOf
    rw [List.getElem?_map, List.getElem?_range ((lt_divCeil hn).mpr hi)]
    rfl
  have hchunk : ∀ i, ((bits.drop (i * n)).take n)[k.val]? = bits[i * n + k.val]? := by
    intro i
    rw [List.getElem?_take_of_lt k.isLt, List.getElem?_drop]
  induction j with
  | zero =>
    rw [List.take_add_one, hc 0 hj]
    simp only [List.take_zero, List.nil_append, Option.toList_some, List.foldl_cons, List.foldl_nil]
    unfold fillBuffer
    rw [hchunk]
    cases bits[0 * n + k.val]? <;> simp
  | succ j ih =>
    have hj' : j * n < bits.length := by
      have : j * n ≤ (j + 1) * n := Nat.mul_le_mul_right n (by omega)
      omega
    rw [List.take_add_one, hc (j + 1) hj, List.foldl_append]
    simp only [Option.toList_some, List.foldl_cons, List.foldl_nil]
    show fillBuffer _ _ k = _
    unfold fillBuffer
    rw [hchunk]
    cases hb : bits[(j + 1) * n + k.val]? with
    | some x => rfl
    | none =>
      simp only
      have := ih hj'
      unfold fillBuffer at this
      rw [this]
      have hk : j * n + k.val < bits.length := by
        have : (j + 1) * n = j * n + n := by rw [Nat.add_mul, Nat.one_mul]
        have := k.isLt
        omega
      rw [List.getElem?_eq_getElem hk]
      simp [List.getElem?_eq_getElem hk]

theorem bitBuffer_get (size : Nat) (data : List (BitVec 32)) (i a : Nat) :
    (bitBuffer size data i)[a]? = if a < size then some (BitVec.ofNat 2 (bitAt data i a)) else none := by
  unfold bitBuffer bitAt bitCoeff
  rw [List.getElem?_map]
  by_cases h : a < size
  · rw [List.getElem?_range h, if_pos h, Option.map_some]
    cases data[a]? with
    | none => simp
    | some y =>
      simp only [Option.elim_some, Option.getD_some]
      cases y.getLsbD i <;> rfl
  · rw [List.getElem?_eq_none (by simpa using h), if_neg h]; rfl

theorem bitAt_lt (data : List (BitVec 32)) (i a : Nat) : bitAt data i a < 2 := by
  unfold bitAt
  cases ((data[a]?).getD 0#32).getLsbD i <;> decide

variable {B : Backend}

/-- **C79**, exactly: the value reported for bit `i` is the largest distance of any coefficient from what it
is compared with. -/
theorem C79_exact {delta : Nat} (hd : 0 < delta) (phase : B.Glwe → Fin (2 ^ B.logN) → Int)
    (stale : Nat → Nat → Int) (m : Memory B) (data : List Word) (reports : List Nat)
    (h : m.noise delta phase (fun i k => stale i k.val) data = some reports) (i : Nat) (b : BitArray B)
    (hb : m.bits[i]? = some b) (hlen : b.data.length = divCeil m.size (2 ^ B.logN)) :
    ∃ r, reports[i]? = some r ∧ ∀ ν, r ≤ ν ↔ ∀ j ct, b.data[j]? = some ct → ∀ k : Fin (2 ^ B.logN),
      Near delta (phase ct k) (delta * compared (2 ^ B.logN) m.size data i (stale i) j k.val) ν := by
  unfold Memory.noise at h
  split at h
  · cases h
  split at h
  · have h := Option.some.inj h
    subst h
    refine ⟨_, by rw [List.getElem?_mapIdx, hb]; rfl, fun ν => ?_⟩
    have hn : 0 < 2 ^ B.logN := Nat.two_pow_pos _
    have hbl : (bitBuffer m.size data i).length = m.size := by simp [bitBuffer]
    unfold BitArray.noise
    rw [noiseLoop_le]
    have hcl : (chunksOf (2 ^ B.logN) (bitBuffer m.size data i)).length = divCeil m.size (2 ^ B.logN) := by
      simp [chunksOf, hbl]
    have key : ∀ j, j < divCeil m.size (2 ^ B.logN) → ∀ k : Fin (2 ^ B.logN),
        ((chunksOf (2 ^ B.logN) (bitBuffer m.size data i)).take (j + 1)).foldl fillBuffer
            (fun k => stale i k.val) k = compared (2 ^ B.logN) m.size data i (stale i) j k.val := by
      intro j hj k
      have hj := (lt_divCeil hn).mp hj
      rw [buffer_at hn _ _ j (by rw [hbl]; exact hj) k, bitBuffer_get]
      unfold compared
      have two : ∀ a, (BitVec.ofNat 2 (bitAt data i a)).toNat = bitAt data i a := by
        intro a
        rw [BitVec.toNat_ofNat]
        have := bitAt_lt data i a
        omega
      by_cases hk : j * 2 ^ B.logN + k.val < m.size
      · rw [if_pos hk, if_pos hk]
        simp only
        rw [two]
      · rw [if_neg hk, if_neg hk]
        simp only
        by_cases hz : j = 0
        · rw [if_pos hz, if_pos hz]
        · rw [if_neg hz, if_neg hz, bitBuffer_get]
          have : (j - 1) * 2 ^ B.logN + k.val < m.size := by
            have e : (j - 1) * 2 ^ B.logN + 2 ^ B.logN = j * 2 ^ B.logN := by
              rw [← Nat.succ_mul]
              congr 1
              omega
            have := k.isLt
            omega
          rw [if_pos this, Option.elim_some, two]
    constructor
    · rintro ⟨-, hx⟩ j ct hct k
      have hj : j < divCeil m.size (2 ^ B.logN) := by
        rw [← hlen]
        exact (List.getElem?_eq_some_iff.mp hct).1
      have := (glweNoise_le hd _ _ _).mp (hx j (by rw [hcl]; exact hj) ct hct) k
      rwa [key j hj k] at this
    · intro hx
      refine ⟨Nat.zero_le _, fun j hj ct hct => (glweNoise_le hd _ _ _).mpr fun k => ?_⟩
      rw [hcl] at hj
      rw [key j hj k]
      exact hx j ct hct k
  · cases h

/-- A report never flatters: every stored bit is within the reported distance of its word, whatever the
scratch held. -/
theorem C79_sound {delta : Nat} (hd : 0 < delta) (phase : B.Glwe → Fin (2 ^ B.logN) → Int)
    (stale : Nat → Nat → Int) (m : Memory B) (data : List Word) (reports : List Nat)
    (h : m.noise delta phase (fun i k => stale i k.val) data = some reports) (i : Nat) (b : BitArray B)
    (hb : m.bits[i]? = some b) (hlen : b.data.length = divCeil m.size (2 ^ B.logN)) :
    ∃ r, reports[i]? = some r ∧ ∀ j ct, b.data[j]? = some ct → ∀ k : Fin (2 ^ B.logN),
      j * 2 ^ B.logN + k.val < m.size →
        Near delta (phase ct k) (delta * bitAt data i (j * 2 ^ B.logN + k.val)) r := by
  obtain ⟨r, e, hr⟩ := C79_exact hd phase stale m data reports h i b hb hlen
  refine ⟨r, e, fun j ct hct k hk => ?_⟩
  have := (hr r).mp (Nat.le_refl r) j ct hct k
  unfold compared at this
  rwa [if_pos hk] at this

/-- If the memory fills its polynomials, the report is the largest distance of any stored bit from its
word, whatever the scratch held. -/
theorem C79_full_partial {delta : Nat} (hd : 0 < delta) (phase : B.Glwe → Fin (2 ^ B.logN) → Int)
    (stale : Nat → Nat → Int) (m : Memory B) (data : List Word) (reports : List Nat)
    (h : m.noise delta phase (fun i k => stale i k.val) data = some reports) (i : Nat) (b : BitArray B)
    (hb : m.bits[i]? = some b) (hlen : b.data.length = divCeil m.size (2 ^ B.logN))
    (hfull : 2 ^ B.logN ∣ m.size) :
    ∃ r, reports[i]? = some r ∧ ∀ ν, r ≤ ν ↔ ∀ j ct, b.data[j]? = some ct → ∀ k : Fin (2 ^ B.logN),
      Near delta (phase ct k) (delta * bitAt data i (j * 2 ^ B.logN + k.val)) ν := by
  obtain ⟨r, e, hr⟩ := C79_exact hd phase stale m data reports h i b hb hlen
  refine ⟨r, e, fun ν => ?_⟩
  rw [hr]
  have hn : 0 < 2 ^ B.logN := Nat.two_pow_pos _
  have : ∀ j ct, b.data[j]? = some ct → ∀ k : Fin (2 ^ B.logN), j * 2 ^ B.logN + k.val < m.size := by
    intro j ct hct k
    have hj : j < divCeil m.size (2 ^ B.logN) := by
      rw [← hlen]; exact (List.getElem?_eq_some_iff.mp hct).1
    have hj := (lt_divCeil hn).mp hj
    obtain ⟨q, hq⟩ := hfull
    rw [hq, Nat.mul_comm] at hj ⊢
    have hjq : j < q := Nat.lt_of_mul_lt_mul_left hj
    have : 2 ^ B.logN * (j + 1) ≤ 2 ^ B.logN * q := Nat.mul_le_mul_left _ hjq
    rw [Nat.mul_add, Nat.mul_one] at this
    have := k.isLt
    omega
  constructor
  · intro hx j ct hct k
    have := hx j ct hct k
    unfold compared at this
    rwa [if_pos (by apply_assumption; exact hct)] at this
  · intro hx j ct hct k
    unfold compared
    rw [if_pos (by apply_assumption; exact hct)]
    exact hx j ct hct k

theorem near_apart {delta ν μ : Nat} {c : Int} (h0 : Near delta c 0 μ) (h1 : Near delta c delta ν) :
    delta ≤ ν + μ := by
  obtain ⟨e, z, he, hc⟩ := h0
  obtain ⟨f, y, hf, hc'⟩ := h1
  have h : e - f = delta * (1 + 4 * (y - z)) := by
    have : (delta : Int) * (1 + 4 * (y - z)) = delta + 4 * delta * y - 4 * delta * z := by
      rw [Int.mul_add, Int.mul_one, Int.mul_left_comm, Int.mul_sub, Int.mul_assoc, Int.mul_assoc, Int.mul_sub]
      omega
    omega
  have h1 : 1 ≤ (1 + 4 * (y - z)).natAbs := by omega
  have h2 : (e - f).natAbs = delta * (1 + 4 * (y - z)).natAbs := by
    rw [h, Int.natAbs_mul]; rfl
  have h3 : delta * 1 ≤ delta * (1 + 4 * (y - z)).natAbs := Nat.mul_le_mul_left _ h1
  omega

/-- The last polynomial is not full: the report is at least the distance between two messages, however good
the ciphertexts are, as soon as one of the words of the previous polynomial that lie above the gap has the
bit set. -/
theorem C79_gap {delta : Nat} (hd : 0 < delta) (phase : B.Glwe → Fin (2 ^ B.logN) → Int)
    (stale : Nat → Nat → Int) (m : Memory B) (data : List Word) (reports : List Nat)
    (h : m.noise delta phase (fun i k => stale i k.val) data = some reports) (i : Nat) (b : BitArray B)
    (hb : m.bits[i]? = some b) (hlen : b.data.length = divCeil m.size (2 ^ B.logN))
    (j : Nat) (ct : B.Glwe) (hct : b.data[j + 1]? = some ct) (k : Fin (2 ^ B.logN)) (μ : Nat)
    (hgap : m.size ≤ (j + 1) * 2 ^ B.logN + k.val) (hzero : Near delta (phase ct k) 0 μ)
    (hset : bitAt data i (j * 2 ^ B.logN + k.val) = 1) :
    ∃ r, reports[i]? = some r ∧ delta ≤ r + μ := by
  obtain ⟨r, e, hr⟩ := C79_exact hd phase stale m data reports h i b hb hlen
  refine ⟨r, e, ?_⟩
  have := (hr r).mp (Nat.le_refl r) (j + 1) ct hct k
  unfold compared at this
  rw [if_neg (by omega), if_neg (by omega), Nat.add_sub_cancel, hset] at this
  exact near_apart hzero (by simpa using this)

/-- One polynomial, not full: the report also covers what the scratch held beyond the words; it is right
if these places hold zeros (as they do after `decrypt`, which leaves the decrypted polynomial there). -/
theorem C79_small {delta : Nat} (hd : 0 < delta) (phase : B.Glwe → Fin (2 ^ B.logN) → Int)
    (stale : Nat → Nat → Int) (m : Memory B) (data : List Word) (reports : List Nat)
    (h : m.noise delta phase (fun i k => stale i k.val) data = some reports) (i : Nat) (b : BitArray B)
    (ct : B.Glwe) (hb : m.bits[i]? = some b) (hone : b.data = [ct])
    (hsize : 0 < m.size ∧ m.size ≤ 2 ^ B.logN) :
    ∃ r, reports[i]? = some r ∧ ∀ ν, r ≤ ν ↔ ∀ k : Fin (2 ^ B.logN),
      Near delta (phase ct k)
        (delta * (if k.val < m.size then (bitAt data i k.val : Int) else stale i k.val)) ν := by
  have hlen : b.data.length = divCeil m.size (2 ^ B.logN) := by
    rw [hone]
    have hn : 0 < 2 ^ B.logN := Nat.two_pow_pos _
    have a : 0 < divCeil m.size (2 ^ B.logN) := (lt_divCeil hn).mpr (by omega)
    have c : ¬ 1 < divCeil m.size (2 ^ B.logN) := by
      rw [lt_divCeil hn]; omega
    simp only [List.length_cons, List.length_nil]
    omega
  obtain ⟨r, e, hr⟩ := C79_exact hd phase stale m data reports h i b hb hlen
  refine ⟨r, e, fun ν => ?_⟩
  rw [hr]
  constructor
  · intro hx k
    have := hx 0 ct (by rw [hone]; rfl) k
    unfold compared at this
    simpa using this
  · intro hx j c hc k
    rw [hone] at hc
    cases j with
    | zero =>
      simp only [List.getElem?_cons_zero, Option.some.injEq] at hc
      subst hc
      unfold compared
      simpa using hx k
    | succ j => simp at hc

/-- Noise at most `ν` in the sense of the noisy library (`NoisyOps.G`) is what a report measures. -/
theorem near_of_G (N : NoisyOps) {delta : Nat} (hN : N.delta = delta) {ν : Nat} {a : N.B.Glwe}
    {p : Coeffs (2 ^ N.B.logN)} :
    N.G ν a p ↔ ∀ k, Near delta (N.phase a k) (delta * ((p k).toNat : Int)) ν := by
  unfold NoisyOps.G Near
  rw [hN]

/-- A freshly encrypted memory that fills its polynomials is reported with no more than the noise of a
fresh encryption, under every library. -/
theorem C79_fresh (N : Noisy) {delta : Nat} (hd : 0 < delta) (hN : N.delta = delta)
    (rand : Nat → Nat → N.C.Rand) (stale : Nat → Nat → Int) (width size : Nat) (m0 m : Memory N.B)
    (data : List Word) (h0 : Memory.alloc N.B width size = some m0)
    (h1 : m0.encrypt N.C rand data = some m) (hfull : 2 ^ N.B.logN ∣ size) :
    ∃ reports, m.noise delta N.phase (fun i k => stale i k.val) data = some reports ∧
      reports.length = width ∧ ∀ r ∈ reports, r ≤ N.c.fresh := by
  have hn : 0 < 2 ^ N.B.logN := Nat.two_pow_pos _
  unfold Memory.alloc at h0
  split at h0
  · cases h0
  have h0 := Option.some.inj h0
  subst h0
  unfold Memory.encrypt at h1
  simp only [List.length_replicate] at h1
  split at h1
  · cases h1
  rename_i hw
  by_cases hle : data.length / width ≤ size
  case neg => rw [if_neg hle] at h1; cases h1
  rw [if_pos hle] at h1
  have h1 := Option.some.inj h1
  have hms : m.size = size := by rw [← h1]
  have hml : m.bits.length = width := by rw [← h1]; simp
  have hrep : ∃ reports, m.noise delta N.phase (fun i k => stale i k.val) data = some reports := by
    unfold Memory.noise
    rw [hml, hms, if_neg hw, if_pos hle]
    exact ⟨_, rfl⟩
  obtain ⟨reports, hr⟩ := hrep
  have hrl : reports.length = width := by
    have := hr
    unfold Memory.noise at this
    rw [hml, hms, if_neg hw, if_pos hle] at this
    rw [← Option.some.inj this]
    simp [hml]
  refine ⟨reports, hr, hrl, fun r hrm => ?_⟩
  obtain ⟨i, hi, rfl⟩ := List.getElem_of_mem hrm
  have hbi : i < m.bits.length := by omega
  have hb : m.bits[i]? = some ((BitArray.alloc N.B size).encrypt N.C (rand i) (bitBuffer size data i)) := by
    rw [← h1]
    simp only [List.getElem?_mapIdx]
    rw [List.getElem?_replicate_of_lt (by omega)]
    rfl
  have hbl : (bitBuffer size data i).length = size := by simp [bitBuffer]
  have hlen : ((BitArray.alloc N.B size).encrypt N.C (rand i) (bitBuffer size data i)).data.length =
      divCeil m.size (2 ^ N.B.logN) := by
    rw [hms]
    simp [BitArray.encrypt, BitArray.alloc]
  obtain ⟨r, e, hx⟩ := C79_full_partial hd N.phase stale m data reports hr i _ hb hlen (by rw [hms]; exact hfull)
  rw [List.getElem?_eq_getElem hi] at e
  have e := Option.some.inj e
  rw [e]
  refine (hx N.c.fresh).mpr fun j ct hct k => ?_
  have hj : j < divCeil size (2 ^ N.B.logN) := by
    rw [← hms, ← hlen]; exact (List.getElem?_eq_some_iff.mp hct).1
  unfold BitArray.encrypt BitArray.alloc at hct
  simp only [List.getElem?_mapIdx] at hct
  rw [List.getElem?_replicate_of_lt hj, Option.map_some, hbl, if_pos hj] at hct
  have hct := Option.some.inj hct
  rw [← hct]
  have := (near_of_G N.toNoisyOps hN).mp (N.enc (rand i j) fun k : Fin (2 ^ N.B.logN) =>
    ((bitBuffer size data i)[j * 2 ^ N.B.logN + k.val]?).getD 0#2) k
  have hk : j * 2 ^ N.B.logN + k.val < size := by
    have hj := (lt_divCeil hn).mp hj
    obtain ⟨q, hq⟩ := hfull
    rw [hq, Nat.mul_comm] at hj ⊢
    have hjq : j < q := Nat.lt_of_mul_lt_mul_left hj
    have : 2 ^ N.B.logN * (j + 1) ≤ 2 ^ N.B.logN * q := Nat.mul_le_mul_left _ hjq
    rw [Nat.mul_add, Nat.mul_one] at this
    have := k.isLt
    omega
  rw [bitBuffer_get, if_pos hk, Option.getD_some] at this
  have two : (BitVec.ofNat 2 (bitAt data i (j * 2 ^ N.B.logN + k.val))).toNat =
      bitAt data i (j * 2 ^ N.B.logN + k.val) := by
    rw [BitVec.toNat_ofNat]
    have := bitAt_lt data i (j * 2 ^ N.B.logN + k.val)
    omega
  rwa [two] at this

/-! ### Examples -/

/-- Ring degree 2 and no noise at all: the phase is the message. -/
def exactPhase (delta : Nat) (p : Coeffs 2) (k : Fin 2) : Int := delta * ((p k).toNat : Int)

/-- The report after encrypting the given words in a memory of that many words, without any noise. -/
def exactReport (delta : Nat) (stale : Nat → Nat → Int) (width : Nat) (data : List Word) : Option (List Nat) :=
  (Memory.alloc (plain 1 (sampleLib 2)) width data.length).bind fun m =>
  (m.encrypt (plainCipher 1 (sampleLib 2)) (fun _ _ => ()) data).bind fun m =>
    m.noise delta (exactPhase delta) (fun i k => stale i k.val) data

/-- **The report is not the noise of the memory**: three words in polynomials of degree 2, encrypted without
any noise, are reported with the distance between two messages (`-2.00` after `log2`), because the second
word is odd. -/
theorem C79_false : exactReport 8 (fun _ _ => 0) 2 [0#32, 1#32, 0#32] = some [8, 0] := by decide +kernel

/-- One word, and a scratch that is not clean. -/
theorem C79_stale : exactReport 8 (fun _ _ => 1) 2 [0#32] = some [8, 8] ∧
    exactReport 8 (fun _ _ => 0) 2 [0#32] = some [0, 0] := by decide +kernel

/-- Two full polynomials: no noise, and none reported. -/
example : exactReport 8 (fun _ _ => 3) 2 [0#32, 1#32, 2#32, 3#32] = some [0, 0] := by decide +kernel

/-- The hypotheses of `C79_fresh` hold for a memory of three words under the library that drifts. -/
example : ∃ m0 m, Memory.alloc (drift 5).B 32 3 = some m0 ∧
    m0.encrypt (drift 5).C (fun _ _ => ()) [1#32, 2#32, 3#32] = some m ∧ (drift 5).delta = (12 : Nat) ∧
    2 ^ (drift 5).B.logN ∣ 3 :=
  ⟨_, _, rfl, rfl, rfl, 3, rfl⟩

end Verif.Props
