import Verif.Spec.ReprC
import Verif.Props.Amm
import Verif.Props.Otc
import Verif.Model.GenTests
/-
  Property C105: structures on the tapes.
-/
set_option linter.unusedSimpArgs false
namespace Verif.Props
open Model Spec Model.ReprC

/-! ### Where the fields are -/

theorem next_roundUp (o a : Nat) (ha : 0 < a) : Next a o (roundUp o a) := by
  unfold roundUp
  have h1 := Nat.div_add_mod (o + (a - 1)) a
  have h2 := Nat.mod_lt (o + (a - 1)) ha
  have h3 : (o + (a - 1)) / a * a = a * ((o + (a - 1)) / a) := Nat.mul_comm _ _
  refine ⟨by omega, Nat.dvd_mul_left _ _, ?_⟩
  rintro d hd ⟨k, rfl⟩
  rw [h3]
  refine Nat.mul_le_mul_left _ ?_
  rw [Nat.div_le_iff_le_mul ha]
  rw [Nat.mul_comm]
  omega

/-- A power of two, up to 8. -/
def Pow8 (a : Nat) : Prop := a = 1 ∨ a = 2 ∨ a = 4 ∨ a = 8

theorem pow8_max {a b : Nat} (ha : Pow8 a) (hb : Pow8 b) : Pow8 (max a b) ∧ a ∣ max a b ∧ b ∣ max a b := by
  rcases ha with rfl | rfl | rfl | rfl <;> rcases hb with rfl | rfl | rfl | rfl <;> unfold Pow8 <;> decide

mutual
theorem align_pow {w : Nat} (hw : w = 4 ∨ w = 8) : (t : CTy) → Real t → Pow8 (t.align w)
  | .num _, h => h
  | .bool, _ => Or.inl rfl
  | .enum _, _ => Or.inr (Or.inr (Or.inl rfl))
  | .usize, _ => by rcases hw with rfl | rfl <;> simp [CTy.align, Pow8]
  | .array _ t, h => align_pow hw t h
  | .struct fs, h => alignAll_pow hw fs h
theorem alignAll_pow {w : Nat} (hw : w = 4 ∨ w = 8) : (fs : List CTy) → RealAll fs → Pow8 (alignAll w fs)
  | [], _ => Or.inl rfl
  | t :: ts, h => (pow8_max (align_pow hw t h.1) (alignAll_pow hw ts h.2)).1
end

theorem align_pos {w : Nat} (hw : w = 4 ∨ w = 8) {t : CTy} (h : Real t) : 0 < t.align w := by
  have := align_pow hw t h
  unfold Pow8 at this; omega

theorem real_mem {fs : List CTy} (h : RealAll fs) {t : CTy} (ht : t ∈ fs) : Real t := by
  induction fs with
  | nil => cases ht
  | cons s fs ih =>
    cases ht with
    | head => exact h.1
    | tail _ ht => exact ih h.2 ht

theorem align_dvd {w : Nat} (hw : w = 4 ∨ w = 8) {fs : List CTy} (h : RealAll fs) {t : CTy} (ht : t ∈ fs) : t.align w ∣ alignAll w fs := by
  induction fs with
  | nil => cases ht
  | cons s fs ih =>
    have := pow8_max (align_pow hw s h.1) (alignAll_pow hw fs h.2)
    cases ht with
    | head => exact this.2.1
    | tail _ ht => exact Nat.dvd_trans (ih h.2 ht) this.2.2

/-- The size of a type is a multiple of its alignment. -/
theorem size_dvd {w : Nat} (hw : w = 4 ∨ w = 8) : (t : CTy) → Real t → t.align w ∣ t.size w
  | .num _, _ => Nat.dvd_refl _
  | .bool, _ => Nat.dvd_refl _
  | .enum _, _ => Nat.dvd_refl _
  | .usize, _ => Nat.dvd_refl _
  | .array _ t, h => Nat.dvd_trans (size_dvd hw t h) (Nat.dvd_mul_left _ _)
  | .struct _, _ => Nat.dvd_mul_left _ _

theorem endOf_le {w : Nat} (hw : w = 4 ∨ w = 8) {fs : List CTy} (h : RealAll fs) (o : Nat) : o ≤ endOf w fs o := by
  induction fs generalizing o with
  | nil => exact Nat.le_refl _
  | cons t ts ih =>
    have := ih h.2 (roundUp o (t.align w) + t.size w)
    have := (next_roundUp o _ (align_pos hw h.1)).1
    simp only [endOf]
    omega

theorem offsets_spec {w : Nat} (hw : w = 4 ∨ w = 8) {fs : List CTy} (h : RealAll fs) (o : Nat) :
    (offsets w fs o).length = fs.length ∧
    (∀ t c, fs[0]? = some t → (offsets w fs o)[0]? = some c → Next (t.align w) o c) ∧
    (∀ (i : Nat) (s t : CTy) (b c : Nat), fs[i]? = some s → (offsets w fs o)[i]? = some b → fs[i + 1]? = some t →
      (offsets w fs o)[i + 1]? = some c → Next (t.align w) (b + s.size w) c) ∧
    (∀ (i : Nat) (t : CTy) (c : Nat), i + 1 = fs.length → fs[i]? = some t → (offsets w fs o)[i]? = some c → endOf w fs o = c + t.size w) := by
  induction fs generalizing o with
  | nil => exact ⟨rfl, (by simp), (by simp), (by simp)⟩
  | cons t ts ih =>
    obtain ⟨i1, i2, i3, i4⟩ := ih h.2 (roundUp o (t.align w) + t.size w)
    refine ⟨congrArg (· + 1) i1, ?_, ?_, ?_⟩
    · intro t' c h1 h2
      cases h1; cases h2
      exact next_roundUp _ _ (align_pos hw h.1)
    · intro i s t' b c h1 h2 h3 h4
      cases i with
      | zero =>
        cases h1; cases h2
        exact i2 _ _ h3 h4
      | succ i => exact i3 i s t' b c h1 h2 h3 h4
    · intro i t' c h0 h1 h2
      cases i with
      | zero =>
        cases h1; cases h2
        cases ts with
        | nil => rfl
        | cons => simp at h0
      | succ i => exact i4 i t' c (by simpa using h0) h1 h2

/-- The fields of a structure in the order of declaration: the first at 0, each at the next multiple of its alignment after the one before;
the size is the next multiple of the alignment of the structure; and that is a multiple of the alignments of all fields, so that in a
structure at a multiple of its own alignment, and in arrays of them, every field is aligned. -/
theorem C105_layout (w : Nat) (hw : w = 4 ∨ w = 8) (fs : List CTy) (h : RealAll fs) :
    (offsets w fs 0).length = fs.length ∧
    (∀ c, (offsets w fs 0)[0]? = some c → c = 0) ∧
    (∀ (i : Nat) (s t : CTy) (b c : Nat), fs[i]? = some s → (offsets w fs 0)[i]? = some b → fs[i + 1]? = some t →
      (offsets w fs 0)[i + 1]? = some c → Next (t.align w) (b + s.size w) c) ∧
    (∀ (i : Nat) (t : CTy) (c : Nat), i + 1 = fs.length → fs[i]? = some t → (offsets w fs 0)[i]? = some c →
      Next ((CTy.struct fs).align w) (c + t.size w) ((CTy.struct fs).size w)) ∧
    (∀ t, t ∈ fs → t.align w ∣ (CTy.struct fs).align w) ∧ ∀ t, Real t → t.align w ∣ t.size w := by
  obtain ⟨i1, i2, i3, i4⟩ := offsets_spec hw h 0
  refine ⟨i1, ?_, i3, ?_, fun t ht => align_dvd hw h ht, fun t ht => size_dvd hw t ht⟩
  · intro c hc
    cases fs with
    | nil => cases hc
    | cons t ts =>
      have := (i2 t c rfl hc).2.2 0 (Nat.le_refl _) (Nat.dvd_zero _)
      omega
  · intro i t c h0 h1 h2
    have hp := alignAll_pow hw fs h
    have := next_roundUp (endOf w fs 0) (alignAll w fs) (by unfold Pow8 at hp; omega)
    rw [i4 i t c h0 h1 h2] at this
    show Next (alignAll w fs) _ (roundUp (endOf w fs 0) (alignAll w fs))
    rw [i4 i t c h0 h1 h2]
    exact this

/-! ### Reading what was written -/

theorem numBytes_length (b n : Nat) : (numBytes b n).length = b := by
  induction b generalizing n with
  | zero => rfl
  | succ b ih => exact congrArg (· + 1) (ih _)

theorem bytesNum_numBytes (b n : Nat) : bytesNum (numBytes b n) = n % 256 ^ b := by
  induction b generalizing n with
  | zero => simp [numBytes, bytesNum, Nat.mod_one]
  | succ b ih =>
    show (BitVec.ofNat 8 n).toNat + 256 * bytesNum (numBytes b (n / 256)) = _
    rw [ih, BitVec.toNat_ofNat, Nat.pow_succ 256 b, Nat.mul_comm (256 ^ b), Nat.mod_mul]

theorem gap_length (pad : Nat → BitVec 8) (o n : Nat) : (gap pad o n).length = n := by simp [gap]

theorem flat_length {α : Type} {f : Nat → List α} {s : Nat} (n : Nat) (h : ∀ i, i < n → (f i).length = s) :
    ((List.range n).flatMap f).length = n * s := by
  induction n with
  | zero => simp
  | succ n ih =>
    rw [List.range_succ, List.flatMap_append, List.length_append, ih fun i hi => h i (by omega)]
    simp [h n (by omega), Nat.succ_mul]

mutual
theorem writeTy_length {w : Nat} (hw : w = 4 ∨ w = 8) (pad : Nat → BitVec 8) : (t : CTy) → Real t → ∀ v o, (writeTy w pad t v o).length = t.size w
  | .num b, _ => fun v o => by simp only [writeTy, CTy.size, numBytes_length]
  | .bool, _ => fun v o => by simp only [writeTy, CTy.size, numBytes_length]
  | .enum _, _ => fun v o => by simp only [writeTy, CTy.size, numBytes_length]
  | .usize, _ => fun v o => by simp only [writeTy, CTy.size, numBytes_length]
  | .array n t, h => fun v o => by
    simp only [writeTy, CTy.size]
    exact flat_length n fun i _ => writeTy_length hw pad t h _ _
  | .struct fs, h => fun v o => by
    have h1 := writeAll_length hw pad fs h v.toList o 0
    have h2 := endOf_le hw h 0
    have hp := alignAll_pow hw fs h
    have h3 := (next_roundUp (endOf w fs 0) (alignAll w fs) (by unfold Pow8 at hp; omega)).1
    simp only [writeTy, CTy.size, List.length_append, gap_length]
    omega
theorem writeAll_length {w : Nat} (hw : w = 4 ∨ w = 8) (pad : Nat → BitVec 8) : (fs : List CTy) → RealAll fs → ∀ vs o c,
    (writeAll w pad fs vs o c).length = endOf w fs c - c
  | [], _ => fun vs o c => by simp [writeAll, endOf]
  | t :: ts, h => fun vs o c => by
    have h1 := writeTy_length hw pad t h.1 (vs.headD default) (o + roundUp c (t.align w))
    have h2 := writeAll_length hw pad ts h.2 vs.tail o (roundUp c (t.align w) + t.size w)
    have h3 := (next_roundUp c _ (align_pos hw h.1)).1
    have h4 := endOf_le hw h.2 (roundUp c (t.align w) + t.size w)
    simp only [writeAll, endOf, List.length_append, gap_length]
    omega
end

/-- `l` is in `bytes` from position `o`. -/
def Has (bytes : List (BitVec 8)) (o : Nat) (l : List (BitVec 8)) : Prop := ∃ p q, bytes = p ++ l ++ q ∧ p.length = o

theorem has_left {bytes a b : List (BitVec 8)} {o : Nat} (h : Has bytes o (a ++ b)) : Has bytes o a := by
  obtain ⟨p, q, rfl, hp⟩ := h
  exact ⟨p, b ++ q, by simp, hp⟩

theorem has_right {bytes a b : List (BitVec 8)} {o : Nat} (h : Has bytes o (a ++ b)) : Has bytes (o + a.length) b := by
  obtain ⟨p, q, rfl, hp⟩ := h
  exact ⟨p ++ a, q, by simp, by simp [hp]⟩

theorem has_num {bytes : List (BitVec 8)} {o b n : Nat} (h : Has bytes o (numBytes b n)) : getNum bytes o b = some (n % 256 ^ b) := by
  obtain ⟨p, q, rfl, rfl⟩ := h
  have hl := numBytes_length b n
  unfold getNum
  rw [if_pos (by simp [hl]), List.append_assoc, List.drop_left, List.take_append_of_le_length (by omega), List.take_of_length_le (by omega),
    bytesNum_numBytes]

theorem has_flat {bytes : List (BitVec 8)} {o s : Nat} {f : Nat → List (BitVec 8)} (n : Nat) (hs : ∀ i, (f i).length = s)
    (h : Has bytes o ((List.range n).flatMap f)) (i : Nat) (hi : i < n) : Has bytes (o + i * s) (f i) := by
  induction n with
  | zero => omega
  | succ n ih =>
    rw [List.range_succ, List.flatMap_append] at h
    by_cases hn : i = n
    · subst hn
      have := has_right h
      rw [flat_length i fun j _ => hs j] at this
      simpa using this
    · exact ih (has_left h) (by omega)

theorem allSome_some {f : Nat → Option Val} {vs : List Val} (h : ∀ i, i < vs.length → f i = some (vs.getD i default)) :
    allSome ((List.range vs.length).map f) = some vs := by
  induction vs generalizing f with
  | nil => rfl
  | cons v vs ih =>
    rw [List.length_cons, List.range_succ_eq_map, List.map_cons, List.map_map]
    have h0 := h 0 (by simp)
    have := ih (f := f ∘ Nat.succ) fun i hi => h (i + 1) (by simpa using hi)
    simp only [allSome]
    rw [h0, this]
    rfl

mutual
theorem readTy_write {w : Nat} (hw : w = 4 ∨ w = 8) (pad : Nat → BitVec 8) (bytes : List (BitVec 8)) : (t : CTy) → Real t → ∀ v o, IsVal w t v →
    Has bytes o (writeTy w pad t v o) → readTy w bytes t o = some v
  | .num b, _ => fun v o hv h => by
    cases v with
    | list => exact absurd hv (by simp [IsVal])
    | num n =>
      have hv : n < 256 ^ b := by simpa [IsVal] using hv
      have := has_num (by simpa only [writeTy] using h)
      simp only [readTy, this, Val.toNum, Nat.mod_eq_of_lt hv, Option.map_some]
  | .bool, _ => fun v o hv h => by
    cases v with
    | list => exact absurd hv (by simp [IsVal])
    | num n =>
      have hv : n < 2 := by simpa [IsVal] using hv
      have := has_num (by simpa only [writeTy] using h)
      simp only [readTy, this, Val.toNum, Nat.mod_eq_of_lt (show n < 256 ^ 1 by omega), Option.bind_some, if_pos hv]
  | .enum k, hr => fun v o hv h => by
    cases v with
    | list => exact absurd hv (by simp [IsVal])
    | num n =>
      have hv : n < k := by simpa [IsVal] using hv
      have hr : k ≤ 2 ^ 31 := by simpa [Real] using hr
      have := has_num (by simpa only [writeTy] using h)
      simp only [readTy, this, Val.toNum, Nat.mod_eq_of_lt (show n < 256 ^ 4 by omega), Option.bind_some, if_pos hv]
  | .usize, _ => fun v o hv h => by
    cases v with
    | list => exact absurd hv (by simp [IsVal])
    | num n =>
      have hv : n < 256 ^ w := by simpa [IsVal] using hv
      have := has_num (by simpa only [writeTy] using h)
      simp only [readTy, this, Val.toNum, Nat.mod_eq_of_lt hv, Option.map_some]
  | .array n t, hr => fun v o hv h => by
    cases v with
    | num => exact absurd hv (by simp [IsVal])
    | list vs =>
      obtain ⟨hl, hv⟩ : vs.length = n ∧ ∀ i, i < n → IsVal w t (vs.getD i default) := by simpa only [IsVal] using hv
      subst hl
      simp only [writeTy] at h
      have key : ∀ i, i < vs.length → readTy w bytes t (o + i * t.size w) = some (vs.getD i default) := fun i hi =>
        readTy_write hw pad bytes t hr _ _ (hv i hi)
          (has_flat vs.length (s := t.size w) (fun j => writeTy_length hw pad t hr _ _) h i hi)
      simp only [readTy]
      rw [allSome_some key]
      rfl
  | .struct fs, hr => fun v o hv h => by
    cases v with
    | num => exact absurd hv (by simp [IsVal])
    | list vs =>
      have hv : AreVals w fs vs := by simpa only [IsVal] using hv
      simp only [writeTy] at h
      simp only [readTy]
      rw [readAll_write hw pad bytes fs hr vs o 0 hv (has_left h)]
      rfl
theorem readAll_write {w : Nat} (hw : w = 4 ∨ w = 8) (pad : Nat → BitVec 8) (bytes : List (BitVec 8)) : (fs : List CTy) → RealAll fs → ∀ vs o c,
    AreVals w fs vs → Has bytes (o + c) (writeAll w pad fs vs o c) → readAll w bytes fs o c = some vs
  | [], _ => fun vs o c hv _ => by
    cases vs with
    | nil => rfl
    | cons => exact absurd hv (by simp [AreVals])
  | t :: ts, hr => fun vs o c hv h => by
    cases vs with
    | nil => exact absurd hv (by simp [AreVals])
    | cons v vs =>
      obtain ⟨hv1, hv2⟩ : IsVal w t v ∧ AreVals w ts vs := by simpa only [AreVals] using hv
      simp only [writeAll, List.headD_cons, List.tail_cons, List.append_assoc] at h
      have h3 := (next_roundUp c _ (align_pos hw hr.1)).1
      have h' := has_right h
      rw [gap_length, show o + c + (roundUp c (t.align w) - c) = o + roundUp c (t.align w) by omega] at h'
      have h'' := has_right h'
      rw [writeTy_length hw pad t hr.1] at h''
      simp only [readAll]
      rw [readTy_write hw pad bytes t hr.1 v _ hv1 (has_left h'),
        Option.bind_some, readAll_write hw pad bytes ts hr.2 vs o _ hv2 (by rw [← Nat.add_assoc]; exact h'')]
      rfl
end

/-! ### Host and guest -/

mutual
theorem same_align (w w' : Nat) : (t : CTy) → Portable t → t.align w = t.align w'
  | .num _, _ => rfl
  | .bool, _ => rfl
  | .enum _, _ => rfl
  | .array _ t, h => same_align w w' t h
  | .struct fs, h => same_alignAll w w' fs h
theorem same_alignAll (w w' : Nat) : (fs : List CTy) → PortableAll fs → alignAll w fs = alignAll w' fs
  | [], _ => rfl
  | t :: ts, h => by simp only [alignAll, same_align w w' t h.1, same_alignAll w w' ts h.2]
end

mutual
theorem same_size (w w' : Nat) : (t : CTy) → Portable t → t.size w = t.size w'
  | .num _, _ => rfl
  | .bool, _ => rfl
  | .enum _, _ => rfl
  | .array _ t, h => by simp only [CTy.size]; rw [same_size w w' t h]
  | .struct fs, h => by simp only [CTy.size]; rw [same_alignAll w w' fs h, same_endOf w w' fs h 0]
theorem same_endOf (w w' : Nat) : (fs : List CTy) → PortableAll fs → ∀ o, endOf w fs o = endOf w' fs o
  | [], _ => fun _ => rfl
  | t :: ts, h => fun o => by
    simp only [endOf]
    rw [same_align w w' t h.1, same_size w w' t h.1, same_endOf w w' ts h.2]
end

theorem same_offsets (w w' : Nat) : (fs : List CTy) → PortableAll fs → ∀ o, offsets w fs o = offsets w' fs o
  | [], _ => fun _ => rfl
  | t :: ts, h => fun o => by
    simp only [offsets]
    rw [same_align w w' t h.1, same_size w w' t h.1, same_offsets w w' ts h.2]

mutual
theorem same_read (w w' : Nat) (bytes : List (BitVec 8)) : (t : CTy) → Portable t → ∀ o, readTy w bytes t o = readTy w' bytes t o
  | .num _, _ => fun o => rfl
  | .bool, _ => fun o => rfl
  | .enum _, _ => fun o => rfl
  | .array _ t, h => fun o => by
    simp only [readTy]
    rw [same_size w w' t h, funext fun i => same_read w w' bytes t h (o + i * t.size w')]
  | .struct fs, h => fun o => by simp only [readTy]; rw [same_readAll w w' bytes fs h]
theorem same_readAll (w w' : Nat) (bytes : List (BitVec 8)) : (fs : List CTy) → PortableAll fs → ∀ o c,
    readAll w bytes fs o c = readAll w' bytes fs o c
  | [], _ => fun _ _ => rfl
  | t :: ts, h => fun o c => by
    simp only [readAll]
    rw [same_align w w' t h.1, same_size w w' t h.1, same_read w w' bytes t h.1, same_readAll w w' bytes ts h.2]
end

/-- A type without `usize` has the same alignment and size on host and guest, and a structure has its fields at the same places. -/
theorem C105_same (t : CTy) (h : Portable t) :
    t.align 8 = t.align 4 ∧ t.size 8 = t.size 4 ∧ ∀ fs, t = .struct fs → offsets 8 fs 0 = offsets 4 fs 0 := by
  refine ⟨same_align _ _ t h, same_size _ _ t h, ?_⟩
  rintro fs rfl
  exact same_offsets _ _ fs h 0

/-- Every type without `usize`, every value of it, whatever is in the padding: what one of host and guest wrote is as long as its type, and
the other reads the value from it. -/
theorem C105_roundtrip (w w' : Nat) (hw : w = 4 ∨ w = 8) (t : CTy) (hr : Real t) (hp : Portable t) (v : Val)
    (hv : IsVal w t v) (pad : Nat → BitVec 8) (rest : List (BitVec 8)) :
    (writeTy w pad t v 0).length = t.size w' ∧ readTy w' (writeTy w pad t v 0 ++ rest) t 0 = some v := by
  refine ⟨(writeTy_length hw pad t hr v 0).trans (same_size _ _ t hp), ?_⟩
  rw [same_read w' w _ t hp]
  exact readTy_write hw pad _ t hr v 0 hv ⟨[], rest, rfl, rfl⟩

/-! ### The guests of the repository -/

/-- Host and guest declare the same structures, without `usize`; their sizes, which are the lengths of the tapes. -/
theorem C105_guests :
    (swapHostIn = swapGuestIn ∧ swapHostOut = swapGuestOut ∧ matchHostIn = matchGuestIn ∧ matchHostOut = matchGuestOut ∧
      polyHostIn = polyGuestIn ∧ polyHostOut = polyGuestOut ∧ test1HostIn = test1GuestIn ∧ test1HostOut = test1GuestOut ∧
      otcHostIn = otcGuestIn ∧ otcHostOut = otcGuestOut) ∧
    (∀ t ∈ [swapHostIn, swapHostOut, matchHostIn, matchHostOut, polyHostIn, polyHostOut, test1HostIn, test1HostOut, otcHostIn, otcHostOut],
      Real t ∧ Portable t) ∧
    [swapHostIn, swapHostOut, matchHostIn, matchHostOut, polyHostIn, polyHostOut, test1HostIn, test1HostOut, otcHostIn, otcHostOut].map
      (fun t => (t.size 8, t.size 4)) =
      [(24, 24), (16, 16), (20, 20), (1, 1), (4, 4), (4, 4), (8, 8), (4, 4), (20, 20), (8, 8)] := by
  refine ⟨⟨rfl, rfl, rfl, rfl, rfl, rfl, rfl, rfl, rfl, rfl⟩, ?_, by decide⟩
  intro t ht
  simp only [List.mem_cons, List.not_mem_nil, or_false] at ht
  rcases ht with rfl | rfl | rfl | rfl | rfl | rfl | rfl | rfl | rfl | rfl <;>
    simp [swapHostIn, swapHostOut, matchHostIn, matchHostOut, polyHostIn, polyHostOut, test1HostIn, test1HostOut, otcHostIn, otcHostOut,
      Real, RealAll, Portable, PortableAll]

theorem putWord_bytes (x : BitVec 32) : Guest.putWord x = numBytes 4 x.toNat := by
  have := x.isLt
  simp only [Guest.putWord, numBytes, List.cons.injEq, and_true]
  refine ⟨?_, ?_, ?_, ?_⟩ <;> apply BitVec.eq_of_toNat_eq <;>
    rw [BitVec.extractLsb'_toNat, BitVec.toNat_ofNat, Nat.shiftRight_eq_div_pow] <;> omega

theorem putBool_bytes (b : Bool) : [Guest.putBool b] = numBytes 1 b.toNat := by cases b <;> rfl

theorem getNum_word {tape : List (BitVec 8)} {o : Nat} (h : o + 4 ≤ tape.length) :
    getNum tape o 4 = some (Guest.getWord tape o).toNat := by
  have e : (tape.drop o).take 4 = [tape.getD o 0, tape.getD (o + 1) 0, tape.getD (o + 2) 0, tape.getD (o + 3) 0] := by
    apply List.ext_getElem
    · simp; omega
    · intro i h1 h2
      have : i < 4 := by simpa using h2
      rw [List.getElem_take, List.getElem_drop]
      obtain rfl | rfl | rfl | rfl : i = 0 ∨ i = 1 ∨ i = 2 ∨ i = 3 := by omega
      all_goals simp [List.getD_eq_getElem?_getD, show o < tape.length by omega, show o + 1 < tape.length by omega,
        show o + 2 < tape.length by omega, show o + 3 < tape.length by omega]
  unfold getNum
  rw [if_pos h, e]
  have e2 : Guest.getWord tape o = Guest.getWord [tape.getD o 0, tape.getD (o + 1) 0, tape.getD (o + 2) 0, tape.getD (o + 3) 0] 0 := rfl
  rw [e2, word_of]
  have h0 := (tape.getD o 0).isLt
  have h1 := (tape.getD (o + 1) 0).isLt
  have h2 := (tape.getD (o + 2) 0).isLt
  have h3 := (tape.getD (o + 3) 0).isLt
  simp only [bytesNum, BitVec.toNat_ofNat]
  congr 1
  omega

theorem getNum_bool {tape : List (BitVec 8)} {o : Nat} (h : o + 1 ≤ tape.length) : getNum tape o 1 = some (tape.getD o 0).toNat := by
  unfold getNum
  rw [if_pos h, List.take_one_drop_eq_of_lt_length (by omega)]
  simp [bytesNum, List.getD_eq_getElem?_getD, List.getElem?_eq_getElem (show o < tape.length by omega)]

theorem getBool_nat {tape : List (BitVec 8)} {o : Nat} (h : (tape.getD o 0).toNat < 2) :
    (tape.getD o 0).toNat = (Guest.getBool tape o).toNat := by
  unfold Guest.getBool
  generalize tape.getD o 0 = b at *
  have : b = 0#8 ∨ b = 1#8 := by
    obtain h | h : b.toNat = 0 ∨ b.toNat = 1 := by omega
    · exact Or.inl (BitVec.eq_of_toNat_eq h)
    · exact Or.inr (BitVec.eq_of_toNat_eq h)
  rcases this with rfl | rfl <;> rfl

/-- A word as a value. -/
abbrev wordVal (x : BitVec 32) : Val := .num x.toNat

/-- The tapes the hosts give in the model (C46, C54, C59) are the bytes of their structures, on either target, with three bytes of padding
after a `bool`. -/
theorem C105_written (w : Nat) (pad : Nat → BitVec 8) :
    (∀ pool trade account, Guest.swapInput pool trade account [pad 13, pad 14, pad 15] = writeTy w pad swapHostIn
      (.list [.list [wordVal pool.t0, wordVal pool.t1], .list [wordVal trade.amount, .num trade.direction.toNat],
        .list [wordVal account.t0Balance, wordVal account.t1Balance]]) 0) ∧
    (∀ a b, Gen.inputBytes [pad 5, pad 6, pad 7] a b = writeTy w pad test1HostIn (.list [wordVal a, .num b.toNat]) 0) ∧
    (∀ a b c d e, Otc.Host.input a b c d e = writeTy w pad otcHostIn
      (.list [.list [wordVal a, wordVal b, wordVal c], .list [wordVal e.code], .list [wordVal d]]) 0) ∧
    (∀ x, Guest.putWord x = writeTy w pad polyHostIn (.list [wordVal x]) 0) ∧
    ∀ cs : List (BitVec 8), cs.length = 20 → cs = writeTy w pad matchHostIn (.list [.list [.list (cs.map fun c => .num c.toNat)]]) 0 := by
  refine ⟨?_, ?_, ?_, ?_, ?_⟩
  · intro pool trade account
    unfold Guest.swapInput
    rw [putWord_bytes, putWord_bytes, putWord_bytes, putWord_bytes, putWord_bytes, putBool_bytes]
    simp [writeTy, writeAll, swapHostIn, Val.toList, Val.toNum, endOf, alignAll, CTy.align, CTy.size, roundUp, gap, List.range, List.range.loop]
  · intro a b
    unfold Gen.inputBytes
    rw [putWord_bytes, ← List.singleton_append, putBool_bytes]
    simp [writeTy, writeAll, test1HostIn, Val.toList, Val.toNum, endOf, alignAll, CTy.align, CTy.size, roundUp, gap, List.range, List.range.loop]
  · intro a b c d e
    unfold Otc.Host.input
    rw [putWord_bytes, putWord_bytes, putWord_bytes, putWord_bytes, putWord_bytes]
    simp [writeTy, writeAll, otcHostIn, Val.toList, Val.toNum, endOf, alignAll, CTy.align, CTy.size, roundUp, gap, List.range, List.range.loop]
  · intro x
    rw [putWord_bytes]
    simp [writeTy, writeAll, polyHostIn, Val.toList, Val.toNum, endOf, alignAll, CTy.align, CTy.size, roundUp, gap, List.range, List.range.loop]
  · intro cs h
    match cs, h with
    | [c0, c1, c2, c3, c4, c5, c6, c7, c8, c9, c10, c11, c12, c13, c14, c15, c16, c17, c18, c19], _ =>
      simp [writeTy, writeAll, matchHostIn, Val.toList, Val.toNum, numBytes, endOf, alignAll, CTy.align, CTy.size, roundUp, gap, List.range,
        List.range.loop]

/-- What the guests read of a tape that is long enough is what the model takes from it (C46, C54, C59): the words at those places, and
a `bool` and an enum if the bytes are one, else undefined behaviour. -/
theorem C105_read (w : Nat) (tape : List (BitVec 8)) :
    (tape.length = 24 → readTy w tape swapGuestIn 0 = if (tape.getD 12 0).toNat < 2 then
      some (.list [.list [wordVal (Guest.getWord tape 0), wordVal (Guest.getWord tape 4)],
        .list [wordVal (Guest.getWord tape 8), .num (Guest.getBool tape 12).toNat],
        .list [wordVal (Guest.getWord tape 16), wordVal (Guest.getWord tape 20)]]) else none) ∧
    (tape.length = 8 → readTy w tape test1GuestIn 0 = if (tape.getD 4 0).toNat < 2 then
      some (.list [wordVal (Guest.getWord tape 0), .num (Guest.getBool tape 4).toNat]) else none) ∧
    (tape.length = 4 → readTy w tape polyGuestIn 0 = some (.list [wordVal (Guest.getWord tape 0)])) ∧
    (tape.length = 20 → readTy w tape otcGuestIn 0 = (Otc.ClientType.ofCode (Guest.getWord tape 12)).map fun c =>
      .list [.list [wordVal (Guest.getWord tape 0), wordVal (Guest.getWord tape 4), wordVal (Guest.getWord tape 8)],
        .list [wordVal c.code], .list [wordVal (Guest.getWord tape 16)]]) := by
  refine ⟨?_, ?_, ?_, ?_⟩
  · intro h
    simp only [swapGuestIn, readTy, readAll, roundUp, CTy.align, alignAll, CTy.size, endOf, Nat.reduceAdd, Nat.reduceSub, Nat.reduceDiv,
      Nat.reduceMul, show max 4 1 = 4 from rfl, show max 1 1 = 1 from rfl, show max 4 4 = 4 from rfl, Nat.zero_add]
    rw [getNum_word (by omega), getNum_word (by omega), getNum_word (by omega), getNum_word (by omega), getNum_word (by omega),
      getNum_bool (by omega)]
    by_cases hb : (tape.getD 12 0).toNat < 2
    · simp only [if_pos hb, Option.bind_some, Option.map_some]
      rw [getBool_nat hb]
    · simp only [hb, if_false, Option.bind_some, Option.bind_none, Option.map_some, Option.map_none]
  · intro h
    simp only [test1GuestIn, readTy, readAll, roundUp, CTy.align, alignAll, CTy.size, endOf, Nat.reduceAdd, Nat.reduceSub, Nat.reduceDiv,
      Nat.reduceMul, show max 4 1 = 4 from rfl, show max 1 1 = 1 from rfl, show max 4 4 = 4 from rfl, Nat.zero_add]
    rw [getNum_word (by omega), getNum_bool (by omega)]
    by_cases hb : (tape.getD 4 0).toNat < 2
    · simp only [if_pos hb, Option.bind_some, Option.map_some]
      rw [getBool_nat hb]
    · simp only [hb, if_false, Option.bind_some, Option.bind_none, Option.map_some, Option.map_none]
  · intro h
    simp only [polyGuestIn, readTy, readAll, roundUp, CTy.align, alignAll, CTy.size, endOf, Nat.reduceAdd, Nat.reduceSub, Nat.reduceDiv,
      Nat.reduceMul, show max 4 1 = 4 from rfl, show max 1 1 = 1 from rfl, show max 4 4 = 4 from rfl, Nat.zero_add]
    rw [getNum_word (by omega)]
    rfl
  · intro h
    simp only [otcGuestIn, readTy, readAll, roundUp, CTy.align, alignAll, CTy.size, endOf, Nat.reduceAdd, Nat.reduceSub, Nat.reduceDiv,
      Nat.reduceMul, show max 4 1 = 4 from rfl, show max 1 1 = 1 from rfl, show max 4 4 = 4 from rfl, Nat.zero_add]
    rw [getNum_word (by omega), getNum_word (by omega), getNum_word (by omega), getNum_word (by omega), getNum_word (by omega)]
    generalize Guest.getWord tape 12 = x
    by_cases hx : x.toNat < 3
    · obtain h | h | h : x.toNat = 0 ∨ x.toNat = 1 ∨ x.toNat = 2 := by omega
      · obtain rfl : x = 0#32 := BitVec.eq_of_toNat_eq h
        rfl
      · obtain rfl : x = 1#32 := BitVec.eq_of_toNat_eq h
        rfl
      · obtain rfl : x = 2#32 := BitVec.eq_of_toNat_eq h
        rfl
    · have h0 : x ≠ 0#32 := by rintro rfl; simp at hx
      have h1 : x ≠ 1#32 := by rintro rfl; simp at hx
      have h2 : x ≠ 2#32 := by rintro rfl; simp at hx
      simp [hx, Otc.ClientType.ofCode, h0, h1, h2]

/-! ### With `usize` -/

theorem readWord1 (w : Nat) (a : BitVec 32) : readTy w (Guest.putWord a) (.struct [.num 4]) 0 = some (.list [wordVal a]) := by
  simp only [readTy, readAll, roundUp, CTy.align, Nat.reduceSub, Nat.reduceDiv, Nat.reduceMul, Nat.zero_add]
  rw [getNum_word (by show 4 ≤ 4; decide), getWord_at (o := 0) (w := a) [] [] (by simp) rfl]
  rfl

/-- From a structure of the host to a structure of the host: what `from_u8_slice` reads of the output of the guest's source for the bytes
`to_u8_slice` gives is the value the source computes, whatever is in the padding. -/
theorem C105_output (chk : Bool) (w : Nat) (pad : Nat → BitVec 8) :
    (∀ pool trade account, (Guest.swapMain chk (writeTy w pad swapHostIn
        (.list [.list [wordVal pool.t0, wordVal pool.t1], .list [wordVal trade.amount, .num trade.direction.toNat],
          .list [wordVal account.t0Balance, wordVal account.t1Balance]]) 0)).bind (fun out => readTy w out swapHostOut 0) =
      (Guest.swap chk pool trade account).map fun o =>
        .list [.list [wordVal o.1.t0, wordVal o.1.t1], .list [wordVal o.2.t0Balance, wordVal o.2.t1Balance]]) ∧
    (∀ (a : BitVec 32) (b : Bool), (Guest.test1Main false (writeTy w pad test1HostIn (.list [wordVal a, .num b.toNat]) 0)).bind (fun out => readTy w out test1HostOut 0) =
      some (.list [.num ((if b then 4 * a.toNat + 100 else 100 * a.toNat) % 2 ^ 32)])) ∧
    (∀ x : BitVec 32, (Guest.polyMain false (writeTy w pad polyHostIn (.list [wordVal x]) 0)).bind (fun out => readTy w out polyHostOut 0) =
      some (.list [.num ((123 + 456 * x.toNat + 789 * x.toNat ^ 2 + 12 * x.toNat ^ 3 + 3456 * x.toNat ^ 4 + 7 * x.toNat ^ 5 +
        89 * x.toNat ^ 6) % 2 ^ 32)])) ∧
    (∀ cs : List (BitVec 8), cs.length = 20 →
      (Guest.matchMain (writeTy w pad matchHostIn (.list [.list [.list (cs.map fun c => .num c.toNat)]]) 0)).bind
        (fun out => readTy w out matchHostOut 0) =
      some (.list [.num (if cs = "mississippi".toUTF8.toList.map (fun b => b.toBitVec) ++ List.replicate 9 0 then 1 else 0)])) ∧
    (∀ mid window vol amount (c : Otc.ClientType) out,
      Otc.Guest.Main (writeTy w pad otcHostIn (.list [.list [wordVal mid, wordVal window, wordVal vol], .list [wordVal c.code], .list [wordVal amount]]) 0) out →
      ∃ a b, readTy w out otcHostOut 0 = some (.list [.list [wordVal a, wordVal b]]) ∧
        Otc.Host.quote c (.ofBits amount) ⟨.ofBits mid, .ofBits window, .ofBits vol⟩ = ⟨.ofBits a, .ofBits b⟩) := by
  obtain ⟨h1, h2, h3, h4, h5⟩ := C105_written w pad
  refine ⟨?_, ?_, ?_, ?_, ?_⟩
  · intro pool trade account
    rw [← h1, C46_tape chk pool trade account _ rfl]
    cases Guest.swap chk pool trade account with
    | none => rfl
    | some o =>
      simp only [Option.map_some, Option.bind_some]
      simp only [swapHostOut, readTy, readAll, roundUp, CTy.align, alignAll, CTy.size, endOf, Nat.reduceAdd, Nat.reduceSub, Nat.reduceDiv,
        Nat.reduceMul, show max 4 1 = 4 from rfl, show max 4 4 = 4 from rfl, Nat.zero_add]
      rw [getNum_word (by show 4 ≤ 16; decide), getNum_word (by show 8 ≤ 16; decide), getNum_word (by show 12 ≤ 16; decide),
        getNum_word (by show 16 ≤ 16; decide)]
      rw [getWord_at (o := 0) (w := o.1.t0) [] (Guest.putWord o.1.t1 ++ Guest.putWord o.2.t0Balance ++ Guest.putWord o.2.t1Balance) (by simp) rfl,
        getWord_at (o := 4) (w := o.1.t1) (Guest.putWord o.1.t0) (Guest.putWord o.2.t0Balance ++ Guest.putWord o.2.t1Balance) (by simp) rfl,
        getWord_at (o := 8) (w := o.2.t0Balance) (Guest.putWord o.1.t0 ++ Guest.putWord o.1.t1) (Guest.putWord o.2.t1Balance) (by simp) rfl,
        getWord_at (o := 12) (w := o.2.t1Balance) (Guest.putWord o.1.t0 ++ Guest.putWord o.1.t1 ++ Guest.putWord o.2.t0Balance) [] (by simp) rfl]
      rfl
  · intro a b
    rw [← h2]
    unfold Gen.inputBytes
    rw [C54_test1 a b [pad 5, pad 6, pad 7], Option.bind_some]
    rw [show test1HostOut = .struct [.num 4] from rfl, readWord1, wordVal, BitVec.toNat_ofNat]
  · intro x
    rw [← h4, C54_template, Option.bind_some, show polyHostOut = .struct [.num 4] from rfl, readWord1, wordVal, BitVec.toNat_ofNat]
  · intro cs hc
    rw [← h5 cs hc]
    rw [C47_match cs hc, Option.bind_some]
    split <;> simp [readTy, readAll, matchHostOut, roundUp, CTy.align, getNum, bytesNum]
  · intro mid window vol amount c out h
    rw [← h3] at h
    obtain ⟨a, b, rfl, hq⟩ := (C59_tape mid window vol amount c out).mp h
    refine ⟨a, b, ?_, hq⟩
    simp only [otcHostOut, readTy, readAll, roundUp, CTy.align, alignAll, CTy.size, Nat.reduceAdd, Nat.reduceSub, Nat.reduceDiv,
      Nat.reduceMul, show max 4 1 = 4 from rfl, show max 4 4 = 4 from rfl, Nat.zero_add]
    rw [getNum_word (by show 4 ≤ 8; decide), getNum_word (by show 8 ≤ 8; decide)]
    rw [getWord_at (o := 0) (w := a) [] (Guest.putWord b) (by simp) rfl, getWord_at (o := 4) (w := b) (Guest.putWord a) [] (by simp) rfl]
    rfl

-- a trade of the uniswap guest: 100 are sold for 91, and the trader has 5 and cannot pay
example : (Guest.swapMain true (writeTy 8 (fun _ => 7#8) swapHostIn
      (.list [.list [.num 1000, .num 1000], .list [.num 100, .num 1], .list [.num 500, .num 0]]) 0)).bind (fun out => readTy 8 out swapHostOut 0) =
    some (.list [.list [.num 1100, .num 909], .list [.num 400, .num 91]]) :=
  (C105_output true 8 (fun _ => 7#8)).1 ⟨1000, 1000⟩ ⟨100, true⟩ ⟨500, 0⟩
example : (Guest.swapMain true (writeTy 8 (fun _ => 7#8) swapHostIn
      (.list [.list [.num 1000, .num 1000], .list [.num 100, .num 1], .list [.num 5, .num 0]]) 0)).bind (fun out => readTy 8 out swapHostOut 0) =
    none :=
  (C105_output true 8 (fun _ => 7#8)).1 ⟨1000, 1000⟩ ⟨100, true⟩ ⟨5, 0⟩

/-- With a `usize` the structures of host and guest may differ.  A structure of one `usize` is 8 bytes for the host and 4 for the guest: both
VMs refuse the host's tape.  One of a `u64` and a `usize` is 16 bytes for both, so that the tape is taken; the guest reads the low word of
the number, whatever the high word. -/
theorem C105_usize (pad : Nat → BitVec 8) (v : Val) (m n : Nat) (hm : m < 2 ^ 64) :
    (∀ p : Phantom, p.input.size = (CTy.struct [.usize]).size 4 →
      (∀ {B : Backend} (C : Cipher B) (rand : Nat → Nat → Nat → C.Rand) dbg phantomDebug threads k,
        p.encryptedVm C rand dbg phantomDebug threads (writeTy 8 pad (.struct [.usize]) v 0) k = none) ∧
      ∀ chk k vm, p.testVm chk k = some vm → vm.readInputTape chk (writeTy 8 pad (.struct [.usize]) v 0) = none) ∧
    (writeTy 8 pad (.struct [u64, .usize]) (.list [.num m, .num n]) 0).length = (CTy.struct [u64, .usize]).size 4 ∧
    readTy 4 (writeTy 8 pad (.struct [u64, .usize]) (.list [.num m, .num n]) 0) (.struct [u64, .usize]) 0 =
      some (.list [.num m, .num (n % 2 ^ 32)]) := by
  have l8 : (writeTy 8 pad (.struct [.usize]) v 0).length = 8 :=
    writeTy_length (Or.inr rfl) pad (.struct [.usize]) (by simp [Real, RealAll]) v 0
  have l4 : (CTy.struct [.usize]).size 4 = 4 := by decide
  refine ⟨?_, ?_, ?_⟩
  · intro p hp
    constructor
    · intro B C rand dbg phantomDebug threads k
      cases h : p.encryptedVm C rand dbg phantomDebug threads (writeTy 8 pad (.struct [.usize]) v 0) k with
      | none => rfl
      | some ev =>
        have := (encryptedVm_inv h).2.1
        omega
    · intro chk k vm hvm
      have : vm.input = p.input := by
        unfold Phantom.testVm TestVM.init at hvm
        simp only [Option.bind_eq_some_iff] at hvm
        obtain ⟨_, _, h⟩ := hvm
        obtain ⟨_, _, h⟩ := Option.map_eq_some_iff.mp h
        cases h; rfl
      unfold TestVM.readInputTape
      rw [if_neg (by rw [this]; omega)]
  · rw [writeTy_length (Or.inr rfl) pad _ (by simp [Real, RealAll])]
    decide
  · have e : writeTy 8 pad (.struct [u64, .usize]) (.list [.num m, .num n]) 0 = numBytes 8 m ++ numBytes 8 n := by
      simp [writeTy, writeAll, CTy.align, alignAll, CTy.size, endOf, roundUp, gap, Val.toList, Val.toNum]
    rw [e]
    have h1 : getNum (numBytes 8 m ++ numBytes 8 n) 0 8 = some (m % 256 ^ 8) := has_num ⟨[], numBytes 8 n, rfl, rfl⟩
    have h2 : getNum (numBytes 8 m ++ numBytes 8 n) 8 4 = some (n % 256 ^ 4) :=
      has_num ⟨numBytes 8 m, numBytes 4 (n / 256 ^ 4), by
        rw [List.append_assoc]
        congr 1
        simp only [numBytes, List.cons_append, List.nil_append, Nat.div_div_eq_div_mul]
        rfl, numBytes_length 8 m⟩
    simp only [readTy, readAll, roundUp, CTy.align, alignAll, CTy.size, endOf, Nat.reduceAdd, Nat.reduceSub, Nat.reduceDiv,
      Nat.reduceMul, show max 4 1 = 4 from rfl, show max 1 1 = 1 from rfl, show max 4 4 = 4 from rfl, Nat.zero_add, h1, h2]
    rw [Nat.mod_eq_of_lt (show m < 256 ^ 8 by omega)]
    rfl

/-- Instances: a nested structure with an array and a `u64` comes back whatever is in the 15 bytes of padding; the tape of
`{ 1u64, 2^32 + 5 }` is read as `{ 1, 5 }`. -/
example (pad : Nat → BitVec 8) :
    readTy 4 (writeTy 8 pad (.struct [.bool, .array 2 (.struct [u8, .num 2]), u64, .enum 3, u8])
      (.list [.num 1, .list [.list [.num 7, .num 300], .list [.num 8, .num 65535]], .num (2 ^ 63), .num 2, .num 9]) 0)
      (.struct [.bool, .array 2 (.struct [u8, .num 2]), u64, .enum 3, u8]) 0 =
    some (.list [.num 1, .list [.list [.num 7, .num 300], .list [.num 8, .num 65535]], .num (2 ^ 63), .num 2, .num 9]) := by
  have := (C105_roundtrip 8 4 (Or.inr rfl) (.struct [.bool, .array 2 (.struct [u8, .num 2]), u64, .enum 3, u8])
    (by simp [Real, RealAll]) (by simp [Portable, PortableAll])
    (.list [.num 1, .list [.list [.num 7, .num 300], .list [.num 8, .num 65535]], .num (2 ^ 63), .num 2, .num 9])
    (by
      simp only [IsVal, AreVals, List.length_cons, List.length_nil]
      refine ⟨by decide, ⟨trivial, ?_⟩, by decide, by decide, by decide, trivial⟩
      intro i hi
      obtain rfl | rfl : i = 0 ∨ i = 1 := by omega
      · simp [IsVal, AreVals]
      · simp [IsVal, AreVals]) pad []).2
  rwa [List.append_nil] at this

example : offsets 4 [.bool, .array 2 (.struct [u8, .num 2]), u64, .enum 3, u8] 0 = [0, 2, 16, 24, 28] ∧
    (CTy.struct [.bool, .array 2 (.struct [u8, .num 2]), u64, .enum 3, u8]).size 4 = 32 := by decide

example (pad : Nat → BitVec 8) : readTy 4 (writeTy 8 pad (.struct [u64, .usize]) (.list [.num 1, .num (2 ^ 32 + 5)]) 0) (.struct [u64, .usize]) 0 =
    some (.list [.num 1, .num 5]) := (C105_usize pad default 1 (2 ^ 32 + 5) (by decide)).2.2

example : getNum (numBytes 4 (BitVec.toNat 0x12345678#32)) 0 2 = some 0x5678 := by decide

end Verif.Props
