import Verif.Props.Agree
import Verif.Spec.Image
/-
  Lemmas about byte and word lists, slices and the program memories of both VMs.
-/
namespace Verif.Model
open Spec Props

theorem unpackWord_eq (w : U32) : unpackWord w = bytesLE w := by
  have h (k : Nat) : ((w >>> k) &&& 0xFF#32).setWidth 8 = w.extractLsb' k 8 := by
    apply BitVec.eq_of_getLsbD_eq
    intro i hi
    have : i = 0 ∨ i = 1 ∨ i = 2 ∨ i = 3 ∨ i = 4 ∨ i = 5 ∨ i = 6 ∨ i = 7 := by omega
    simp only [BitVec.getLsbD_setWidth, BitVec.getLsbD_and, BitVec.getLsbD_extractLsb',
      BitVec.getLsbD_ushiftRight]
    rcases this with rfl | rfl | rfl | rfl | rfl | rfl | rfl | rfl <;> simp [-BitVec.getLsbD_eq_getElem]
  have h0 := h 0
  rw [BitVec.ushiftRight_zero] at h0
  unfold unpackWord bytesLE
  rw [h0, h 8, h 16, h 24]

theorem unpackWords_eq (ws : List U32) : unpackWords ws = wordBytes ws := by
  unfold unpackWords wordBytes
  congr 1
  funext w
  exact unpackWord_eq w

theorem bytesLE_leWord (b0 b1 b2 b3 : BitVec 8) : bytesLE (leWord b0 b1 b2 b3) = [b0, b1, b2, b3] := by
  have h := leWord_toNat b0 b1 b2 b3
  have l0 := b0.isLt
  have l1 := b1.isLt
  have l2 := b2.isLt
  have l3 := b3.isLt
  have e (k : Nat) (b : BitVec 8) (hb : (leWord b0 b1 b2 b3).toNat / 2 ^ k % 2 ^ 8 = b.toNat) :
      (leWord b0 b1 b2 b3).extractLsb' k 8 = b := by
    apply BitVec.eq_of_toNat_eq
    rw [BitVec.extractLsb'_toNat, Nat.shiftRight_eq_div_pow]
    exact hb
  unfold bytesLE
  rw [e 0 b0 (by omega), e 8 b1 (by omega), e 16 b2 (by omega), e 24 b3 (by omega)]

theorem leWord_bytesLE (w : U32) :
    leWord (w.extractLsb' 0 8) (w.extractLsb' 8 8) (w.extractLsb' 16 8) (w.extractLsb' 24 8) = w := by
  apply BitVec.eq_of_toNat_eq
  rw [leWord_toNat]
  simp only [BitVec.extractLsb'_toNat, Nat.shiftRight_eq_div_pow]
  have := w.isLt
  omega

theorem packWords_wordBytes (ws : List U32) : packWords (wordBytes ws) = ws := by
  induction ws with
  | nil => rfl
  | cons w ws ih =>
    show leWord _ _ _ _ :: packWords (wordBytes ws) = _
    rw [ih, leWord_bytesLE]

theorem wordBytes_packWords : ∀ (bs : List (BitVec 8)), bs.length % 4 = 0 → wordBytes (packWords bs) = bs
  | [], _ => rfl
  | [_], h => by simp at h
  | [_, _], h => by simp at h
  | [_, _, _], h => by simp at h
  | b0 :: b1 :: b2 :: b3 :: bs, h => by
    show bytesLE (leWord b0 b1 b2 b3) ++ wordBytes (packWords bs) = _
    rw [bytesLE_leWord, wordBytes_packWords bs (by simp at h; omega)]
    rfl

theorem packWords_length (bs : List (BitVec 8)) (h : bs.length % 4 = 0) :
    4 * (packWords bs).length = bs.length := by
  rw [← wordBytes_length, wordBytes_packWords bs h]

theorem copyInto_get {data src out : List (BitVec 8)} {base start : Nat}
    (h : copyInto data base start src = some out) :
    base ≤ start ∧ start - base + src.length ≤ data.length ∧ out.length = data.length ∧
    ∀ k, out[k]? = if start - base ≤ k ∧ k < start - base + src.length then src[k - (start - base)]?
      else data[k]? := by
  unfold copyInto at h
  split at h
  · next hc =>
    cases h
    refine ⟨hc.1, hc.2, by simp; omega, fun k => ?_⟩
    by_cases h1 : k < start - base
    · rw [if_neg (by omega), List.append_assoc, List.getElem?_append_left (by simp; omega), List.getElem?_take_of_lt h1]
    · by_cases h2 : k < start - base + src.length
      · rw [if_pos ⟨by omega, h2⟩, List.append_assoc, List.getElem?_append_right (by simp; omega),
          List.getElem?_append_left (by simp; omega)]
        simp [Nat.min_eq_left (show start - base ≤ data.length by omega)]
      · rw [if_neg (by omega), List.getElem?_append_right (by simp; omega), List.getElem?_drop]
        congr 1
        simp; omega
  · cases h

theorem slice_get {bytes out : List (BitVec 8)} {off len : Nat} (h : slice bytes off len = some out) :
    off + len ≤ bytes.length ∧ out.length = len ∧ ∀ k, k < len → out[k]? = bytes[off + k]? := by
  unfold slice at h
  split at h
  · cases h
    refine ⟨by assumption, by simp; omega, fun k hk => ?_⟩
    rw [List.getElem?_take_of_lt hk, List.getElem?_drop]
  · cases h

/-- The program memory of the test VM holds a list of words. -/
theorem readWord_words (chk : Bool) (ws : List U32) (rom : TMem) (pc : Nat) (hd : rom.data = wordBytes ws)
    (ho : rom.offset = 0) (hs : rom.size = 4 * ws.length) (h4 : pc % 4 = 0) (hb : pc + 4 ≤ rom.size)
    (h32 : pc < 2 ^ 32) :
    rom.readWord chk pc = ws[pc / 4]? := by
  have hk : pc / 4 < ws.length := by omega
  have hn (j : Nat) (hj : j < 4) : rom.readNth chk pc j = some (ws[pc / 4].extractLsb' (8 * j) 8) := by
    unfold TMem.readNth usizeSub usizeAdd TMem.get
    rw [if_pos (by omega), Option.bind_some, if_pos (by omega), Option.bind_some, if_neg (by omega),
      ho, Nat.sub_zero, Nat.mod_eq_of_lt (by omega), hd, show pc + j = 4 * (pc / 4) + j by omega,
      wordBytes_word _ _ _ hj, List.getElem?_eq_getElem hk]
    rfl
  unfold TMem.readWord
  rw [if_pos h4, hn 0 (by omega), hn 1 (by omega), hn 2 (by omega), hn 3 (by omega),
    List.getElem?_eq_getElem hk]
  show some (leWord _ _ _ _) = _
  exact congrArg some (leWord_bytesLE _)

theorem sameProgram_words (chk dbg : Bool) (ws : List U32) (rom : TMem) (prog : List Decoded)
    (hd : rom.data = wordBytes ws) (ho : rom.offset = 0) (hs : rom.size = 4 * ws.length)
    (hp : ∀ (k : Nat) (w : U32), ws[k]? = some w → prog[k]? = decodeWord dbg w) : SameProgram chk dbg rom prog := by
  intro pc i hb hr
  have h4 : pc.toNat % 4 = 0 := by
    unfold TMem.readWord at hr
    split at hr
    · assumption
    · cases hr
  rw [readWord_words chk ws rom pc.toNat hd ho hs h4 hb pc.isLt] at hr
  exact hp _ _ hr

theorem collect_range {α : Type} (f : Nat → Option α) (n : Nat) (out : List α)
    (h : collect ((List.range n).map f) = some out) :
    out.length = n ∧ ∀ i, i < n → out[i]? = f i := by
  have hl := length_collect _ _ h
  rw [List.length_map, List.length_range] at hl
  refine ⟨hl, fun i hi => ?_⟩
  have key : ∀ (l : List (Option α)) (r : List α), collect l = some r → ∀ i, i < l.length → l[i]? = some r[i]? := by
    intro l
    induction l with
    | nil => intro r _ i hi; simp at hi
    | cons x xs ih =>
      intro r hr i hi
      cases x with
      | none => cases hr
      | some a =>
        obtain ⟨r', h1, rfl⟩ := Option.map_eq_some_iff.mp hr
        cases i with
        | zero => rfl
        | succ i => simpa using ih r' h1 i (by simpa using hi)
  have := key _ _ h i (by simpa using hi)
  rw [List.getElem?_map, List.getElem?_range hi] at this
  exact (Option.some.inj this).symm

theorem collect_congr {α : Type} {f g : Nat → Option α} (n : Nat) (h : ∀ i, i < n → f i = g i) :
    collect ((List.range n).map f) = collect ((List.range n).map g) := by
  congr 1
  apply List.map_congr_left
  intro i hi
  exact h i (List.mem_range.mp hi)

/-! ### Segments -/

theorem loadSegment_get {e : Elf} {off : Nat} {ram out : List (BitVec 8)} {ph : Phdr}
    (h : loadSegment e off ram ph = some out) :
    out.length = ram.length ∧ (∀ k, ¬ ph.loads (off + k) → out[k]? = ram[k]?) ∧
    (0 < ph.memsz → ph.filesz = ph.memsz → off ≤ ph.vaddr ∧ ph.vaddr - off + ph.memsz ≤ ram.length ∧
      ph.offset + ph.memsz ≤ e.bytes.length ∧
      ∀ j, j < ph.memsz → out[ph.vaddr + j - off]? = e.bytes[ph.offset + j]?) := by
  unfold loadSegment at h
  split at h
  · next hc =>
    obtain ⟨src, h1, h2⟩ := Option.bind_eq_some_iff.mp h
    obtain ⟨s1, s2, s3⟩ := slice_get h1
    obtain ⟨c1, c2, c3, c4⟩ := copyInto_get h2
    refine ⟨c3, fun k hk => ?_, fun _ _ => ⟨c1, by omega, s1, fun j hj => ?_⟩⟩
    · rw [c4, if_neg]
      intro hin
      exact hk ⟨hc.1, hc.2, by omega, by omega⟩
    · rw [c4, if_pos (by omega), ← s3 j hj]
      congr 1; omega
  · next hc =>
    cases h
    exact ⟨rfl, fun _ _ => rfl, fun h1 h2 => absurd ⟨h1, h2⟩ hc⟩

theorem loadSegments_keep {e : Elf} {off : Nat} : ∀ (phs : List Phdr) (ram out : List (BitVec 8)),
    loadSegments e off phs ram = some out →
    out.length = ram.length ∧ ∀ k, (∀ ph ∈ phs, ¬ ph.loads (off + k)) → out[k]? = ram[k]?
  | [], ram, out, h => by cases h; exact ⟨rfl, fun _ _ => rfl⟩
  | ph :: phs, ram, out, h => by
    obtain ⟨r, h1, h2⟩ := Option.bind_eq_some_iff.mp h
    obtain ⟨l1, k1, -⟩ := loadSegment_get h1
    obtain ⟨l2, k2⟩ := loadSegments_keep phs r out h2
    refine ⟨l2.trans l1, fun k hk => ?_⟩
    rw [k2 k (fun q hq => hk q (List.mem_cons_of_mem _ hq)), k1 k (hk ph List.mem_cons_self)]

theorem loadSegments_append {e : Elf} {off : Nat} (as bs : List Phdr) (ram : List (BitVec 8)) :
    loadSegments e off (as ++ bs) ram = (loadSegments e off as ram).bind (loadSegments e off bs) := by
  induction as generalizing ram with
  | nil => rfl
  | cons a as ih =>
    show (loadSegment e off ram a).bind _ = ((loadSegment e off ram a).bind _).bind _
    cases loadSegment e off ram a with
    | none => rfl
    | some r => exact ih r

theorem loadSegments_at {e : Elf} {off : Nat} {as bs : List Phdr} {ph : Phdr} {ram out : List (BitVec 8)}
    (h : loadSegments e off (as ++ ph :: bs) ram = some out) (h0 : 0 < ph.memsz) (hf : ph.filesz = ph.memsz) :
    off ≤ ph.vaddr ∧ ph.vaddr - off + ph.memsz ≤ ram.length ∧ ph.offset + ph.memsz ≤ e.bytes.length ∧
    ∀ j, j < ph.memsz → (∀ q ∈ bs, ¬ q.loads (ph.vaddr + j)) →
      out[ph.vaddr + j - off]? = e.bytes[ph.offset + j]? := by
  rw [loadSegments_append] at h
  obtain ⟨r, h1, h2⟩ := Option.bind_eq_some_iff.mp h
  obtain ⟨r2, h3, h4⟩ := Option.bind_eq_some_iff.mp h2
  obtain ⟨l1, -⟩ := loadSegments_keep _ _ _ h1
  obtain ⟨l2, -, b⟩ := loadSegment_get h3
  obtain ⟨b1, b2, b3, b4⟩ := b h0 hf
  obtain ⟨l3, k3⟩ := loadSegments_keep _ _ _ h4
  refine ⟨b1, by omega, b3, fun j hj hq => ?_⟩
  rw [k3 _ (by rw [show off + (ph.vaddr + j - off) = ph.vaddr + j by omega]; exact hq), b4 j hj]

end Verif.Model
