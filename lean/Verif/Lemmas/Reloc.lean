import Verif.Model.Reloc
import Verif.Spec.Reloc
import Verif.Model.Boot
import Mathlib.Tactic.IntervalCases
/-
  Relocation: the fields of instruction words, and words in lists of bytes.
-/
namespace Verif
open Model Model.Link Spec Boot

theorem setHi_u (x : BitVec 20) (rd : Reg) (op : BitVec 7) (v : Word) : setHi (uType x rd op) v = uType (hi20 v) rd op := by
  unfold setHi hi20
  generalize v + 0x800#32 = y
  apply BitVec.eq_of_getLsbD_eq
  intro i hi
  interval_cases i <;> simp [uType, place]

theorem setLoI_i (x : BitVec 12) (rs1 rd : Reg) (f : BitVec 3) (op : BitVec 7) (v : Word) :
    setLoI (iType x rs1 f rd op) v = iType (lo12 v) rs1 f rd op := by
  unfold setLoI lo12
  apply BitVec.eq_of_getLsbD_eq
  intro i hi
  interval_cases i <;> simp [iType, place]

theorem setLoS_s (x : BitVec 12) (rs2 rs1 : Reg) (f : BitVec 3) (op : BitVec 7) (v : Word) :
    setLoS (sType x rs2 rs1 f op) v = sType (lo12 v) rs2 rs1 f op := by
  unfold setLoS lo12
  apply BitVec.eq_of_getLsbD_eq
  intro i hi
  interval_cases i <;> simp [sType, place]

theorem setBranch_b (x : BitVec 12) (rs2 rs1 : Reg) (f : BitVec 3) (op : BitVec 7) (d : Word) :
    setBranch (bType x rs2 rs1 f op) d = bType ((d >>> 1).setWidth 12) rs2 rs1 f op := by
  unfold setBranch
  apply BitVec.eq_of_getLsbD_eq
  intro i hi
  interval_cases i <;> simp [bType, place]

theorem setJal_j (x : BitVec 20) (rd : Reg) (op : BitVec 7) (d : Word) :
    setJal (jType x rd op) d = jType ((d >>> 1).setWidth 20) rd op := by
  unfold setJal
  apply BitVec.eq_of_getLsbD_eq
  intro i hi
  interval_cases i <;> simp [jType, place]

/-! ### Words in bytes -/

theorem wr32_length (b : List Byte) (o : Nat) (w : Word) : (wr32 b o w).length = b.length := by
  unfold wr32; rw [List.length_mapIdx]

theorem wr32_out (b : List Byte) (o : Nat) (w : Word) (i : Nat) (h : i < o ∨ o + 4 ≤ i) : (wr32 b o w)[i]? = b[i]? := by
  unfold wr32
  rw [List.getElem?_mapIdx]
  simp only [if_neg (show ¬ (o ≤ i ∧ i < o + 4) by omega), Option.map_id']

theorem wr32_in (b : List Byte) (o : Nat) (w : Word) (h : o + 4 ≤ b.length) : LittleAt (wr32 b o w) o w := by
  intro j hj
  unfold wr32
  rw [List.getElem?_mapIdx, List.getElem?_eq_getElem (by omega), Option.map_some, if_pos (by omega), Nat.add_sub_cancel_left]

theorem littleAt_unique {b : List Byte} {o : Nat} {w w' : Word} (h : LittleAt b o w) (h' : LittleAt b o w') : w = w' := by
  have e : ∀ j, j < 4 → w.extractLsb' (8 * j) 8 = w'.extractLsb' (8 * j) 8 := fun j hj => Option.some.inj ((h j hj).symm.trans (h' j hj))
  apply BitVec.eq_of_getLsbD_eq
  intro i hi
  have := congrArg (·.getLsbD (i % 8)) (e (i / 8) (by omega))
  simp only [BitVec.getLsbD_extractLsb', show i % 8 < 8 by omega, decide_true, Bool.true_and, show 8 * (i / 8) + i % 8 = i by omega] at this
  exact this

theorem rd32_little {b : List Byte} {o : Nat} {w : Word} (h : rd32 b o = some w) : LittleAt b o w := by
  unfold rd32 at h
  split at h
  · rename_i hl
    cases h
    have g : ∀ j, j < 4 → b[o + j]? = some (b.getD (o + j) 0#8) := by
      intro j hj
      rw [List.getD_eq_getElem?_getD, List.getElem?_eq_getElem (by omega)]
      rfl
    intro j hj
    rw [g j hj]
    congr 1
    apply BitVec.eq_of_getLsbD_eq
    intro i hi
    interval_cases j <;> simp <;> grind
  · cases h

theorem little_rd32 {b : List Byte} {o : Nat} {w : Word} (h : LittleAt b o w) : rd32 b o = some w := by
  have hl : o + 3 < b.length := (List.getElem?_eq_some_iff.mp (h 3 (by decide))).1
  have : (rd32 b o).isSome = true := by unfold rd32; rw [if_pos (by omega)]; rfl
  obtain ⟨w', hw'⟩ := Option.isSome_iff_exists.mp this
  rw [hw', littleAt_unique h (rd32_little hw')]

theorem rd32_length {b : List Byte} {o : Nat} {w : Word} (h : rd32 b o = some w) : o + 4 ≤ b.length := by
  unfold rd32 at h
  split at h
  · assumption
  · cases h

theorem rd32_congr {b b' : List Byte} {o : Nat} (hl : b.length = b'.length) (h : ∀ i, o ≤ i → i < o + 4 → b[i]? = b'[i]?) :
    rd32 b o = rd32 b' o := by
  unfold rd32
  rw [hl]
  simp only [List.getD_eq_getElem?_getD]
  rw [h o (by omega) (by omega), h (o + 1) (by omega) (by omega), h (o + 2) (by omega) (by omega), h (o + 3) (by omega) (by omega)]

/-! ### One relocation -/

/-- The word a relocation other than a call puts in the place of `w`. -/
def Written (k : RelKind) (v p w w' : Word) : Prop :=
  match k with
  | .abs32 => w' = v
  | .branch => reaches 13 (v - p) = true ∧ w' = setBranch w (v - p)
  | .jal => reaches 21 (v - p) = true ∧ w' = setJal w (v - p)
  | .call => False
  | .pcrelHi => w' = setHi w (v - p)
  | .pcrelLoI | .loI => w' = setLoI w v
  | .pcrelLoS | .loS => w' = setLoS w v
  | .hi => w' = setHi w v

/-- The words a relocation writes. -/
theorem fix_inv {k : RelKind} {v p : Word} {o : Nat} {b b' : List Byte} (h : fix k v p o b = some b') :
    b'.length = b.length ∧ ∃ w, rd32 b o = some w ∧ (
      (k ≠ .call ∧ ∃ w', b' = wr32 b o w' ∧ Written k v p w w') ∨
      (k = .call ∧ ∃ w2, rd32 b (o + 4) = some w2 ∧ b' = wr32 (wr32 b o (setHi w (v - p))) (o + 4) (setLoI w2 (v - p)))) := by
  unfold fix at h
  cases hw : rd32 b o with
  | none => rw [hw] at h; cases h
  | some w =>
    rw [hw, Option.bind_some] at h
    cases k with
    | call =>
      simp only [Option.map_eq_some_iff] at h
      obtain ⟨w2, h2, rfl⟩ := h
      exact ⟨by rw [wr32_length, wr32_length], w, rfl, .inr ⟨rfl, w2, h2, rfl⟩⟩
    | branch | jal =>
      simp only at h
      split at h
      · rename_i hr
        cases h
        exact ⟨wr32_length _ _ _, w, rfl, .inl ⟨by simp, _, rfl, hr, rfl⟩⟩
      · cases h
    | _ =>
      cases h
      exact ⟨wr32_length _ _ _, w, rfl, .inl ⟨by simp, _, rfl, rfl⟩⟩

def kspan (k : RelKind) : Nat := if k = .call then 8 else 4

theorem fix_out {k : RelKind} {v p : Word} {o : Nat} {b b' : List Byte} (h : fix k v p o b = some b') (i : Nat)
    (hi : i < o ∨ o + kspan k ≤ i) : b'[i]? = b[i]? := by
  obtain ⟨-, w, -, ⟨hk, w', rfl, -⟩ | ⟨hk, w2, -, rfl⟩⟩ := fix_inv h
  · rw [kspan, if_neg hk] at hi
    exact wr32_out _ _ _ _ hi
  · rw [kspan, if_pos hk] at hi
    rw [wr32_out _ _ _ _ (by omega), wr32_out _ _ _ _ (by omega)]

/-- It depends on these bytes only. -/
theorem fix_local {k : RelKind} {v p : Word} {o : Nat} {b b1 b2 : List Byte} (hl : b.length = b1.length)
    (h : ∀ i, o ≤ i → i < o + kspan k → b[i]? = b1[i]?) (hf : fix k v p o b1 = some b2) :
    ∃ b3, fix k v p o b = some b3 ∧ ∀ i, o ≤ i → i < o + kspan k → b2[i]? = b3[i]? := by
  have e1 : rd32 b o = rd32 b1 o := rd32_congr hl fun i h1 h2 => h i h1 (by unfold kspan; split <;> omega)
  have one (w : Word) (hk : k ≠ .call) : ∀ i, o ≤ i → i < o + kspan k → (wr32 b1 o w)[i]? = (wr32 b o w)[i]? := by
    intro i h1 h2
    unfold wr32
    rw [List.getElem?_mapIdx, List.getElem?_mapIdx, h i h1 h2]
  unfold fix at hf ⊢
  rw [e1]
  cases hw : rd32 b1 o with
  | none => rw [hw] at hf; cases hf
  | some w =>
    rw [hw, Option.bind_some] at hf
    rw [Option.bind_some]
    cases k with
    | call =>
      have e2 : rd32 b (o + 4) = rd32 b1 (o + 4) := rd32_congr hl fun i h1 h2 => h i (by omega) (by simp only [kspan, if_true]; omega)
      simp only [Option.map_eq_some_iff] at hf
      obtain ⟨w2, h2, rfl⟩ := hf
      refine ⟨wr32 (wr32 b o (setHi w (v - p))) (o + 4) (setLoI w2 (v - p)), by simp only [e2, h2, Option.map_some], fun i h1 h3 => ?_⟩
      unfold wr32
      simp only [List.getElem?_mapIdx, h i h1 h3]
    | branch | jal =>
      simp only at hf ⊢
      split at hf
      · rename_i hr
        cases hf
        rw [if_pos hr]
        exact ⟨_, rfl, one _ (by simp)⟩
      · cases hf
    | _ =>
      cases hf
      exact ⟨_, rfl, one _ (by simp)⟩

/-! ### All relocations -/

theorem foldl_fix {val : Rel → Option Word} {a : Word} : ∀ (rs : List Rel) (b out : List Byte),
    rs.foldlM (fun b r => (val r).bind fun v => fix r.kind v (a + BitVec.ofNat 32 r.off) r.off b) b = some out →
    out.length = b.length ∧ (∀ i, (∀ r ∈ rs, i < r.off ∨ r.off + kspan r.kind ≤ i) → out[i]? = b[i]?) ∧
    ((rs.Pairwise fun r r' => r.off + kspan r.kind ≤ r'.off ∨ r'.off + kspan r'.kind ≤ r.off) → ∀ r ∈ rs, ∃ v b', val r = some v ∧
      fix r.kind v (a + BitVec.ofNat 32 r.off) r.off b = some b' ∧ ∀ i, r.off ≤ i → i < r.off + kspan r.kind → out[i]? = b'[i]?)
  | [], b, out, h => by
    cases h
    exact ⟨rfl, fun _ _ => rfl, fun _ r hr => by cases hr⟩
  | r :: rs, b, out, h => by
    rw [List.foldlM_cons] at h
    obtain ⟨b1, h1, h2⟩ := Option.bind_eq_some_iff.mp h
    obtain ⟨v, hv, hf⟩ := Option.bind_eq_some_iff.mp h1
    obtain ⟨i1, i2, i3⟩ := foldl_fix rs b1 out h2
    have hl : b1.length = b.length := (fix_inv hf).1
    refine ⟨i1.trans hl, fun i hi => ?_, fun hp => ?_⟩
    · rw [i2 i fun r' hr' => hi r' (List.mem_cons_of_mem _ hr'), fix_out hf i (hi r List.mem_cons_self)]
    · obtain ⟨p1, p2⟩ := List.pairwise_cons.mp hp
      intro r' hr'
      rcases List.mem_cons.mp hr' with rfl | hr'
      · refine ⟨v, b1, hv, hf, fun i h3 h4 => i2 i fun r2 hr2 => ?_⟩
        have := p1 r2 hr2
        omega
      · obtain ⟨v', b2, q1, q2, q3⟩ := i3 p2 r' hr'
        have hd := p1 r' hr'
        obtain ⟨b3, q4, q5⟩ := fix_local hl.symm (fun i h3 h4 => (fix_out hf i (by omega)).symm) q2
        exact ⟨v', b3, q1, q4, fun i h3 h4 => (q3 i h3 h4).trans (q5 i h3 h4)⟩

end Verif
