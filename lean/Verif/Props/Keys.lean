import Verif.Spec.Params
/-
  C49: automorphism keys.  C55: parameters.
-/
namespace Verif.Props
open Model

variable {K KP σ : Type}

theorem get_insert (m : KeyMap K) (g h : Int) (k : K) :
    (m.insert g k).get? h = if h = g then some k else m.get? h := by
  unfold KeyMap.insert KeyMap.get?
  split
  · next hany =>
    induction m with
    | nil => simp at hany
    | cons p m ih =>
      rw [List.map_cons, List.find?_cons, List.find?_cons]
      by_cases hp : p.1 = g
      · have hb : (p.1 == g) = true := by simp [hp]
        rw [if_pos hb]
        by_cases hh : h = g
        · subst hh; simp
        · have h1 : ((g, k).1 == h) = false := by simp; omega
          have h2 : (p.1 == h) = false := by simp; omega
          rw [h1, h2, if_neg hh]
          simp only
          by_cases hm : m.any (fun p => p.1 == g) = true
          · have := ih hm; rwa [if_neg hh] at this
          · have hmap : m.map (fun p => if (p.1 == g) = true then (g, k) else p) = m := by
              rw [List.map_congr_left (g := id), List.map_id]
              intro x hx
              rw [if_neg]; rfl
              intro hxg; exact hm (List.any_eq_true.mpr ⟨x, hx, hxg⟩)
            rw [hmap]
      · have hb : (p.1 == g) = false := by simp [hp]
        rw [if_neg (by rw [hb]; simp)]
        have hm : m.any (fun p => p.1 == g) = true := by
          rw [List.any_cons, hb, Bool.false_or] at hany; exact hany
        have := ih hm
        by_cases h2 : p.1 = h
        · have hb2 : (p.1 == h) = true := by simp [h2]
          rw [hb2, if_neg (by omega)]
        · have hb2 : (p.1 == h) = false := by simp [h2]
          rw [hb2]; exact this
  · next hany =>
    rw [List.find?_append]
    have hno : ∀ x ∈ m, ¬ (x.1 == g) = true := fun x hx hxg => hany (List.any_eq_true.mpr ⟨x, hx, hxg⟩)
    by_cases hh : h = g
    · subst hh
      rw [if_pos rfl, List.find?_eq_none.mpr hno]
      simp
    · rw [if_neg hh]
      have : ((g, k).1 == h) = false := by simp; omega
      rw [List.find?_cons, this, List.find?_nil, Option.or_none]

theorem foldl_get (l : List (Int × K)) : ∀ (m : KeyMap K) (g : Int),
    (l.foldl (fun m p => KeyMap.insert m p.1 p.2) m).get? g =
      ((l.reverse.find? fun p => p.1 == g).map (·.2)).or (m.get? g) := by
  induction l with
  | nil => intro m g; simp
  | cons p l ih =>
    intro m g
    rw [List.foldl_cons, ih, get_insert, List.reverse_cons, List.find?_append]
    cases hf : l.reverse.find? (fun p => p.1 == g) with
    | some x => simp
    | none =>
      simp only [Option.map_none, Option.none_or, List.find?_cons, List.find?_nil]
      by_cases hg : g = p.1
      · subst hg; simp
      · have : (p.1 == g) = false := by simp; omega
        rw [if_neg hg, this]; simp

theorem fromIter_get (l : List (Int × K)) (g : Int) :
    (KeyMap.fromIter l).get? g = (l.reverse.find? fun p => p.1 == g).map (·.2) := by
  unfold KeyMap.fromIter
  rw [foldl_get]
  simp [KeyMap.get?]

theorem get_none_iff (m : KeyMap K) (g : Int) : m.get? g = none ↔ g ∉ m.map (·.1) := by
  unfold KeyMap.get?
  rw [Option.map_eq_none_iff, List.find?_eq_none]
  simp only [beq_iff_eq, List.mem_map, not_exists, not_and]

theorem prepare_get (prep : K → KP) (other : KeyMap K) : ∀ (self out : KeyMap KP),
    prepareKeys prep self other = some out → ∀ g : Int,
      out.get? g = if g ∈ self.map (·.1) then (other.get? g).map prep else none := by
  intro self
  induction self with
  | nil =>
    intro out h g
    have : out = [] := by unfold prepareKeys at h; simpa using h.symm
    subst this
    simp [KeyMap.get?]
  | cons p self ih =>
    intro out h g
    unfold prepareKeys at h
    rw [List.mapM_cons] at h
    obtain ⟨q, h1, h⟩ := Option.bind_eq_some_iff.mp h
    obtain ⟨rest, h2, h⟩ := Option.bind_eq_some_iff.mp h
    have h := Option.some.inj h
    obtain ⟨k, h3, h4⟩ := Option.map_eq_some_iff.mp h1
    subst h h4
    have := ih rest h2 g
    unfold KeyMap.get? at this ⊢
    rw [List.find?_cons]
    by_cases hg : p.1 = g
    · subst hg
      have hb : ((p.1, prep k).1 == p.1) = true := by simp
      rw [hb, if_pos (by simp)]
      unfold KeyMap.get? at h3
      rw [h3]; rfl
    · have hb : ((p.1, prep k).1 == g) = false := by simp [hg]
      rw [hb]
      simp only [List.map_cons, List.mem_cons]
      rw [this]
      by_cases hm : g ∈ self.map (·.1)
      · rw [if_pos hm, if_pos (.inr hm)]
      · rw [if_neg hm, if_neg (fun h => h.elim (fun h => hg h.symm) hm)]

theorem prepare_some_iff (prep : K → KP) (other : KeyMap K) (self : KeyMap KP) :
    (∃ out, prepareKeys prep self other = some out) ↔
      ∀ g ∈ self.map (·.1), ∃ k, other.get? g = some k := by
  induction self with
  | nil => simp [prepareKeys]
  | cons p self ih =>
    unfold prepareKeys at *
    rw [List.mapM_cons]
    simp only [List.map_cons, List.forall_mem_cons]
    rw [← ih]
    constructor
    · rintro ⟨out, h⟩
      obtain ⟨q, h1, h⟩ := Option.bind_eq_some_iff.mp h
      obtain ⟨rest, h2, h⟩ := Option.bind_eq_some_iff.mp h
      obtain ⟨k, h3, -⟩ := Option.map_eq_some_iff.mp h1
      exact ⟨⟨k, h3⟩, rest, h2⟩
    · rintro ⟨⟨k, h3⟩, rest, h2⟩
      exact ⟨_, by rw [h3, h2]; rfl⟩

theorem encryptList_keys (enc : Int → σ → K × σ) : ∀ (gals : List Int) (s : σ),
    (encryptList enc gals s).map (·.1) = gals := by
  intro gals
  induction gals with
  | nil => intro s; rfl
  | cons g gs ih => intro s; simp only [encryptList, List.map_cons, ih]

theorem encryptList_mem (enc : Int → σ → K × σ) : ∀ (gals : List Int) (s : σ) (p : Int × K),
    p ∈ encryptList enc gals s → ∃ s', p.2 = (enc p.1 s').1 := by
  intro gals
  induction gals with
  | nil => intro s p h; simp [encryptList] at h
  | cons g gs ih =>
    intro s p h
    rw [encryptList, List.mem_cons] at h
    rcases h with rfl | h
    · exact ⟨s, rfl⟩
    · exact ih _ _ h

theorem fromIter_keys (l : List (Int × K)) (g : Int) :
    g ∈ (KeyMap.fromIter l).map (·.1) ↔ g ∈ l.map (·.1) := by
  rw [← Decidable.not_iff_not, ← get_none_iff, fromIter_get, Option.map_eq_none_iff, List.find?_eq_none]
  simp only [beq_iff_eq, List.mem_map, not_exists, not_and, List.mem_reverse]

/-- C49: preparing generated keys never fails, and afterwards there is a key for an element exactly if
the library asks for it, namely the prepared form of a key encrypted for that element. -/
theorem C49_prepare (enc : Int → σ → K × σ) (prep : K → KP) (fresh : KP) (gals : List Int) (s : σ) :
    ∃ m, prepareKeys prep (allocKeys gals fresh) (encryptKeys enc gals s) = some m ∧
      (∀ g, (∃ k, m.get? g = some k) ↔ g ∈ gals) ∧
      ∀ g k, m.get? g = some k → ∃ s', k = prep (enc g s').1 := by
  have hk : ∀ g, g ∈ (allocKeys gals fresh).map (·.1) ↔ g ∈ gals := by
    intro g; unfold allocKeys; rw [fromIter_keys]; simp [Function.comp_def]
  have hg : ∀ g, (∃ k, (encryptKeys enc gals s).get? g = some k) ↔ g ∈ gals := by
    intro g
    rw [← Option.isSome_iff_exists, Option.isSome_iff_ne_none, ne_eq, get_none_iff, Decidable.not_not]
    unfold encryptKeys
    rw [fromIter_keys, encryptList_keys]
  obtain ⟨m, hm⟩ := (prepare_some_iff prep (encryptKeys enc gals s) (allocKeys gals fresh)).mpr
    fun g h => (hg g).mpr ((hk g).mp h)
  have hget := prepare_get prep (encryptKeys enc gals s) _ _ hm
  refine ⟨m, hm, fun g => ?_, fun g k h => ?_⟩
  · rw [hget]
    constructor
    · rintro ⟨k, h⟩
      split at h
      · next h' => exact (hk g).mp h'
      · cases h
    · intro h
      obtain ⟨k, h'⟩ := (hg g).mpr h
      exact ⟨prep k, by rw [if_pos ((hk g).mpr h), h']; rfl⟩
  · rw [hget] at h
    split at h
    · obtain ⟨k', h1, h2⟩ := Option.map_eq_some_iff.mp h
      unfold encryptKeys at h1
      rw [fromIter_get] at h1
      obtain ⟨p, h3, h4⟩ := Option.map_eq_some_iff.mp h1
      have h5 := List.find?_some h3
      have h6 := List.mem_of_find?_eq_some h3
      rw [List.mem_reverse] at h6
      obtain ⟨s', h7⟩ := encryptList_mem enc gals s p h6
      have h8 : p.1 = g := by simpa using h5
      subst h2 h4
      exact ⟨s', by rw [h7, h8]⟩
    · cases h

/-- With other maps (`set_evk_ram`, keys.rs:134-136) preparation fails exactly if one of the elements is
missing. -/
theorem C49_missing (prep : K → KP) (fresh : KP) (gals : List Int) (other : KeyMap K) :
    prepareKeys prep (allocKeys gals fresh) other = none ↔ ∃ g ∈ gals, other.get? g = none := by
  rw [← Decidable.not_iff_not]
  have : (¬ prepareKeys prep (allocKeys gals fresh) other = none) ↔
      ∃ out, prepareKeys prep (allocKeys gals fresh) other = some out := by
    rw [← Option.isSome_iff_exists, Option.isSome_iff_ne_none]
  rw [this, prepare_some_iff]
  have hk : ∀ g, g ∈ (allocKeys gals fresh).map (·.1) ↔ g ∈ gals := by
    intro g; unfold allocKeys; rw [fromIter_keys]; simp [Function.comp_def]
  constructor
  · rintro h ⟨g, h1, h2⟩
    obtain ⟨k, h3⟩ := h g ((hk g).mpr h1)
    rw [h2] at h3; cases h3
  · intro h g hg
    cases ho : other.get? g with
    | some k => exact ⟨k, rfl⟩
    | none => exact absurd ⟨g, (hk g).mp hg, ho⟩ h

example : prepareKeys (fun k : Nat => k + 100) (allocKeys [-1, 5, 25] 0)
    (encryptKeys (fun g (s : Nat) => (g.natAbs * 10 + s, s + 1)) [-1, 5, 25] 7) =
    some [(-1, 117), (5, 158), (25, 359)] := by decide
example : prepareKeys (fun k : Nat => k) (allocKeys [-1, 5] 0) [(-1, 3)] = none := by decide

/-! ### C55 -/

/-- C55: the parameter set is consistent.  The ring degree is a power of two and the LWE dimension a
multiple of the block size; all gadget decompositions fit in their precision; the keys used on
ciphertexts of the VM cover the precision of what they are applied to; stored ciphertexts have room
for the plaintext. -/
theorem C55_parameters :
    N_GLWE = 2 ^ 10 ∧ LWE_BLOCK_SIZE ∣ N_LWE ∧
    preparedGadget.Fits ∧ evkRamGadget.Fits ∧ brkGadget.Fits ∧ atkGadget.Fits ∧ tskGadget.Fits ∧
    ksGlweGadget.Fits ∧ ksLweGadget.Fits ∧
    preparedGadget.Covers K_FHE_UINT ∧ evkRamGadget.Covers K_RAM ∧ evkRamGadget.Covers K_ROM ∧
    brkGadget.Covers K_FHE_UINT_PREPARED ∧ atkGadget.Covers K_FHE_UINT_PREPARED ∧
    tskGadget.Covers K_FHE_UINT_PREPARED ∧ ksLweGadget.Covers K_LWE ∧
    K_GLWE_PT ≤ K_RAM ∧ K_GLWE_PT ≤ K_ROM ∧ K_GLWE_PT ≤ K_FHE_UINT := by
  unfold Gadget.Fits Gadget.Covers
  decide

/-- The key switching key from GLWE to GLWE does not cover the precision of the ciphertexts it is
applied to: four bits are dropped. -/
theorem C55_keyswitch : ¬ ksGlweGadget.Covers K_FHE_UINT ∧ ksGlweGadget.Covers (K_FHE_UINT - 4) := by
  unfold Gadget.Covers
  decide

/-- The ranks fit together.  The keys applied to the ciphertexts of the VM and to what circuit bootstrapping makes
take and give the rank of these ciphertexts; on the way to an LWE ciphertext the first key takes that rank, and the
second takes what the first gives.  (The second alone could not be applied to a ciphertext of the VM.) -/
theorem C55_ranks :
    (∀ g ∈ [preparedGadget, evkRamGadget, brkGadget, atkGadget, tskGadget], g.rankIn = RANK ∧ g.rankOut = RANK) ∧
    ksGlweGadget.rankIn = RANK ∧ ksGlweGadget.rankOut = ksLweGadget.rankIn ∧ ksLweGadget.rankIn ≠ RANK := by
  decide

end Verif.Props
