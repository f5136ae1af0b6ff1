import Verif.Spec.Layout
/-
  Arithmetic of the location counter.
-/
namespace Verif.Model.Link
open Verif.Spec

theorem alignUp_spec (x a : Nat) (ha : 0 < a) : a ∣ alignUp x a ∧ x ≤ alignUp x a ∧ alignUp x a < x + a := by
  unfold alignUp
  refine ⟨⟨_, Nat.mul_comm _ _⟩, ?_, ?_⟩
  · have h1 := Nat.div_add_mod (x + a - 1) a
    have h2 := Nat.mod_lt (x + a - 1) ha
    rw [Nat.mul_comm] at h1
    generalize (x + a - 1) / a * a = y at h1 ⊢
    omega
  · have := Nat.div_mul_le_self (x + a - 1) a
    omega

theorem alignUp_of_dvd {x a : Nat} (ha : 0 < a) (h : a ∣ x) : alignUp x a = x := by
  obtain ⟨k, rfl⟩ := h
  unfold alignUp
  have : (a * k + a - 1) / a = k := by
    rw [Nat.div_eq_iff ha, Nat.mul_comm]
    omega
  rw [this, Nat.mul_comm]

def Pos (ps : List Piece) : Prop := ∀ p ∈ ps, 0 < p.align

theorem fill_ge {ps : List Piece} (h : Pos ps) (dot : Nat) : dot ≤ fill dot ps := by
  induction ps generalizing dot with
  | nil => exact Nat.le_refl _
  | cons p ps ih =>
    have := (alignUp_spec dot p.align (h p (by simp))).2.1
    have := ih (fun q hq => h q (List.mem_cons_of_mem _ hq)) (alignUp dot p.align + p.size)
    simp only [fill]
    omega

theorem fill_append (ps qs : List Piece) (dot : Nat) : fill dot (ps ++ qs) = fill (fill dot ps) qs := by
  induction ps generalizing dot with
  | nil => rfl
  | cons p ps ih => exact ih _

theorem addrs_length (ps : List Piece) (dot : Nat) : (addrs dot ps).length = ps.length := by
  induction ps generalizing dot with
  | nil => rfl
  | cons p ps ih => simp [addrs, ih]

theorem addrs_spec {ps : List Piece} (h : Pos ps) (dot i : Nat) (p : Piece) (a : Nat)
    (hp : ps[i]? = some p) (ha : (addrs dot ps)[i]? = some a) :
    p.align ∣ a ∧ dot ≤ a ∧ a + p.size ≤ fill dot ps := by
  induction ps generalizing dot i with
  | nil => simp at hp
  | cons q ps ih =>
    have hq := alignUp_spec dot q.align (h q (by simp))
    have ht : Pos ps := fun q hq => h q (List.mem_cons_of_mem _ hq)
    have hg := fill_ge ht (alignUp dot q.align + q.size)
    cases i with
    | zero =>
      simp only [List.getElem?_cons_zero, Option.some.injEq, addrs] at hp ha
      subst hp ha
      simp only [fill]
      exact ⟨hq.1, hq.2.1, hg⟩
    | succ i =>
      simp only [List.getElem?_cons_succ, addrs] at hp ha
      have := ih ht _ _ hp ha
      simp only [fill]
      exact ⟨this.1, by omega, this.2.2⟩

theorem addrs_order {ps : List Piece} (h : Pos ps) (dot i j : Nat) (p : Piece) (a b : Nat) (hij : i < j)
    (hp : ps[i]? = some p) (ha : (addrs dot ps)[i]? = some a) (hb : (addrs dot ps)[j]? = some b) :
    a + p.size ≤ b := by
  induction ps generalizing dot i j with
  | nil => simp at hp
  | cons q ps ih =>
    have ht : Pos ps := fun q hq => h q (List.mem_cons_of_mem _ hq)
    obtain ⟨j, rfl⟩ : ∃ k, j = k + 1 := ⟨j - 1, by omega⟩
    have hb' : (addrs (alignUp dot q.align + q.size) ps)[j]? = some b := by
      simpa only [List.getElem?_cons_succ, addrs] using hb
    cases i with
    | zero =>
      simp only [List.getElem?_cons_zero, Option.some.injEq, addrs] at hp ha
      subst hp ha
      have hj : j < ps.length := by
        have := (List.getElem?_eq_some_iff.mp hb').1
        rwa [addrs_length] at this
      exact (addrs_spec ht _ _ _ _ (List.getElem?_eq_getElem hj) hb').2.1
    | succ i =>
      simp only [List.getElem?_cons_succ, addrs] at hp ha
      exact ih ht _ _ _ (by omega) hp ha hb'

theorem foldl_max_ge (ps : List Piece) (a : Nat) :
    a ≤ ps.foldl (fun a p => max a p.align) a ∧
    ∀ p ∈ ps, p.align ≤ ps.foldl (fun a p => max a p.align) a := by
  induction ps generalizing a with
  | nil => exact ⟨Nat.le_refl _, fun p hp => by simp at hp⟩
  | cons q ps ih =>
    obtain ⟨h1, h2⟩ := ih (max a q.align)
    simp only [List.foldl_cons]
    refine ⟨by omega, fun p hp => ?_⟩
    rcases List.mem_cons.mp hp with rfl | hp
    · omega
    · exact h2 p hp

/-- The alignment of an output section is a power of two between 4 and 4096. -/
theorem sectAlign_pow {ps : List Piece} (h : ∀ p ∈ ps, Piece.Valid p) :
    ∃ k, 2 ≤ k ∧ k ≤ 12 ∧ sectAlign ps = 2 ^ k := by
  have key : ∀ (ps : List Piece) (a : Nat), (∀ p ∈ ps, Piece.Valid p) → (∃ k, 2 ≤ k ∧ k ≤ 12 ∧ a = 2 ^ k) →
      ∃ k, 2 ≤ k ∧ k ≤ 12 ∧ ps.foldl (fun a p => max a p.align) a = 2 ^ k := by
    intro ps
    induction ps with
    | nil => exact fun a _ ha => ha
    | cons q ps ih =>
      intro a hv ha
      refine ih _ (fun p hp => hv p (List.mem_cons_of_mem _ hp)) ?_
      obtain ⟨k, k2, k12, rfl⟩ := ha
      obtain ⟨m, m12, hm⟩ := hv q (by simp)
      show ∃ i, 2 ≤ i ∧ i ≤ 12 ∧ max (2 ^ k) q.align = 2 ^ i
      rw [hm]
      rcases Nat.le_total m k with hmk | hmk
      · exact ⟨k, k2, k12, Nat.max_eq_left (Nat.pow_le_pow_right (by decide) hmk)⟩
      · exact ⟨m, by omega, m12, Nat.max_eq_right (Nat.pow_le_pow_right (by decide) hmk)⟩
  exact key ps 4 h ⟨2, by decide, by decide, rfl⟩

theorem pos_of_valid {ps : List Piece} (h : ∀ p ∈ ps, Piece.Valid p) : Pos ps := by
  intro p hp
  obtain ⟨k, -, e⟩ := h p hp
  rw [e]
  exact Nat.two_pow_pos k

/-- An output section starts at a multiple of its alignment, at or behind the location counter. -/
theorem sect_start {ps : List Piece} (h : ∀ p ∈ ps, Piece.Valid p) (dot : Nat) :
    4 ∣ alignUp dot (sectAlign ps) ∧ dot ≤ alignUp dot (sectAlign ps) ∧
    (4096 ∣ dot → alignUp dot (sectAlign ps) = dot) := by
  obtain ⟨k, k2, k12, e⟩ := sectAlign_pow h
  have hp : 0 < sectAlign ps := by rw [e]; exact Nat.two_pow_pos k
  have a := alignUp_spec dot _ hp
  refine ⟨Nat.dvd_trans ?_ a.1, a.2.1, fun hd => alignUp_of_dvd hp (Nat.dvd_trans ?_ hd)⟩
  · rw [e]; exact Nat.pow_dvd_pow 2 k2
  · rw [e]; exact Nat.pow_dvd_pow 2 k12

theorem section_spec {ps : List Piece} (h : ∀ p ∈ ps, Piece.Valid p) (dot : Nat) :
    4 ∣ (section_ dot ps).addr ∧ dot ≤ (section_ dot ps).addr ∧
    (section_ dot ps).stop = fill (section_ dot ps).addr ps ∧
    (section_ dot ps).addr ≤ (section_ dot ps).stop ∧
    (4096 ∣ dot → (section_ dot ps).addr = dot) := by
  obtain ⟨h1, h2, h3⟩ := sect_start h dot
  have hf := fill_ge (pos_of_valid h) (alignUp dot (sectAlign ps))
  refine ⟨h1, h2, ?_, ?_, h3⟩
  · show alignUp dot (sectAlign ps) + (fill (alignUp dot (sectAlign ps)) ps - alignUp dot (sectAlign ps)) = _
    rw [Nat.add_sub_cancel' hf]
    rfl
  · exact Nat.le_add_right _ _

theorem rodata_spec {ps : List Piece} (h : ∀ p ∈ ps, Piece.Valid p) (dot : Nat) :
    4 ∣ (rodataSection dot ps).addr ∧ dot ≤ (rodataSection dot ps).addr ∧
    4 ∣ (rodataSection dot ps).stop ∧ fill (rodataSection dot ps).addr ps ≤ (rodataSection dot ps).stop ∧
    (rodataSection dot ps).addr ≤ (rodataSection dot ps).stop ∧
    (4096 ∣ dot → (rodataSection dot ps).addr = dot) := by
  obtain ⟨h1, h2, h3⟩ := sect_start h dot
  have hf := fill_ge (pos_of_valid h) (alignUp dot (sectAlign ps))
  have ha := alignUp_spec (fill (alignUp dot (sectAlign ps)) ps) 4 (by decide)
  have e : (rodataSection dot ps).stop = alignUp (fill (alignUp dot (sectAlign ps)) ps) 4 := by
    show alignUp dot (sectAlign ps) + (alignUp (fill (alignUp dot (sectAlign ps)) ps) 4
      - alignUp dot (sectAlign ps)) = _
    omega
  refine ⟨h1, h2, ?_, ?_, ?_, h3⟩
  · rw [e]; exact ha.1
  · rw [e]; exact ha.2.1
  · exact Nat.le_add_right _ _

theorem placedIn_of {ps : List Piece} (h : ∀ p ∈ ps, Piece.Valid p) {s : Sect} (hs : fill s.addr ps ≤ s.stop) :
    PlacedIn s ps (addrs s.addr ps) := by
  have hp := pos_of_valid h
  refine ⟨addrs_length _ _, fun i p a h1 h2 => ?_, fun i j p a b hij h1 h2 h3 => ?_⟩
  · obtain ⟨x, y, z⟩ := addrs_spec hp _ _ _ _ h1 h2
    exact ⟨x, y, Nat.le_trans z hs⟩
  · exact addrs_order hp _ _ _ _ _ _ hij h1 h2 h3

end Verif.Model.Link
