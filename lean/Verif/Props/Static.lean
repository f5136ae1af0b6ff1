import Verif.Props.Deep
import Verif.Props.Poly
import Verif.Props.ChooseCycles
import Verif.Props.Whole
import Verif.Spec.Static
/-
  Property C107: a check of the program that is enough for all inputs.
-/
namespace Verif.Props
open Model Spec

/-! ### Possible values -/

theorem Abs.le_has {a b : Abs} {w : Word} (h : a.le b = true) (hw : a.has w = true) : b.has w = true := by
  cases b with
  | any => rfl
  | oneOf vs =>
    cases a with
    | oneOf us =>
      simp only [Abs.le, Abs.has, List.all_eq_true, List.contains_iff_mem] at *
      exact h w hw
    | four => simp [Abs.le] at h
    | below k => simp [Abs.le] at h
    | any => simp [Abs.le] at h
  | four =>
    cases a with
    | oneOf us =>
      simp only [Abs.le, List.all_eq_true] at h
      simp only [Abs.has, List.contains_iff_mem] at hw
      exact h w hw
    | four => exact hw
    | below k => simp [Abs.le] at h
    | any => simp [Abs.le] at h
  | below k =>
    cases a with
    | oneOf us =>
      simp only [Abs.le, List.all_eq_true] at h
      simp only [Abs.has, List.contains_iff_mem] at hw
      exact h w hw
    | four => simp [Abs.le] at h
    | below j =>
      simp only [Abs.le, Abs.has, decide_eq_true_eq] at *
      exact Nat.lt_of_lt_of_le hw (Nat.pow_le_pow_right (by decide) h)
    | any => simp [Abs.le] at h

theorem Abs.div_has {a : Abs} {n : Nat} {w : Word} (h : a.div n = true) (hw : a.has w = true) : w.toNat % n = 0 := by
  cases a with
  | oneOf us =>
    simp only [Abs.div, Abs.has, List.all_eq_true, List.contains_iff_mem, beq_iff_eq] at *
    exact h w hw
  | four =>
    simp only [Abs.div, Abs.has, beq_iff_eq] at *
    exact Nat.mod_eq_zero_of_dvd (Nat.dvd_trans (Nat.dvd_of_mod_eq_zero h) (Nat.dvd_of_mod_eq_zero hw))
  | below k =>
    simp only [Abs.div, beq_iff_eq] at h
    rw [h, Nat.mod_one]
  | any =>
    simp only [Abs.div, beq_iff_eq] at h
    rw [h, Nat.mod_one]

theorem Abs.atLeast_has {a : Abs} {n : Nat} {w : Word} (h : a.atLeast n = true) (hw : a.has w = true) : n ≤ w.toNat := by
  cases a with
  | oneOf us =>
    simp only [Abs.atLeast, Abs.has, List.all_eq_true, List.contains_iff_mem, decide_eq_true_eq] at *
    exact h w hw
  | four => cases h
  | below k => cases h
  | any => cases h

theorem add_mod4 (x y : Word) (hx : x.toNat % 4 = 0) (hy : y.toNat % 4 = 0) : (x + y).toNat % 4 = 0 := by
  rw [BitVec.toNat_add]; omega

theorem ofNat_sum (x y : Word) : BitVec.ofNat 32 (x.toNat + y.toNat) = x + y := by
  apply BitVec.eq_of_toNat_eq
  rw [BitVec.toNat_ofNat, BitVec.toNat_add]

theorem Abs.plus_has {a : Abs} {c w : Word} (hw : a.has w = true) : (a.plus c).has (w + c) = true := by
  cases a with
  | oneOf us =>
    simp only [Abs.plus, Abs.has, List.contains_iff_mem] at *
    exact List.mem_map_of_mem hw
  | four =>
    simp only [Abs.plus]
    split
    · rename_i h
      simp only [Abs.has, beq_iff_eq] at *
      exact add_mod4 _ _ hw h
    · rfl
  | below k => rfl
  | any => rfl

theorem Abs.map_has {a : Abs} {w : Word} (f : Word → Word) (hw : a.has w = true) : (a.map f).has (f w) = true := by
  cases a with
  | oneOf us =>
    simp only [Abs.map, Abs.has, List.contains_iff_mem] at *
    exact List.mem_map_of_mem hw
  | four => rfl
  | below k => rfl
  | any => rfl

theorem shr_lt (w : Word) (k n : Nat) (h : w.toNat < 2 ^ k) (hn : ¬ k ≤ n) : (ShiftOp.eval .srli w n).toNat < 2 ^ (k - n) := by
  show (BitVec.ofNat 32 (w.toNat / 2 ^ n)).toNat < _
  rw [BitVec.toNat_ofNat]
  refine Nat.lt_of_le_of_lt (Nat.mod_le _ _) (Nat.div_lt_of_lt_mul ?_)
  rw [← Nat.pow_add, show n + (k - n) = k by omega]
  exact h

theorem shr_zero (w : Word) (k n : Nat) (h : w.toNat < 2 ^ k) (hn : k ≤ n) : ShiftOp.eval .srli w n = 0#32 := by
  show BitVec.ofNat 32 (w.toNat / 2 ^ n) = _
  rw [Nat.div_eq_of_lt (Nat.lt_of_lt_of_le h (Nat.pow_le_pow_right (by decide) hn))]

theorem Abs.shr_has {a : Abs} {w : Word} (n : Nat) (hw : a.has w = true) : (a.shr n).has (ShiftOp.eval .srli w n) = true := by
  have any_has : (if 32 ≤ n then Abs.oneOf [0#32] else .below (32 - n)).has (ShiftOp.eval .srli w n) = true := by
    split
    · rename_i h
      rw [shr_zero w 32 n w.isLt h]; rfl
    · rename_i h
      exact decide_eq_true (shr_lt w 32 n w.isLt h)
  cases a with
  | oneOf us => exact Abs.map_has (fun x => ShiftOp.eval .srli x n) hw
  | four => exact any_has
  | below k =>
    have hw : w.toNat < 2 ^ k := of_decide_eq_true hw
    simp only [Abs.shr]
    split
    · rename_i h
      rw [shr_zero w k n hw h]; rfl
    · rename_i h
      exact decide_eq_true (shr_lt w k n hw h)
  | any => exact any_has

theorem Abs.map2_has {us vs : List Word} {x y : Word} (f : Word → Word → Word) (hx : (Abs.oneOf us).has x = true) (hy : (Abs.oneOf vs).has y = true) :
    (Abs.map2 f (.oneOf us) (.oneOf vs)).has (f x y) = true := by
  simp only [Abs.map2, Abs.has, List.contains_iff_mem] at *
  exact List.mem_flatMap.mpr ⟨x, hx, List.mem_map_of_mem hy⟩

/-! ### Registers -/

theorem AbsRegs.le_has {A B : AbsRegs} {s : Arch} (h : A.le B = true) (hs : A.has s) : B.has s := by
  intro r
  have := List.all_eq_true.mp h r.toNat (List.mem_range.mpr r.isLt)
  rw [BitVec.ofNat_toNat, BitVec.setWidth_eq] at this
  exact Abs.le_has this (hs r)

theorem AbsRegs.set_has {A : AbsRegs} {s : Arch} {rd : Reg} {a : Abs} {v : Word} (hs : A.has s) (hv : a.has v = true) :
    AbsRegs.has (List.set A rd.toNat a) (s.setX rd v) := by
  intro r
  have := hs r
  unfold AbsRegs.get at *
  rw [Arch.x_setX]
  by_cases h0 : r = 0#5
  · rw [if_pos h0, if_pos h0]; rfl
  · rw [if_neg h0, if_neg h0]
    rw [if_neg h0] at this
    by_cases h : r = rd
    · subst h
      rw [if_pos rfl, List.getD_eq_getElem?_getD, List.getElem?_set_self']
      cases (A : List Abs)[r.toNat]? with
      | none => rfl
      | some _ => exact hv
    · rw [if_neg h, List.getD_eq_getElem?_getD, List.getElem?_set_ne (fun e => h (BitVec.eq_of_toNat_eq e.symm)), ← List.getD_eq_getElem?_getD]
      exact this

theorem has_start (bytes : List Byte) : AbsRegs.has (List.replicate 32 (.oneOf [0#32])) (startState bytes) := by
  intro r
  have e : (startState bytes).x r = 0#32 := by unfold Arch.x startState; split <;> rfl
  rw [e]
  unfold AbsRegs.get
  split
  · rfl
  · rw [List.getD_eq_getElem?_getD, List.getElem?_replicate, if_pos r.isLt]; rfl

theorem has_of_x {A : AbsRegs} {s t : Arch} (hs : A.has s) (h : ∀ r, t.x r = s.x r) : A.has t := fun r => by rw [h]; exact hs r

/-- What an instruction writes is as `writes` says. -/
theorem after_has (base size : Nat) {A : AbsRegs} {s : Arch} (i : Instr) (hs : A.has s) :
    (i.after s.pc A).has (execTest base size i s) := by
  cases i with
  | lui rd imm => exact has_of_x (AbsRegs.set_has hs (v := immU imm) (by simp [Abs.has])) fun r => rfl
  | auipc rd imm => exact has_of_x (AbsRegs.set_has hs (v := s.pc + immU imm) (by simp [Abs.has])) fun r => rfl
  | jal rd imm => exact has_of_x (AbsRegs.set_has hs (v := s.pc + 4#32) (by simp [Abs.has])) fun r => rfl
  | jalr rd rs1 imm => exact has_of_x (AbsRegs.set_has hs (v := s.pc + 4#32) (by simp [Abs.has])) fun r => rfl
  | branch o rs1 rs2 imm =>
    refine has_of_x (s := s) hs fun r => ?_
    show (if o.taken (s.x rs1) (s.x rs2) then _ else _ : Arch).x r = _
    split <;> rfl
  | load o rd rs1 imm => exact has_of_x (AbsRegs.set_has hs (v := o.eval (fun b => s.mem (ramByte base size b)) (s.x rs1 + immI imm)) rfl) fun r => rfl
  | store o rs1 rs2 imm => exact has_of_x hs fun r => rfl
  | opImm o rd rs1 imm =>
    refine has_of_x (s := s.setX rd (o.eval (s.x rs1) (immI imm))) ?_ fun r => rfl
    cases o with
    | addi =>
      refine AbsRegs.set_has hs ?_
      rw [show ImmOp.eval .addi (s.x rs1) (immI imm) = s.x rs1 + immI imm from ofNat_sum _ _]
      exact Abs.plus_has (hs rs1)
    | slti => exact AbsRegs.set_has hs (Abs.map_has (fun x => ImmOp.eval .slti x (immI imm)) (hs rs1))
    | sltiu => exact AbsRegs.set_has hs (Abs.map_has (fun x => ImmOp.eval .sltiu x (immI imm)) (hs rs1))
    | xori => exact AbsRegs.set_has hs (Abs.map_has (fun x => ImmOp.eval .xori x (immI imm)) (hs rs1))
    | ori => exact AbsRegs.set_has hs (Abs.map_has (fun x => ImmOp.eval .ori x (immI imm)) (hs rs1))
    | andi => exact AbsRegs.set_has hs (Abs.map_has (fun x => ImmOp.eval .andi x (immI imm)) (hs rs1))
  | shImm o rd rs1 sh =>
    refine has_of_x (s := s.setX rd (o.eval (s.x rs1) sh.toNat)) ?_ fun r => rfl
    cases o with
    | srli => exact AbsRegs.set_has hs (Abs.shr_has _ (hs rs1))
    | slli =>
      refine AbsRegs.set_has hs ?_
      split
      · rename_i h
        obtain ⟨-, h2, -⟩ := h
        simp only [Abs.has, beq_iff_eq]
        show (BitVec.ofNat 32 ((s.x rs1).toNat * 2 ^ sh.toNat)).toNat % 4 = 0
        rw [BitVec.toNat_ofNat, Nat.mod_mod_of_dvd _ (by decide), show sh.toNat = 2 + (sh.toNat - 2) by omega, Nat.pow_add,
          ← Nat.mul_assoc, Nat.mul_right_comm]
        exact Nat.mul_mod_left _ _
      · exact Abs.map_has (fun x => ShiftOp.eval .slli x sh.toNat) (hs rs1)
    | srai =>
      refine AbsRegs.set_has hs ?_
      rw [if_neg (by rintro ⟨h, -⟩; cases h)]
      exact Abs.map_has (fun x => ShiftOp.eval .srai x sh.toNat) (hs rs1)
  | op o rd rs1 rs2 =>
    refine has_of_x (s := s.setX rd (o.eval (s.x rs1) (s.x rs2))) ?_ fun r => rfl
    refine AbsRegs.set_has hs ?_
    have h1 := hs rs1
    have h2 := hs rs2
    generalize s.x rs1 = x at *
    generalize s.x rs2 = y at *
    generalize A.get rs1 = a at *
    generalize A.get rs2 = b at *
    have key : (if (o = .add) ∧ a.div 4 ∧ b.div 4 then Abs.four else .any).has (o.eval x y) = true := by
      split
      · rename_i h
        obtain ⟨rfl, ha, hb⟩ := h
        simp only [Abs.has, beq_iff_eq]
        rw [show RegOp.eval .add x y = x + y from ofNat_sum _ _]
        exact add_mod4 _ _ (Abs.div_has ha h1) (Abs.div_has hb h2)
      · rfl
    cases a with
    | oneOf us =>
      cases b with
      | oneOf vs => exact Abs.map2_has o.eval h1 h2
      | four => exact key
      | below k => exact key
      | any => exact key
    | four => exact key
    | below k => exact key
    | any => exact key
  | mul o rd rs1 rs2 => exact has_of_x (AbsRegs.set_has hs (v := o.eval (s.x rs1) (s.x rs2)) rfl) fun r => rfl

/-- Execution goes on where `nexts` says. -/
theorem nexts_pc (base size : Nat) (win : Bool) {A : AbsRegs} {s : Arch} (i : Instr) (hs : A.has s) (hc : i.checked win A = true) :
    (execTest base size i s).pc ∈ i.nexts s.pc A := by
  cases i with
  | jal rd imm => exact List.mem_singleton.mpr rfl
  | jalr rd rs1 imm =>
    have h1 := hs rs1
    show ((s.x rs1 + immI imm) &&& ~~~1#32) ∈ _
    simp only [Instr.checked] at hc
    show _ ∈ (match A.get rs1 with
      | .oneOf ws => ws.map fun w => (w + immI imm) &&& ~~~1#32
      | _ => [])
    cases h : A.get rs1 with
    | oneOf ws =>
      rw [h] at h1
      simp only [Abs.has, List.contains_iff_mem] at h1
      exact List.mem_map_of_mem (f := fun w => (w + immI imm) &&& ~~~1#32) h1
    | four => rw [h] at hc; cases hc
    | below k => rw [h] at hc; cases hc
    | any => rw [h] at hc; cases hc
  | branch o rs1 rs2 imm =>
    have h1 := hs rs1
    have h2 := hs rs2
    have hpc : (execTest base size (.branch o rs1 rs2 imm) s).pc = if o.taken (s.x rs1) (s.x rs2) then s.pc + immB imm else s.pc + 4#32 := by
      show (if o.taken (s.x rs1) (s.x rs2) then _ else _ : Arch).pc = _
      split <;> rfl
    rw [hpc]
    show _ ∈ (match A.get rs1, A.get rs2 with
      | .oneOf us, .oneOf vs =>
        (if us.any fun u => vs.any fun v => o.taken u v then [s.pc + immB imm] else []) ++
          if us.any fun u => vs.any fun v => !o.taken u v then [s.pc + 4#32] else []
      | _, _ => [s.pc + immB imm, s.pc + 4#32])
    have key : (if o.taken (s.x rs1) (s.x rs2) then s.pc + immB imm else s.pc + 4#32) ∈ [s.pc + immB imm, s.pc + 4#32] := by
      split
      · exact List.mem_cons_self
      · exact List.mem_cons_of_mem _ (List.mem_singleton.mpr rfl)
    cases ha : A.get rs1 with
    | oneOf us =>
      cases hb : A.get rs2 with
      | oneOf vs =>
        rw [ha] at h1
        rw [hb] at h2
        simp only [Abs.has, List.contains_iff_mem] at h1 h2
        apply List.mem_append.mpr
        by_cases ht : o.taken (s.x rs1) (s.x rs2)
        · left
          rw [if_pos ht, if_pos (List.any_eq_true.mpr ⟨_, h1, List.any_eq_true.mpr ⟨_, h2, decide_eq_true ht⟩⟩)]
          exact List.mem_singleton.mpr rfl
        · right
          rw [if_neg ht, if_pos (List.any_eq_true.mpr ⟨_, h1, List.any_eq_true.mpr ⟨_, h2, by rw [decide_eq_false ht]; rfl⟩⟩)]
          exact List.mem_singleton.mpr rfl
      | four => exact key
      | below k => exact key
      | any => exact key
    | four => exact key
    | below k => exact key
    | any => exact key
  | _ => exact List.mem_singleton.mpr rfl

/-- A target is one of `nexts`. -/
theorem target_nexts (win : Bool) {A : AbsRegs} {s : Arch} {t : Word} (i : Instr) (hs : A.has s) (hc : i.checked win A = true)
    (h : i.jumpsTo s = some t) : t ∈ i.nexts s.pc A := by
  have hp := nexts_pc ramBase 4096 win i hs hc
  suffices e : (execTest ramBase 4096 i s).pc = t by rw [← e]; exact hp
  cases i with
  | jal rd imm => exact Option.some.inj h
  | jalr rd rs1 imm => exact Option.some.inj h
  | branch o rs1 rs2 imm =>
    simp only [Instr.jumpsTo] at h
    show (if o.taken (s.x rs1) (s.x rs2) then _ else _ : Arch).pc = t
    by_cases ht : o.taken (s.x rs1) (s.x rs2)
    · rw [if_pos ht] at h ⊢
      exact Option.some.inj h
    · rw [if_neg ht] at h
      cases h
  | _ => cases h

/-- A checked instruction is not refused for its alignment or a division and is the same on both VMs. -/
theorem checked_fine (win : Bool) {A : AbsRegs} {s : Arch} (i : Instr) (hs : A.has s) (hc : i.checked win A = true) :
    ¬ i.badAlign s ∧ ¬ i.badDivision s ∧ sameStep i s ∧ (win = true → ¬ i.belowWindow s ramBase) := by
  have none_below : i.access s = none → ¬ i.belowWindow s ramBase := by
    rintro h ⟨a, n, e, -⟩
    rw [h] at e; cases e
  cases i with
  | load o rd rs1 imm =>
    have ha := Abs.plus_has (c := immI imm) (hs rs1)
    simp only [Instr.checked, Bool.and_eq_true, Bool.or_eq_true, beq_iff_eq, bne_iff_ne, Bool.not_eq_true'] at hc
    obtain ⟨⟨h1, h2⟩, h3⟩ := hc
    refine ⟨fun h => h (Abs.div_has h1 ha), id, ?_, ?_⟩
    · show rd = 0#5 ∨ sameLoad o _ (s.x rs1 + immI imm)
      rcases h2 with (h2 | rfl) | ⟨h2, h4⟩
      · exact Or.inl h2
      · exact Or.inr trivial
      · have h0 := Abs.div_has h4 ha
        have e : (s.x rs1 + immI imm) - BitVec.ofNat 32 ((s.x rs1 + immI imm).toNat % 4) = s.x rs1 + immI imm := by rw [h0]; simp
        right
        unfold sameLoad
        rw [e]
        cases o with
        | lb => exact absurd rfl h2
        | lbu => rfl
        | lh => exact ⟨rfl, rfl⟩
        | lhu => exact ⟨rfl, rfl⟩
        | lw => trivial
    · rintro hw ⟨a, n, e, hlt⟩
      cases e
      rcases h3 with h3 | h3
      · rw [hw] at h3; cases h3
      · exact absurd hlt (Nat.not_lt.mpr (Abs.atLeast_has h3 ha))
  | store o rs1 rs2 imm =>
    have ha := Abs.plus_has (c := immI imm) (hs rs1)
    simp only [Instr.checked, Bool.and_eq_true, Bool.or_eq_true, Bool.not_eq_true'] at hc
    obtain ⟨h1, h3⟩ := hc
    have h0 := Abs.div_has h1 ha
    refine ⟨?_, id, ?_, ?_⟩
    · cases o with
      | sb => exact fun h => h (Nat.mod_one _)
      | sh =>
        intro h
        have h : (s.x rs1 + immI imm).toNat % 4 = 3 := h
        have h0 : (s.x rs1 + immI imm).toNat % 2 = 0 := h0
        omega
      | sw => exact fun h => h h0
    · cases o with
      | sb => trivial
      | sh => exact Or.inl h0
      | sw => trivial
    · rintro hw ⟨a, n, e, hlt⟩
      cases e
      rcases h3 with h3 | h3
      · rw [hw] at h3; cases h3
      · exact absurd hlt (Nat.not_lt.mpr (Abs.atLeast_has h3 ha))
  | jal rd imm => exact ⟨id, id, of_decide_eq_true (p := -2 ^ 18 ≤ imm.toInt ∧ imm.toInt < 2 ^ 18) hc, fun _ => none_below rfl⟩
  | mul o rd rs1 rs2 => cases hc
  | _ => exact ⟨id, id, trivial, fun _ => none_below rfl⟩

/-! ### Runs -/

/-- The registers are as the table says. -/
def InTable (T : Table) (s : Arch) : Prop := s.pc.toNat % 4 = 0 ∧ ∃ A, T[s.pc.toNat / 4]? = some (some A) ∧ A.has s

theorem covers_in {T : Table} {A : AbsRegs} {s : Arch} (h : T.covers A s.pc = true) (hs : A.has s) : InTable T s := by
  unfold Table.covers at h
  simp only [Bool.and_eq_true, beq_iff_eq] at h
  refine ⟨h.1, ?_⟩
  have h2 := h.2
  cases e : T[s.pc.toNat / 4]? with
  | none => rw [e] at h2; cases h2
  | some x =>
    cases x with
    | none => rw [e] at h2; cases h2
    | some B => rw [e] at h2; exact ⟨B, rfl, AbsRegs.le_has h2 hs⟩

theorem covers_mod {T : Table} {A : AbsRegs} {pc : Word} (h : T.covers A pc = true) : pc.toNat % 4 = 0 := by
  unfold Table.covers at h
  simp only [Bool.and_eq_true, beq_iff_eq] at h
  exact h.1

theorem text_length {code : List Instr} {words : List Word} {T : Table} (h : T.text code words = true) : words.length = code.length := by
  unfold Table.text at h
  simp only [Bool.and_eq_true, beq_iff_eq] at h
  exact h.1

theorem text_self (code : List Instr) (T : Table) : T.text code (code.map encode) = true := by
  unfold Table.text
  simp only [Bool.and_eq_true, beq_iff_eq, List.length_map, List.all_eq_true, true_and]
  intro k _
  split
  · rw [List.getElem?_map]
    exact beq_self_eq_true _
  · rfl

theorem code_fetch {code : List Instr} {words : List Word} {T : Table} {rom : List Byte} {fetch : Word → Option Instr}
    (hrom : rom = wordBytes words) (htx : T.text code words = true) (hf : FetchTest rom fetch) {s : Arch} {i : Instr} (hs : InTable T s)
    (hi : code[s.pc.toNat / 4]? = some i) : fetch s.pc = some i := by
  obtain ⟨h4, A, hA, -⟩ := hs
  have hk : s.pc.toNat / 4 < code.length := (List.getElem?_eq_some_iff.mp hi).1
  have hw : words[s.pc.toNat / 4]? = some (encode i) := by
    unfold Table.text at htx
    simp only [Bool.and_eq_true, List.all_eq_true, List.mem_range] at htx
    have := htx.2 _ hk
    rw [hA, hi] at this
    exact eq_of_beq this
  refine (hf _ _).mpr ⟨h4, encode i, ?_, .own _⟩
  intro j hj
  have hl : rom.length = 4 * code.length := by rw [hrom, wordBytes_length, text_length htx]
  rw [hl, Nat.mod_eq_of_lt (by omega), hrom, wordBytes_get, show (s.pc.toNat + j) / 4 = s.pc.toNat / 4 by omega,
    show (s.pc.toNat + j) % 4 = j by omega, hw]
  rfl

/-- One step from a state in the table. -/
theorem table_step {code : List Instr} {words : List Word} {T : Table} {win : Bool} {rom : List Byte} {fetch : Word → Option Instr}
    (hc : checkProgram win code T = true) (hlen : code.length < 2 ^ 30) (hrom : rom = wordBytes words)
    (htx : T.text code words = true) (hf : FetchTest rom fetch)
    {s : Arch} (hs : InTable T s) :
    ∃ i, fetch s.pc = some i ∧ s.pc.toNat < rom.length ∧ ¬ i.badJump s ∧ ¬ i.badAlign s ∧ ¬ i.badDivision s ∧ ¬ i.fallsOff s ∧ sameStep i s ∧
      (win = true → ¬ i.belowWindow s ramBase) ∧ InTable T (execTest ramBase 4096 i s) := by
  have hin := hs
  obtain ⟨h4, A, hA, hs⟩ := hs
  unfold checkProgram at hc
  simp only [Bool.and_eq_true, beq_iff_eq, List.all_eq_true, List.mem_range] at hc
  obtain ⟨⟨hl, -⟩, hall⟩ := hc
  have hk : s.pc.toNat / 4 < code.length := by rw [← hl]; exact (List.getElem?_eq_some_iff.mp hA).1
  have hi := List.getElem?_eq_getElem hk
  have hk' := hall _ hk
  have epc : BitVec.ofNat 32 (4 * (s.pc.toNat / 4)) = s.pc := by
    rw [show 4 * (s.pc.toNat / 4) = s.pc.toNat by omega, BitVec.ofNat_toNat, BitVec.setWidth_eq]
  rw [hi, hA, epc] at hk'
  simp only [Bool.and_eq_true, List.all_eq_true] at hk'
  obtain ⟨hck, hnx⟩ := hk'
  generalize code[s.pc.toNat / 4] = i at *
  obtain ⟨f1, f2, f3, f4⟩ := checked_fine win i hs hck
  refine ⟨i, code_fetch hrom htx hf hin hi, ?_, ?_, f1, f2, ?_, f3, f4, covers_in (hnx _ (nexts_pc _ _ win i hs hck)) (after_has _ _ i hs)⟩
  · rw [hrom, wordBytes_length, text_length htx]; omega
  · rintro ⟨t, ht, hbad⟩
    exact hbad (covers_mod (hnx _ (target_nexts win i hs hck ht)))
  · rintro ⟨-, h⟩
    omega

/-- What C99 asks of every step. -/
def bothOk (chk : Bool) (len : Nat) (i : Instr) (s : Arch) : Prop := (¬ stuck i s chk ramBase ∧ s.pc.toNat < len) ∧ sameStep i s

/-- With the window checked, or in a release build, the program runs for any number of steps. -/
theorem table_runs {code : List Instr} {words : List Word} {T : Table} {win chk : Bool} {rom : List Byte} {fetch : Word → Option Instr}
    (hc : checkProgram win code T = true) (hlen : code.length < 2 ^ 30) (hrom : rom = wordBytes words)
    (htx : T.text code words = true) (hf : FetchTest rom fetch)
    (hw : chk = true → win = true) (n : Nat) : ∀ {s : Arch}, InTable T s → ∃ s', RunsIf fetch (bothOk chk rom.length) (execTest ramBase 4096) n s s' := by
  induction n with
  | zero => exact fun _ => ⟨_, .zero _⟩
  | succ n ih =>
    intro s hs
    obtain ⟨i, h1, h2, h3, h4, h5, h6, h7, h8, h9⟩ := table_step hc hlen hrom htx hf hs
    obtain ⟨s', hr⟩ := ih h9
    refine ⟨s', .succ h1 ⟨⟨?_, h2⟩, h7⟩ hr⟩
    rintro (h | h | h | ⟨h, h' | h'⟩)
    · exact h3 h
    · exact h4 h
    · exact h5 h
    · exact h8 (hw h) h'
    · exact h6 h'

/-- In any case a run of the test VM is one of both. -/
theorem table_keeps {code : List Instr} {words : List Word} {T : Table} {win chk : Bool} {rom : List Byte} {fetch : Word → Option Instr}
    (hc : checkProgram win code T = true) (hlen : code.length < 2 ^ 30) (hrom : rom = wordBytes words)
    (htx : T.text code words = true) (hf : FetchTest rom fetch)
    {n : Nat} {s s' : Arch} (hr : RunsIf fetch (fun i s => ¬ stuck i s chk ramBase) (execTest ramBase 4096) n s s') (hs : InTable T s) :
    RunsIf fetch (bothOk chk rom.length) (execTest ramBase 4096) n s s' := by
  induction hr with
  | zero s => exact .zero s
  | succ hfi hok _ ih =>
    obtain ⟨i, h1, h2, -, -, -, -, h7, -, h9⟩ := table_step hc hlen hrom htx hf hs
    cases Option.some.inj (h1.symm.trans hfi)
    exact .succ hfi ⟨⟨hok, h2⟩, h7⟩ (ih h9)

theorem start_in {code : List Instr} {T : Table} {win : Bool} (hc : checkProgram win code T = true) (bytes : List Byte) :
    InTable T (startState bytes) := by
  unfold checkProgram at hc
  simp only [Bool.and_eq_true] at hc
  exact covers_in hc.1.2 (has_start bytes)

/-! ### The property -/

/-- A program that passes the check, in a debug build that with `win`: for every input and number of cycles both VMs can be set up, neither stops,
and they return the same output. -/
theorem C107_complete (F : Fhe) (rand : Nat → Nat → Nat → F.C.Rand) (chk dbg win : Bool) (threads n : Nat) (e : Elf) (p : Phantom)
    (code : List Instr) (T : Table) (tape : List Byte) (hfile : e.bytes.length < 2 ^ 63) (hp : Phantom.fromElf e = some p) (ht : 0 < threads)
    (hn : n < 2 ^ 32) (words : List Word) (hrom : p.bootRom.data = wordBytes words) (htx : T.text code words = true)
    (hne : code ≠ []) (hsize : code.length < 2 ^ 30)
    (hpa : (Parser.new.addAll dbg words).isSome = true) (hbase : p.bootRam.offset = ramBase) (hlen : tape.length = p.input.size)
    (hlo : ramBase ≤ p.input.startAddr) (hhi : p.input.startAddr + p.input.size ≤ ramBase + 4096)
    (hb : ramBase ≤ p.output.startAddr) (he : p.output.startAddr + p.output.size ≤ ramBase + 4096)
    (hc : checkProgram win code T = true) (hw : chk = true → win = true) :
    ∃ out, Host.bothTapes F.C rand F.decU F.decP chk dbg false threads p tape n = some out := by
  have hl : p.bootRom.data.length = 4 * code.length := by rw [hrom, wordBytes_length, text_length htx]
  obtain ⟨q, hq⟩ := Option.isSome_iff_exists.mp hpa
  obtain ⟨ev, hev⟩ := C42_setup F rand dbg false threads n e p tape q hp (by omega)
    (fun h => by rw [h] at hl; rw [List.length_nil] at hl; exact hne (List.length_eq_zero_iff.mp (by omega)))
    (by rw [hrom, packWords_wordBytes]; exact hq) hlen (by rw [hbase]; exact hlo) (by rw [hbase]; exact hhi)
  obtain ⟨fetch, bytes, hf, -, hall⟩ := C99_output F rand chk dbg threads n e p tape ev hfile hp ht hn hev hbase hlen hlo hhi hb he
  obtain ⟨s', hr⟩ := table_runs hc hsize hrom htx hf hw n (start_in hc bytes)
  obtain ⟨vm0, vm1, vm2, ev2, h1, h2, h3, h4, h5, h6⟩ := hall s' hr
  exact ⟨_, (C74_equal _ _ _ _ _ _ _ _ _ _ _ _).mpr ⟨⟨ev, ev2, hev, h4, h6⟩, vm0, vm1, vm2, h1, h2, h3, h5⟩⟩

/-- A program that passes the check without `win`, in any build: on every input on which the test VM gets to the end, the encrypted VM
returns the test VM's output. -/
theorem C107_agree (F : Fhe) (rand : Nat → Nat → Nat → F.C.Rand) (chk dbg win : Bool) (threads n : Nat) (e : Elf) (p : Phantom)
    (code : List Instr) (T : Table) (tape : List Byte) (hfile : e.bytes.length < 2 ^ 63) (hp : Phantom.fromElf e = some p) (ht : 0 < threads)
    (hn : n < 2 ^ 32) (words : List Word) (hrom : p.bootRom.data = wordBytes words) (htx : T.text code words = true)
    (hne : code ≠ []) (hsize : code.length < 2 ^ 30)
    (hpa : (Parser.new.addAll dbg words).isSome = true) (hbase : p.bootRam.offset = ramBase) (hlen : tape.length = p.input.size)
    (hlo : ramBase ≤ p.input.startAddr) (hhi : p.input.startAddr + p.input.size ≤ ramBase + 4096)
    (hb : ramBase ≤ p.output.startAddr) (he : p.output.startAddr + p.output.size ≤ ramBase + 4096)
    (hc : checkProgram win code T = true) (vm0 vm1 vm2 : TestVM) (h0 : p.testVm chk n = some vm0) (h1 : vm0.readInputTape chk tape = some vm1)
    (h2 : vm1.execute chk = some vm2) :
    ∃ out, vm2.outputTape chk = some out ∧ Host.bothTapes F.C rand F.decU F.decP chk dbg false threads p tape n = some out := by
  have hl : p.bootRom.data.length = 4 * code.length := by rw [hrom, wordBytes_length, text_length htx]
  obtain ⟨q, hq⟩ := Option.isSome_iff_exists.mp hpa
  obtain ⟨ev, hev⟩ := C42_setup F rand dbg false threads n e p tape q hp (by omega)
    (fun h => by rw [h] at hl; rw [List.length_nil] at hl; exact hne (List.length_eq_zero_iff.mp (by omega)))
    (by rw [hrom, packWords_wordBytes]; exact hq) hlen (by rw [hbase]; exact hlo) (by rw [hbase]; exact hhi)
  obtain ⟨fetch, bytes, hf, hin, hall⟩ := C99_output F rand chk dbg threads n e p tape ev hfile hp ht hn hev hbase hlen hlo hhi hb he
  obtain ⟨ft, bytes', u0, u1, hft, hin', g0, g1, -, hx⟩ := C97_testvm chk n e p tape hfile hp hbase hlen hlo hhi hb he
  cases Option.some.inj (g0.symm.trans h0)
  cases Option.some.inj (g1.symm.trans h1)
  obtain ⟨s', hr, ho⟩ := hx vm2 h2
  cases placed_unique hin' hin
  have hsame : ft = fetch := by
    funext pc
    exact Option.ext fun i => (hft pc i).trans (hf pc i).symm
  rw [hsame] at hr
  obtain ⟨_, _, _, ev2, k1, k2, k3, k4, k5, k6⟩ := hall s' (table_keeps hc hsize hrom htx hf hr (start_in hc _))
  cases Option.some.inj (k1.symm.trans h0)
  cases Option.some.inj (k2.symm.trans h1)
  cases Option.some.inj (k3.symm.trans h2)
  exact ⟨_, k5, (C74_equal _ _ _ _ _ _ _ _ _ _ _ _).mpr ⟨⟨ev, ev2, hev, k4, k6⟩, _, _, _, k1, k2, k3, k5⟩⟩

/-- For a file of a program and its data as in C88. -/
theorem C107_assembled (F : Fhe) (rand : Nat → Nat → Nat → F.C.Rand) (chk dbg win : Bool) (threads n : Nat) (code : List Instr) (data tape : List Byte)
    (inSize outOff outSize : Nat) (T : Table) (ht : 0 < threads) (hn : n < 2 ^ 32) (hne : code ≠ []) (hsize : code.length ≤ 2 ^ 16)
    (hpa : (Parser.new.addAll dbg (code.map encode)).isSome = true) (hd0 : 0 < data.length) (hd : data.length ≤ 4096) (hlen : tape.length = inSize)
    (hin : inSize ≤ 4096) (ho : outOff + outSize ≤ 4096) (hc : checkProgram win code T = true) (hw : chk = true → win = true) :
    ∃ out, Host.bothTapes F.C rand F.decU F.decP chk dbg false threads (asmImage code data inSize outOff outSize) tape n = some out :=
  C107_complete F rand chk dbg win threads n (asmElf code data inSize outOff outSize) (asmImage code data inSize outOff outSize) code T tape
    (by
      show (wordBytes (code.map encode) ++ data).length < _
      rw [List.length_append, wordBytes_length, List.length_map]
      omega)
    (asm_elf code data inSize outOff outSize hd0 hd) ht hn _ rfl (text_self _ _) hne (by omega) hpa rfl hlen (Nat.le_refl _)
    (Nat.add_le_add_left hin _) (Nat.le_add_right _ _) (by show 0x40000 + outOff + outSize ≤ 0x40000 + 4096; omega) hc hw

/-! ### Programs that pass -/

-- with the accesses in the RAM: uniswap and the program of `ChooseCycles`, which only have constant addresses
theorem amm_checked : checkProgram true amm (tableOf amm 4) = true := by decide +kernel
theorem down_checked : checkProgram true downCode (tableOf downCode 4) = true := by decide +kernel
-- without: guests with addresses that are computed, `deepCode` that writes below the RAM with some inputs (C106), template, guest-test1
-- and string-match with a word for each character
theorem deep_checked : checkProgram false deepCode (tableOf deepCode 6) = true := by decide +kernel
theorem poly_checked : checkProgram false poly (tableOf poly 12) = true := by decide +kernel
theorem sums_checked : checkProgram false sums (tableOf sums 6) = true := by decide +kernel
example : checkProgram false (matcher .lw 4) (tableOf (matcher .lw 4) 6) = true := by decide +kernel
-- not passed: `deepCode` with the accesses in the RAM, string-match with a load of a byte at any address
example : checkProgram true deepCode (tableOf deepCode 6) = false := by decide +kernel
example : checkProgram false (matcher .lbu 1) (tableOf (matcher .lbu 1) 6) = false := by decide +kernel

/-- The text of a linked program (`programWords`), with something else for the two `unimp`, which are not reached. -/
def linkedCode (gp sp : Word) (code : List Instr) : List Instr :=
  [.auipc 3 (Boot.hi20 gp), .opImm .addi 3 3 (Boot.lo12 gp), .auipc 2 (Boot.hi20 (sp - 8#32)), .opImm .addi 2 2 (Boot.lo12 (sp - 8#32)),
    .opImm .addi 8 2 0, .branch .bge 0 10 4, .jal 0 0, .jal 1 (Boot.jumpField 8#32), .jal 0 0] ++ tailCall ++ code

/-- The linked file of uniswap (C89). -/
def ammLinked : List Instr := linkedCode (BitVec.ofNat 32 ammLayout.gp) (BitVec.ofNat 32 ammLayout.stackStart) amm

theorem linked_checked : checkProgram true ammLinked (tableOf ammLinked 4) = true := by decide +kernel
theorem linked_text : (tableOf ammLinked 4).text ammLinked ammText = true := by decide +kernel

-- the words that are not reached can be any, others not
example : (tableOf ammLinked 4).text ammLinked (ammText.set 6 0#32) = true := by decide +kernel
example : (tableOf ammLinked 4).text ammLinked (ammText.set 7 0#32) = false := by decide +kernel
example : (tableOf ammLinked 4).text ammLinked (ammText.take 69) = false := by decide +kernel

-- the theorem applies: every image that a loader makes of that file
example (F : Fhe) (rand : Nat → Nat → Nat → F.C.Rand) (chk dbg : Bool) (n : Nat) (hn : n < 2 ^ 32) (e : Elf) (p : Phantom)
    (hfile : e.bytes.length < 2 ^ 63) (hp : Phantom.fromElf e = some p) (hl : AmmLoaded p) (tape : List Byte) (h : tape.length = 24) :
    ∃ out, Host.bothTapes F.C rand F.decU F.decP chk dbg false 32 p tape n = some out :=
  C107_complete F rand chk dbg true 32 n e p ammLinked _ tape hfile hp (by decide) hn ammText hl.rom linked_text (by decide +kernel)
    (by decide +kernel) (by cases dbg <;> decide +kernel) hl.base (by rw [hl.input]; exact h) (by rw [hl.input]; decide) (by rw [hl.input]; decide)
    (by rw [hl.output]; decide) (by rw [hl.output]; decide) linked_checked fun _ => rfl
-- every build, every tape and every number of cycles
example (F : Fhe) (rand : Nat → Nat → Nat → F.C.Rand) (chk dbg : Bool) (n : Nat) (hn : n < 2 ^ 32) (tape : List Byte) (h : tape.length = 24) :
    ∃ out, Host.bothTapes F.C rand F.decU F.decP chk dbg false 32 ammImage tape n = some out :=
  C107_assembled F rand chk dbg true 32 n amm _ tape 24 24 16 _ (by decide) hn (by decide) (by decide) (by cases dbg <;> decide +kernel)
    (by decide) (by decide) h (by decide) (by decide) amm_checked fun _ => rfl
-- a release build
example (F : Fhe) (rand : Nat → Nat → Nat → F.C.Rand) (dbg : Bool) (n : Nat) (hn : n < 2 ^ 32) (tape : List Byte) (h : tape.length = 4) :
    ∃ out, Host.bothTapes F.C rand F.decU F.decP false dbg false 32 polyImage tape n = some out :=
  C107_assembled F rand false dbg false 32 n poly _ tape 4 4 4 _ (by decide) hn (by decide) (by decide) (by cases dbg <;> decide +kernel)
    (by decide) (by decide) h (by decide) (by decide) poly_checked fun h => by cases h
example (F : Fhe) (rand : Nat → Nat → Nat → F.C.Rand) (dbg : Bool) (n : Nat) (hn : n < 2 ^ 32) (tape : List Byte) (h : tape.length = 4) :
    ∃ out, Host.bothTapes F.C rand F.decU F.decP false dbg false 32 deepGuest tape n = some out :=
  C107_assembled F rand false dbg false 32 n deepCode _ tape 4 4 4 _ (by decide) hn (by decide) (by decide) (by cases dbg <;> decide +kernel)
    (by decide) (by decide) h (by decide) (by decide) deep_checked fun h => by cases h
-- a debug build in which the test VM gets to the end
example (F : Fhe) (rand : Nat → Nat → Nat → F.C.Rand) (vm0 vm1 vm2 : TestVM) (h0 : deepGuest.testVm true 6000 = some vm0)
    (h1 : vm0.readInputTape true (fourBytes 1022#32) = some vm1) (h2 : vm1.execute true = some vm2) :
    ∃ out, vm2.outputTape true = some out ∧
      Host.bothTapes F.C rand F.decU F.decP true true false 32 deepGuest (fourBytes 1022#32) 6000 = some out :=
  C107_agree F rand true true false 32 6000 deepElf deepGuest deepCode _ (fourBytes 1022#32) (by decide +kernel)
    (asm_elf _ _ _ _ _ (by decide) (by decide)) (by decide) (by decide) _ rfl (text_self _ _) (by decide) (by decide)
    (by decide +kernel) rfl rfl (by decide) (by decide) (by decide) (by decide) deep_checked vm0 vm1 vm2 h0 h1 h2

end Verif.Props
