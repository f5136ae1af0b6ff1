import Verif.Spec.MirrorState
import Verif.Lemmas.Mirror
import Verif.Props.Alu
/-
  Helper lemmas: a cycle of the interpreter, compared with the manual.
-/
namespace Verif
open Spec Model Props

/-- Program memory entry of an instruction. -/
def entry (i : Instr) : Decoded :=
  { imm := romImm i, rs1 := (operands i).2.1.setWidth 32, rs2 := (operands i).1.setWidth 32
    rd := (operands i).2.2.setWidth 32
    rdu := (expectedRd i).id, mu := (expectedRam i).id, pcu := (expectedPc i).id }

theorem decodeWord_encode (dbg : Bool) (i : Instr) : decodeWord dbg (encode i) = some (entry i) := by
  unfold decodeWord
  rw [C01_imm_legal, C05_registers_legal, C05_opid_legal]
  rfl

theorem reg_toNat (r : Reg) : (r.setWidth 32).toNat = r.toNat := by
  have := r.isLt
  rw [BitVec.toNat_setWidth]; omega

theorem List.set_getElem?_self' {α : Type} {l : List α} {n : Nat} {v : α} (h : l[n]? = some v) : l.set n v = l := by
  apply List.ext_getElem?
  intro k
  rw [List.getElem?_set]
  by_cases hk : n = k
  · subst hk; rw [if_pos rfl, h, if_pos (List.getElem?_eq_some_iff.mp h).1]
  · rw [if_neg hk]

/-! ### Values -/

theorem evalPlain_total (o : RdUpdate) (ho : o ∈ rdUpdateRv32iOpList) (imm a b pc v : U32) :
    ∃ r, o.evalPlain imm a b pc v = some r := by
  cases o <;> first
    | exact ⟨_, rfl⟩
    | exact ⟨_, sext7 v⟩
    | exact ⟨_, sext15 v⟩
    | exact absurd ho (by decide)

theorem expectedRd_mem (i : Instr) (h : ∀ o rd rs1 rs2, i ≠ .mul o rd rs1 rs2) :
    expectedRd i ∈ rdUpdateRv32iOpList := by
  cases i with
  | mul o a b c => exact absurd rfl (h o a b c)
  | load o _ _ _ => cases o <;> simp [expectedRd, rdUpdateRv32iOpList]
  | opImm o _ _ _ => cases o <;> simp [expectedRd, rdUpdateRv32iOpList]
  | shImm o _ _ _ => cases o <;> simp [expectedRd, rdUpdateRv32iOpList]
  | op o _ _ _ => cases o <;> simp [expectedRd, rdUpdateRv32iOpList]
  | _ => simp [expectedRd, rdUpdateRv32iOpList]

/-- The register `exec` writes is `rd`. -/
theorem exec_x (i : Instr) (s : Arch) (v : Word)
    (hv : (operands i).2.2 ≠ 0#5 → v = (exec i s).reg (operands i).2.2) (r : Reg) :
    (exec i s).x r = (s.setX (operands i).2.2 v).x r := by
  have key : ∀ (rd : Reg) (u : Word) (t : Arch), (rd ≠ 0#5 → v = t.reg rd) → (∀ k, t.reg k = (s.setX rd u).reg k) →
      t.x r = (s.setX rd v).x r := by
    intro rd u t h1 h2
    unfold Arch.x
    by_cases h : r = 0#5
    · rw [if_pos h, if_pos h]
    · rw [if_neg h, if_neg h, h2]
      simp only [Arch.setX]
      by_cases e : r = rd ∧ rd ≠ 0#5
      · rw [if_pos e, if_pos e, h1 e.2, h2]
        simp only [Arch.setX]
        rw [if_pos ⟨trivial, e.2⟩]
      · rw [if_neg e, if_neg e]
  have zero : ∀ (t : Arch), (∀ k, t.reg k = s.reg k) → t.x r = (s.setX 0#5 v).x r := by
    intro t h2
    unfold Arch.x
    rw [h2]
    simp [Arch.setX]
  cases i with
  | branch o rs1 rs2 imm =>
    refine zero _ (fun k => ?_)
    simp only [exec]; split <;> rfl
  | store o rs1 rs2 imm => exact zero _ (fun k => rfl)
  | lui rd imm => exact key rd _ _ hv (fun k => rfl)
  | auipc rd imm => exact key rd _ _ hv (fun k => rfl)
  | jal rd imm => exact key rd _ _ hv (fun k => rfl)
  | jalr rd rs1 imm => exact key rd _ _ hv (fun k => rfl)
  | load o rd rs1 imm => exact key rd _ _ hv (fun k => rfl)
  | opImm o rd rs1 imm => exact key rd _ _ hv (fun k => rfl)
  | shImm o rd rs1 sh => exact key rd _ _ hv (fun k => rfl)
  | op o rd rs1 rs2 => exact key rd _ _ hv (fun k => rfl)
  | mul o rd rs1 rs2 => exact key rd _ _ hv (fun k => rfl)

theorem exec_mem (i : Instr) (s : Arch) (h : ∀ o a b m, i ≠ .store o a b m) : (exec i s).mem = s.mem := by
  cases i with
  | store o a b m => exact absurd rfl (h o a b m)
  | branch o a b m => simp only [exec]; split <;> rfl
  | _ => rfl

/-- Address the interpreter computes in every cycle, relative to the start of the RAM. -/
def cycleAddr (i : Instr) (s : Arch) : Word := romImm i + s.x (operands i).2.1 - 0x40000#32

/-- Index of the RAM word of an access in the window, and offset in it. -/
theorem access_index (a imm : Word) (n size : Nat) (hn : 0 < n) (hw : ramBase ≤ (a + imm).toNat ∧ (a + imm).toNat + n ≤ ramBase + size)
    (ht : ramBase + size ≤ 2 ^ 32) :
    (imm + a - 0x40000#32).toNat = (a + imm).toNat - ramBase := by
  rw [BitVec.add_comm imm a]
  generalize a + imm = x at hw ⊢
  have := x.isLt
  unfold ramBase at *
  rw [BitVec.toNat_sub]; simp; omega

theorem and3 (x : Word) : x &&& 3#32 = BitVec.ofNat 32 (x.toNat % 4) := by
  apply BitVec.eq_of_toNat_eq
  rw [BitVec.toNat_and, BitVec.toNat_ofNat (x.toNat % 4)]
  have : x.toNat &&& (3#32).toNat = x.toNat % 4 := Nat.and_two_pow_sub_one_eq_mod _ 2
  rw [this]; omega

section
variable {d : Debug} {s : Arch} (hw : d.WF) (hs : d.Shows s)
include hw hs

theorem Model.Debug.Shows.regs_set (rd : Reg) (v : Word) (r : Reg) :
    ((d.registers.set rd.toNat v).set 0 0#32)[r.toNat]? = some ((s.setX rd v).x r) := by
  have hr := r.isLt
  have hd := rd.isLt
  have hl := hw.regs
  have e : (s.setX rd v).x r = if r = 0#5 then 0#32 else if r = rd then v else s.x r := by
    unfold Arch.setX Arch.x
    by_cases h0 : r = 0#5
    · simp [h0]
    · by_cases h : r = rd
      · subst h; simp [h0]
      · simp [h0, h]
  rw [e, List.getElem?_set, List.getElem?_set]
  by_cases h0 : r = 0#5
  · subst h0; simp [hl]
  · have h0' : ¬ 0 = r.toNat := fun h => h0 (BitVec.eq_of_toNat_eq h.symm)
    by_cases h : r = rd
    · subst h; simp [h0', h0, hl]; omega
    · have h' : ¬ rd.toNat = r.toNat := fun e => h (BitVec.eq_of_toNat_eq e.symm)
      simp [h0', h0, h, h', hs.reg r]

/-- The word at a multiple of four in the window. -/
theorem Model.Debug.Shows.wordAt (a : Word) (h4 : a.toNat % 4 = 0) (hb : ramBase ≤ a.toNat)
    (v : U32) (hv : d.ram[(a.toNat - ramBase) / 4]? = some v) : WordAt s.mem a v := by
  have h := hs.mem _ v hv
  have e : ramBase + 4 * ((a.toNat - ramBase) / 4) = a.toNat := by unfold ramBase at *; omega
  rw [e] at h
  have e0 : BitVec.ofNat 32 a.toNat = a := by simp
  have e1 : ∀ j, BitVec.ofNat 32 (a.toNat + j) = a + BitVec.ofNat 32 j := fun j => by
    apply BitVec.eq_of_toNat_eq; simp [BitVec.toNat_add]
  have h0 := h 0 (by omega)
  have h1 := h 1 (by omega)
  have h2 := h 2 (by omega)
  have h3 := h 3 (by omega)
  rw [e1] at h0 h1 h2 h3
  exact ⟨by simpa using h0, h1, h2, h3⟩

/-- Value of the destination register. -/
theorem Model.Debug.Shows.rdVal (i : Instr) (hi : i.supported s)
    (hwin : i.inWindow s ramBase (4 * d.ram.length)) (v : U32) (idx : Nat)
    (hidx : ∀ a n, i.access s = some (a, n) → idx = (a.toNat - ramBase) / 4)
    (hv : d.ram[idx]? = some v) :
    ∃ r, (expectedRd i).evalPlain (romImm i) (s.x (operands i).2.1) (s.x (operands i).1) s.pc v = some r ∧
      ((operands i).2.2 ≠ 0#5 → r = (exec i s).reg (operands i).2.2) := by
  have hmul : ∀ o rd rs1 rs2, i ≠ .mul o rd rs1 rs2 := by
    rintro o rd rs1 rs2 rfl; exact hi
  by_cases hrd : (operands i).2.2 = 0#5
  · obtain ⟨r, hr⟩ := evalPlain_total _ (expectedRd_mem i hmul) (romImm i) (s.x (operands i).2.1)
      (s.x (operands i).1) s.pc v
    exact ⟨r, hr, fun h => absurd hrd h⟩
  · by_cases hl : ∃ o rd rs1 imm, i = .load o rd rs1 imm
    · obtain ⟨o, rd, rs1, imm, rfl⟩ := hl
      have e := hidx _ _ rfl
      subst e
      have hb := hwin _ _ rfl
      have wa := hs.wordAt hw (s.x rs1 + immI imm) hi hb.1 v hv
      refine ⟨_, C12_loads_partial o rd rs1 imm s.mem _ v _ _ _ _ wa, fun h => ?_⟩
      simp only [operands] at h
      simp [exec, Arch.next, Arch.setX, operands, h]
    · refine ⟨_, C10_rd_value i s v hrd (fun o rd rs1 imm h => hl ⟨o, rd, rs1, imm, h⟩) hmul, fun _ => rfl⟩

/-- Contents of the RAM. -/
theorem Model.Debug.Shows.ramVal (i : Instr) (hi : i.supported s)
    (hwin : i.inWindow s ramBase (4 * d.ram.length)) (v : U32) (idx : Nat)
    (hidx : ∀ a n, i.access s = some (a, n) → idx = (a.toNat - ramBase) / 4)
    (hv : d.ram[idx]? = some v) :
    ∀ k w, (d.ram.set idx ((expectedRam i).evalPlain (s.x (operands i).1) v (cycleAddr i s &&& 3#32)))[k]? = some w →
      ∀ j, j < 4 → (exec i s).mem (BitVec.ofNat 32 (ramBase + 4 * k + j)) = w.extractLsb' (8 * j) 8 := by
  intro k w hk j hj
  by_cases hst : ∃ o rs1 rs2 imm, i = .store o rs1 rs2 imm
  · obtain ⟨o, rs1, rs2, imm, rfl⟩ := hst
    have e := hidx _ _ rfl
    have hb := hwin _ _ rfl
    have ht := hw.top
    have hsz : 0 < o.size := by cases o <;> decide
    have hal : (s.x rs1 + immI imm).toNat % o.size = 0 := hi
    have hlen : k < d.ram.length := by
      have := (List.getElem?_eq_some_iff.mp hk).1; simpa using this
    have hadr : cycleAddr (.store o rs1 rs2 imm) s = immI imm + s.x rs1 - 0x40000#32 := rfl
    have hnat := access_index (s.x rs1) (immI imm) o.size _ hsz hb ht
    rw [hadr, and3, hnat] at hk
    simp only [exec, Arch.next, operands] at hk ⊢
    generalize hA : s.x rs1 + immI imm = A at *
    generalize hB : s.x rs2 = B at *
    have hAlt := A.isLt
    have hoff : (A.toNat - ramBase) % 4 % o.size = 0 := by
      unfold ramBase at *
      cases o <;> simp only [StoreOp.size] at * <;> omega
    have hb32 : (BitVec.ofNat 32 (ramBase + 4 * k + j)).toNat = ramBase + 4 * k + j := by
      rw [BitVec.toNat_ofNat, Nat.mod_eq_of_lt (by omega)]
    have hsub : (BitVec.ofNat 32 (ramBase + 4 * k + j) - A).toNat
        = (2 ^ 32 - A.toNat + (ramBase + 4 * k + j)) % 2 ^ 32 := by
      rw [BitVec.toNat_sub, hb32]
    by_cases hki : idx = k
    · subst hki
      rw [List.getElem?_set_self hlen] at hk
      have hk := Option.some.inj hk
      have c := C14_store_bytes o rs1 rs2 imm B v ((A.toNat - ramBase) % 4) (by omega) hoff j hj
      rw [hk] at c
      unfold byteOf at c
      rw [c]
      unfold storeBytes
      by_cases hin : (A.toNat - ramBase) % 4 ≤ j ∧ j < (A.toNat - ramBase) % 4 + o.size
      · have hd : (BitVec.ofNat 32 (ramBase + 4 * idx + j) - A).toNat = j - (A.toNat - ramBase) % 4 := by
          rw [hsub, e]; unfold ramBase at *; omega
        rw [if_pos hin, hd, if_pos (by omega)]
      · have hd : ¬ (BitVec.ofNat 32 (ramBase + 4 * idx + j) - A).toNat < o.size := by
          rw [hsub, e]; unfold ramBase at *
          cases o <;> simp only [StoreOp.size] at * <;> omega
        rw [if_neg hin, if_neg hd]
        exact hs.mem _ _ hv j hj
    · rw [List.getElem?_set_ne hki] at hk
      unfold storeBytes
      have hd : ¬ (BitVec.ofNat 32 (ramBase + 4 * k + j) - A).toNat < o.size := by
        rw [hsub]; unfold ramBase at *
        cases o <;> simp only [StoreOp.size] at * <;> omega
      rw [if_neg hd]
      exact hs.mem _ _ hk j hj
  · have hns : ∀ o a b m, i ≠ .store o a b m := fun o a b m h => hst ⟨o, a, b, m, h⟩
    rw [C14_nonstore i hns, List.set_getElem?_self' hv] at hk
    rw [exec_mem i s hns]
    exact hs.mem _ _ hk j hj

end

/-! ### The mirror's cycle -/

theorem Model.Debug.step_total {d : Debug} {i : Decoded} {a b v : U32} {o : RdUpdate} {ro : RamUpdate}
    {po : PcUpdate} (hi : d.rom[(d.pc >>> 2).toNat]? = some i) (ha : d.registers[i.rs1.toNat]? = some a)
    (hb : d.registers[i.rs2.toNat]? = some b)
    (hv : d.ram[(((i.imm + a - (1#32 <<< 18)) >>> 2).toNat) % d.ram.length]? = some v)
    (ho : o ∈ rdUpdateRv32iOpList) (hid : o.id = i.rdu) (hmu : ro.id = i.mu) (hpc : po.id = i.pcu)
    (hrd : i.rd.toNat < d.registers.length) : ∃ d2, d.step = some d2 := by
  have em := collect_map_some
    (fun op : RdUpdate => (op.evalPlain i.imm a b d.pc v).map fun v => (op.id, v))
    (fun op => (op.id, (op.evalPlain i.imm a b d.pc v).getD 0#32))
    rdUpdateRv32iOpList (by
      intro op hop
      obtain ⟨x, hx⟩ := evalPlain_total op hop i.imm a b d.pc v
      simp [hx])
  have hpos : 0 < d.registers.length := by omega
  have hlt := (List.getElem?_eq_some_iff.mp hv).1
  have eo := mapGet_unique rdUpdateRv32iOpList RdUpdate.id
    (fun op => (op.evalPlain i.imm a b d.pc v).getD 0#32)
    (fun x _ y _ h => rdUpdate_inj x y h) o ho
  rw [hid] at eo
  have er := mapGet_unique ramUpdateOpList RamUpdate.id
    (fun op => op.evalPlain b v ((i.imm + a - (1#32 <<< 18)) &&& 3#32))
    (fun x _ y _ h => ramUpdate_inj x y h) ro (by cases ro <;> decide)
  rw [hmu] at er
  have ep := mapGet_unique pcUpdateOpList PcUpdate.id
    (fun op => op.evalPlain i.imm a b d.pc)
    (fun x _ y _ h => pcUpdate_inj x y h) po (by cases po <;> decide)
  rw [hpc] at ep
  rw [← Option.isSome_iff_exists]
  unfold Debug.step Debug.readInstructions
  rw [hi, Option.map_some, Option.bind_some]
  unfold Debug.readRegisters
  simp only [ha, hb, Option.map_some, Option.bind_some]
  unfold Debug.readRam Debug.ramIndex
  simp only [hv, Option.map_some, Option.bind_some]
  unfold Debug.updateRegisters
  simp only [em, eo, Option.bind_some]
  rw [if_pos ⟨hrd, hpos⟩, Option.bind_some]
  unfold Debug.updateRam Debug.ramIndex
  simp only [er, Option.bind_some]
  rw [if_pos hlt, Option.bind_some]
  unfold Debug.updatePc
  simp only [ep, Option.map_some]
  rfl

end Verif
