import Verif.Lemmas.AnyRom
import Verif.Spec.MulDiv
import Verif.Lemmas.Decompose
import Verif.Props.Println
/-
  C87: the encrypted VM on arbitrary program memories, and so on multiplications and divisions.
-/
namespace Verif.Props
open Model Spec

/-! ### Arbitrary program memories -/

/-- One encrypted cycle, whatever the program memories contain. -/
theorem C87_any (F : Fhe) (vm : Interp F.B) (d d2 : Debug) (h : F.Runs vm d) (hs : anyCycle d = some d2)
    (hc : vm.cycle ≠ 0xFFFFFFFF#32) :
    ∃ vm2, vm.step = some vm2 ∧ F.Runs vm2 d2 ∧ vm2.cycle = vm.cycle + 1#32 := h.anyStep hs hc

theorem anyEntry_rv32i (i : Decoded) : Rv32i (anyEntry i) := by
  have lt (x : BitVec 32) : (x % 32#32).toNat < 32 := by
    rw [BitVec.toNat_umod]; exact Nat.mod_lt _ (by decide)
  have rd : ∀ k, k < 29 → ∃ o ∈ rdUpdateRv32iOpList, o.id = BitVec.ofNat 32 k := by
    decide +kernel
  have ram : ∀ k, k < 4 → ∃ o ∈ ramUpdateOpList, o.id = BitVec.ofNat 32 k := by decide +kernel
  refine ⟨lt _, lt _, lt _, ?_, ?_, ?_⟩
  · show ∃ o ∈ rdUpdateRv32iOpList, o.id = if 29 ≤ i.rdu.toNat % 32 then 0#32 else i.rdu % 32#32
    split
    · exact rd 0 (by decide)
    · rename_i h
      obtain ⟨o, ho, e⟩ := rd (i.rdu.toNat % 32) (by omega)
      refine ⟨o, ho, e.trans (BitVec.eq_of_toNat_eq ?_)⟩
      rw [BitVec.toNat_umod, BitVec.toNat_ofNat]
      show i.rdu.toNat % 32 % 2 ^ 32 = i.rdu.toNat % 32
      omega
  · show ∃ o ∈ ramUpdateOpList, o.id = i.mu % 4#32
    obtain ⟨o, ho, e⟩ := ram (i.mu.toNat % 4) (Nat.mod_lt _ (by decide))
    refine ⟨o, ho, e.trans (BitVec.eq_of_toNat_eq ?_)⟩
    rw [BitVec.toNat_umod, BitVec.toNat_ofNat]
    show i.mu.toNat % 4 % 2 ^ 32 = i.mu.toNat % 4
    omega
  · exact ⟨_, by cases pcOperation (i.pcu.getLsbD 0) (i.pcu.getLsbD 1) (i.pcu.getLsbD 2) (i.pcu.getLsbD 3) <;> decide, rfl⟩

/-- It is defined in every state when the memories have power-of-two sizes. -/
theorem anyCycle_total (d : Debug) (k j : Nat) (hk : d.rom.length = 2 ^ k) (hj : d.ram.length = 2 ^ j)
    (hr : d.registers.length = 32) :
    ∃ d2, anyCycle d = some d2 ∧ d2.rom = d.rom ∧ d2.ram.length = 2 ^ j ∧ d2.registers.length = 32 := by
  obtain ⟨d2, e, -, e2, e3⟩ := C29_total { d with rom := d.rom.map anyEntry } k j (by simpa using hk) hj hr (by
    intro i hi
    obtain ⟨i', -, rfl⟩ := List.mem_map.mp hi
    exact anyEntry_rv32i i')
  exact ⟨{ d2 with rom := d.rom }, by unfold anyCycle; rw [e]; rfl, rfl, e2, e3⟩

/-- With power-of-two memories the encrypted interpreter never panics, whatever the program memories contain. -/
theorem C87_total (F : Fhe) (vm : Interp F.B) (d : Debug) (h : F.Runs vm d) (k j : Nat) (hk : d.rom.length = 2 ^ k)
    (hj : d.ram.length = 2 ^ j) (hr : d.registers.length = 32) (n : Nat) (hc : vm.cycle.toNat + n < 2 ^ 32) :
    ∃ vm2 d2, Interp.run n vm = some vm2 ∧ anyCycles n d = some d2 ∧ F.Runs vm2 d2 := by
  have tot : ∀ (n : Nat) (d : Debug), d.rom.length = 2 ^ k → d.ram.length = 2 ^ j → d.registers.length = 32 →
      ∃ d2, anyCycles n d = some d2 := by
    intro n
    induction n with
    | zero => intro d _ _ _; exact ⟨d, rfl⟩
    | succ n ih =>
      intro d h1 h2 h3
      obtain ⟨d1, e, e1, e2, e3⟩ := anyCycle_total d k j h1 h2 h3
      obtain ⟨d2, e4⟩ := ih d1 (by rw [e1]; exact h1) e2 e3
      exact ⟨d2, by show (anyCycle d).bind _ = _; rw [e]; exact e4⟩
  obtain ⟨d2, hs⟩ := tot n d hk hj hr
  obtain ⟨vm2, e, r, -⟩ := h.anyRun n hs hc
  exact ⟨vm2, d2, e, hs, r⟩

/-- On entries of RV32I instructions this is the cycle of C29. -/
theorem C87_own (i : Decoded) (h : Rv32i i) : anyEntry i = i := by
  obtain ⟨h1, h2, h3, ⟨o, ho, e4⟩, ⟨ro, hro, e5⟩, ⟨po, hpo, e6⟩⟩ := h
  have md (x : BitVec 32) (h : x.toNat < 32) : x % 32#32 = x := by
    apply BitVec.eq_of_toNat_eq
    rw [BitVec.toNat_umod]
    exact Nat.mod_eq_of_lt h
  have q4 : (if 29 ≤ i.rdu.toNat % 32 then 0#32 else i.rdu % 32#32) = i.rdu := by
    rw [← e4]; revert ho; cases o <;> decide
  have q5 : i.mu % 4#32 = i.mu := by rw [← e5]; revert hro; cases ro <;> decide
  have q6 : (pcOperation (i.pcu.getLsbD 0) (i.pcu.getLsbD 1) (i.pcu.getLsbD 2) (i.pcu.getLsbD 3)).id = i.pcu := by
    rw [← e6]; revert hpo; cases po <;> decide
  obtain ⟨imm, rs1, rs2, rd, rdu, mu, pcu⟩ := i
  show (⟨imm, rs1 % 32#32, rs2 % 32#32, rd % 32#32, _, _, _⟩ : Decoded) = _
  rw [md _ h1, md _ h2, md _ h3, q5]
  exact congr (congrArg (fun x y => (⟨imm, rs1, rs2, rd, x, mu, y⟩ : Decoded)) q4) q6

example : anyEntry ⟨8#32, 33#32, 2#32, 64#32, 36#32, 7#32, 13#32⟩ =
    ⟨8#32, 1#32, 2#32, 0#32, RdUpdate.SLTI.id, RamUpdate.SW.id, (pcOperation true false true true).id⟩ := by decide +kernel

/-! ### Entries that only write a register -/

/-- The entry writes register `rd` with `g` of the program counter and the registers. -/
structure Writes (j : Decoded) (rd : U32) (g : U32 → List U32 → U32) : Prop where
  rs1 : j.rs1.toNat < 32
  rs2 : j.rs2.toNat < 32
  dst : j.rd = rd
  lt : rd.toNat < 32
  mu : j.mu = RamUpdate.NONE.id
  pcu : j.pcu = PcUpdate.NONE.id
  val : ∃ o ∈ rdUpdateRv32iOpList, o.id = j.rdu ∧ ∀ pc regs a b v, regs[0]? = some 0#32 → regs[j.rs1.toNat]? = some a →
    regs[j.rs2.toNat]? = some b → cycleRd o j.imm a b pc v = some (g pc regs)

theorem Writes.cycle {d : Debug} {j : Decoded} {rd : U32} {g : U32 → List U32 → U32} (h : Writes j rd g) (m : Nat) (pc : U32)
    (hpc : pc = BitVec.ofNat 32 (d.pc.toNat % 2 ^ (bitsFor d.rom.length + 2)))
    (hi : d.rom[pc.toNat / 4]? = some j) (hr : d.registers.length = 32) (h0 : d.registers[0]? = some 0#32)
    (hm : d.ram.length = 2 ^ m) :
    ∃ d2, Spec.cycle d = some d2 ∧ d2.pc = pc + 4#32 ∧ d2.registers = (d.registers.set rd.toNat (g pc d.registers)).set 0 0#32 ∧
      d2.ram = d.ram ∧ d2.rom = d.rom := by
  obtain ⟨a, ha⟩ : ∃ a, d.registers[j.rs1.toNat]? = some a :=
    ⟨_, List.getElem?_eq_getElem (by rw [hr]; exact h.rs1)⟩
  obtain ⟨b, hb⟩ : ∃ b, d.registers[j.rs2.toNat]? = some b :=
    ⟨_, List.getElem?_eq_getElem (by rw [hr]; exact h.rs2)⟩
  have hlt : (j.imm + a - 0x40000#32).toNat / 4 % 2 ^ bitsFor d.ram.length < d.ram.length := by
    rw [hm, bitsFor_pow]; exact Nat.mod_lt _ (Nat.two_pow_pos _)
  obtain ⟨v, hv⟩ : ∃ v, d.ram[(j.imm + a - 0x40000#32).toNat / 4 % 2 ^ bitsFor d.ram.length]? = some v :=
    ⟨_, List.getElem?_eq_getElem hlt⟩
  obtain ⟨o, ho, e1, e2⟩ := h.val
  have c : CycleOf d _ pc j a b v (g pc d.registers) o .NONE .NONE :=
    ⟨hpc, hi, ha, hb, hv, ho, e1, h.mu.symm, h.pcu.symm, e2 pc d.registers a b v h0 ha hb,
      by rw [h.dst, hr]; exact h.lt, rfl⟩
  refine ⟨_, c.eq, rfl, by rw [h.dst], ?_, rfl⟩
  show d.ram.set _ v = d.ram
  apply List.ext_getElem?
  intro x
  by_cases hx : (j.imm + a - 0x40000#32).toNat / 4 % 2 ^ bitsFor d.ram.length = x
  · subst hx
    rw [List.getElem?_set_self hlt, hv]
  · rw [List.getElem?_set_ne hx]

theorem ofNat_mod (r : Reg) : (r.setWidth 32 % 32#32 : U32) = r.setWidth 32 := by
  apply BitVec.eq_of_toNat_eq
  rw [BitVec.toNat_umod, reg_toNat]
  exact Nat.mod_eq_of_lt r.isLt

/-- What is written for `mul o rd rs1 rs2`. -/
def mulValue (o : MulOp) (rs1 : Reg) (pc : U32) (regs : List U32) : U32 :=
  encMulDiv o pc ((regs[rs1.toNat]?).getD 0#32)

theorem slti_zero (a : U32) : (if a.slt 0#32 then 1#32 else 0#32) = if a.toInt < 0 then 1#32 else 0#32 := by
  have : a.slt 0#32 = decide (a.toInt < 0) := by
    rw [BitVec.slt_eq_decide]; rfl
  rw [this]
  by_cases h : a.toInt < 0 <;> simp [h]

theorem none_pc : (pcOperation (PcUpdate.NONE.id.getLsbD 0) (PcUpdate.NONE.id.getLsbD 1) (PcUpdate.NONE.id.getLsbD 2)
    (PcUpdate.NONE.id.getLsbD 3)).id = PcUpdate.NONE.id := by decide +kernel

theorem writes_of (imm x : U32) (rd rs1 rs2 : Reg) (g : U32 → List U32 → U32) (o : RdUpdate) (ho : o ∈ rdUpdateRv32iOpList)
    (hx : (if 29 ≤ x.toNat % 32 then 0#32 else x % 32#32) = o.id)
    (hv : ∀ pc regs a b v, regs[0]? = some 0#32 → regs[rs1.toNat]? = some a → cycleRd o imm a b pc v = some (g pc regs)) :
    Writes (anyEntry ⟨imm, rs1.setWidth 32, rs2.setWidth 32, rd.setWidth 32, x, RamUpdate.NONE.id, PcUpdate.NONE.id⟩)
      (rd.setWidth 32) g := by
  have e : anyEntry ⟨imm, rs1.setWidth 32, rs2.setWidth 32, rd.setWidth 32, x, RamUpdate.NONE.id, PcUpdate.NONE.id⟩ =
      ⟨imm, rs1.setWidth 32, rs2.setWidth 32, rd.setWidth 32, o.id, RamUpdate.NONE.id, PcUpdate.NONE.id⟩ := by
    unfold anyEntry
    rw [ofNat_mod, ofNat_mod, ofNat_mod, none_pc, hx]
    rfl
  rw [e]
  refine ⟨by rw [reg_toNat]; exact rs1.isLt, by rw [reg_toNat]; exact rs2.isLt, rfl, by rw [reg_toNat]; exact rd.isLt, rfl, rfl,
    o, ho, rfl, fun pc regs a b v h0 ha _ => hv pc regs a b v h0 ?_⟩
  rw [← ha]
  show _ = regs[(rs1.setWidth 32 : U32).toNat]?
  rw [reg_toNat]

theorem zero_value (rs1 : Reg) (o : RdUpdate) (ho : o = .NONE ∨ o = .LUI) : ∀ (pc : U32) (regs : List U32) (a b v : U32),
    regs[0]? = some 0#32 → regs[rs1.toNat]? = some a → cycleRd o 0#32 a b pc v = some 0#32 := by
  rcases ho with rfl | rfl <;> exact fun _ _ _ _ _ _ _ => rfl

theorem pc_value (rs1 : Reg) : ∀ (pc : U32) (regs : List U32) (a b v : U32),
    regs[0]? = some 0#32 → regs[rs1.toNat]? = some a → cycleRd .AUIPC 0#32 a b pc v = some pc := by
  intro pc regs a b v _ _
  show some (pc + wrappingShl 0#32 12#32) = some pc
  rw [show wrappingShl 0#32 12#32 = 0#32 from by decide, BitVec.add_zero]

theorem addi_value (rs1 : Reg) : ∀ (pc : U32) (regs : List U32) (a b v : U32),
    regs[0]? = some 0#32 → regs[rs1.toNat]? = some a → cycleRd .ADDI 0#32 a b pc v = some ((regs[rs1.toNat]?).getD 0#32) := by
  intro pc regs a b v _ ha
  rw [ha]
  show some (_ : U32) = some a
  simp

theorem slti_value (rs1 : Reg) : ∀ (pc : U32) (regs : List U32) (a b v : U32),
    regs[0]? = some 0#32 → regs[rs1.toNat]? = some a →
      cycleRd .SLTI 0#32 a b pc v = some (if ((regs[rs1.toNat]?).getD 0#32).toInt < 0 then 1#32 else 0#32) := by
  intro pc regs a b v _ ha
  rw [ha, Option.getD_some, ← slti_zero]
  rfl

theorem mul_writes (o : MulOp) (rd rs1 rs2 : Reg) :
    Writes (anyEntry (Verif.entry (.mul o rd rs1 rs2))) (rd.setWidth 32) (mulValue o rs1) := by
  cases o
  · exact writes_of 0#32 RdUpdate.MUL.id rd rs1 rs2 _ .NONE (by decide) (by decide) (zero_value rs1 _ (.inl rfl))
  · exact writes_of 0#32 RdUpdate.MULH.id rd rs1 rs2 _ .NONE (by decide) (by decide) (zero_value rs1 _ (.inl rfl))
  · exact writes_of 0#32 RdUpdate.MULHSU.id rd rs1 rs2 _ .NONE (by decide) (by decide) (zero_value rs1 _ (.inl rfl))
  · exact writes_of 0#32 RdUpdate.MULHU.id rd rs1 rs2 _ .NONE (by decide) (by decide) (zero_value rs1 _ (.inl rfl))
  · exact writes_of 0#32 RdUpdate.DIV.id rd rs1 rs2 _ .LUI (by decide) (by decide) (zero_value rs1 _ (.inr rfl))
  · exact writes_of 0#32 RdUpdate.DIVU.id rd rs1 rs2 _ .AUIPC (by decide) (by decide) (pc_value rs1)
  · exact writes_of 0#32 RdUpdate.REM.id rd rs1 rs2 _ .ADDI (by decide) (by decide) (addi_value rs1)
  · exact writes_of 0#32 RdUpdate.REMU.id rd rs1 rs2 _ .SLTI (by decide) (by decide) (slti_value rs1)

theorem soft_writes (o : MulOp) (rd rs1 : Reg) :
    Writes (anyEntry (Verif.entry (softOf o rd rs1))) (rd.setWidth 32) (mulValue o rs1) := by
  have zero : Writes (anyEntry (Verif.entry (.opImm .addi rd 0#5 0#12))) (rd.setWidth 32) (fun _ _ => 0#32) := by
    refine writes_of 0#32 RdUpdate.ADDI.id rd 0#5 0#5 _ .ADDI (by decide) (by decide) ?_
    intro pc regs a b v h0 ha
    have : a = 0#32 := Option.some.inj (ha.symm.trans h0)
    subst this
    rfl
  cases o
  · exact zero
  · exact zero
  · exact zero
  · exact zero
  · exact zero
  · exact writes_of 0#32 RdUpdate.AUIPC.id rd 0#5 0#5 _ .AUIPC (by decide) (by decide) (pc_value 0#5)
  · exact writes_of 0#32 RdUpdate.ADDI.id rd rs1 0#5 _ .ADDI (by decide) (by decide) (addi_value rs1)
  · exact writes_of 0#32 RdUpdate.SLTI.id rd rs1 0#5 _ .SLTI (by decide) (by decide) (slti_value rs1)

/-! ### One multiplication or division -/

/-- An encrypted cycle at a multiplication or division, in any state: rd is set to `encMulDiv`, everything else stays as
it is.  The program counter is reduced to the width of the program memory, as in every cycle. -/
theorem C87_mul (F : Fhe) (vm : Interp F.B) (d : Debug) (dbg : Bool) (o : MulOp) (rd rs1 rs2 : Reg) (m : Nat) (h : F.Runs vm d)
    (hr : d.registers.length = 32) (h0 : d.registers[0]? = some 0#32) (hm : d.ram.length = 2 ^ m)
    (hf : d.rom[d.pc.toNat / 4]? = decodeWord dbg (encode (.mul o rd rs1 rs2)))
    (hp : d.pc.toNat < 2 ^ (bitsFor d.rom.length + 2)) (hc : vm.cycle ≠ 0xFFFFFFFF#32) :
    ∃ vm2, vm.step = some vm2 ∧
      vm2.registers.decrypt F.C (List.replicate 32 0#32) =
        some ((d.registers.set rd.toNat (encMulDiv o d.pc ((d.registers[rs1.toNat]?).getD 0#32))).set 0 0#32) ∧
      vm2.decryptRam F.C (List.replicate d.ram.length 0#32) = some d.ram ∧ F.decU vm2.pc = d.pc + 4#32 := by
  have hpc : BitVec.ofNat 32 (d.pc.toNat % 2 ^ (bitsFor (d.rom.map anyEntry).length + 2)) = d.pc := by
    rw [List.length_map, Nat.mod_eq_of_lt hp]; simp
  obtain ⟨d2, c, q1, q2, q3, -⟩ := (mul_writes o rd rs1 rs2).cycle (d := { d with rom := d.rom.map anyEntry }) m d.pc hpc.symm
    (by show (d.rom.map anyEntry)[_]? = _
        rw [List.getElem?_map, hf, decodeWord_encode]; rfl) hr h0 hm
  obtain ⟨vm2, e, r, cy⟩ := h.anyStep (d2 := { d2 with rom := d.rom }) (by unfold anyCycle; rw [c]; rfl) hc
  obtain ⟨o1, o2, o3, -⟩ := C29_observe F vm2 _ r
  refine ⟨vm2, e, ?_, ?_, ?_⟩
  · rw [o1]
    show some d2.registers = _
    rw [q2, reg_toNat]
    rfl
  · rw [o2 _ (by show _ = d2.ram.length; rw [q3]; simp)]
    show some d2.ram = _
    rw [q3]
  · refine (o3 ?_).trans q1
    rw [cy]
    intro h0
    apply hc
    have e := congrArg BitVec.toNat h0
    apply BitVec.eq_of_toNat_eq
    simp only [BitVec.toNat_add, BitVec.toNat_ofNat] at e ⊢
    have := vm.cycle.isLt
    omega

/-- None of the eight is right in general. -/
theorem C87_wrong (o : MulOp) : ∃ pc x y, encMulDiv o pc x ≠ o.eval x y := by
  cases o
  · exact ⟨0, 7, 3, by decide +kernel⟩
  · exact ⟨0, 0x80000000, 0x80000000, by decide +kernel⟩
  · exact ⟨0, 0x80000000, 0x80000000, by decide +kernel⟩
  · exact ⟨0, 0x80000000, 0x80000000, by decide +kernel⟩
  · exact ⟨0, 7, 3, by decide +kernel⟩
  · exact ⟨0, 7, 3, by decide +kernel⟩
  · exact ⟨0, 7, 3, by decide +kernel⟩
  · exact ⟨0, 7, 4, by decide +kernel⟩

/-- The mirror panics at each of them, so `cycle_debug` does. -/
theorem C87_mirror (d : Debug) (dbg : Bool) (o : MulOp) (rd rs1 rs2 : Reg)
    (hf : d.rom[d.pc.toNat / 4]? = decodeWord dbg (encode (.mul o rd rs1 rs2))) : d.step = none := by
  cases hs : d.step with
  | none => rfl
  | some d2 =>
    obtain ⟨d1, i, a, b, v, r, o', ro, po, hl, c⟩ := Debug.step_inv hs
    have hi := c.ins
    rw [toNat_shift2, hf, decodeWord_encode] at hi
    have hi := Option.some.inj hi
    have h1 := c.op
    have h2 := c.opId
    rw [← hi] at h2
    exfalso
    have k1 : o'.id.toNat < 29 := by revert h1; cases o' <;> decide
    have k2 : 29 ≤ (Verif.entry (.mul o rd rs1 rs2)).rdu.toNat := by cases o <;> exact of_decide_eq_true rfl
    rw [h2] at k1
    omega

theorem C87_debug {B : Backend} (decU : B.Uint → U32) (decP : B.Prep → U32) (C : Cipher B) (n : Nat) (ev : EncVM B) (d : Debug)
    (hm : ev.mirror = some d) (h : d.run n = none) : EncVM.cycles C decU decP n ev = none := by
  induction n generalizing ev d with
  | zero => cases h
  | succ n ih =>
    show (EncVM.cycle C decU decP ev).bind _ = none
    have hcy : EncVM.cycle C decU decP ev =
        (cycleDebug decU decP C ev.interp d).map fun r => { ev with interp := r.1, mirror := some r.2 } := by
      unfold EncVM.cycle; rw [hm]
    rw [hcy]
    cases hc : cycleDebug decU decP C ev.interp d with
    | none => rfl
    | some r =>
      obtain ⟨t, -, hc⟩ := Option.bind_eq_some_iff.mp hc
      obtain ⟨d1, -, hc⟩ := Option.bind_eq_some_iff.mp hc
      obtain ⟨d2, hs, hc⟩ := Option.bind_eq_some_iff.mp hc
      split at hc
      · cases hc
        refine ih _ d2 rfl ?_
        have : (d.step.bind (Debug.run n)) = none := h
        rw [hs] at this
        exact this
      · cases hc

/-! ### Programs with the multiplications and divisions replaced -/

/-- Same state and same program, except where the two programs write the same value to the same register. -/
structure SameCore (d e : Debug) : Prop where
  pc : e.pc = d.pc
  registers : e.registers = d.registers
  ram : e.ram = d.ram
  length : e.rom.length = d.rom.length
  rom : ∀ k : Nat, d.rom[k]? = e.rom[k]? ∨ ∃ i j rd g, d.rom[k]? = some i ∧ e.rom[k]? = some j ∧
    Writes (anyEntry i) rd g ∧ Writes (anyEntry j) rd g

theorem SameCore.symm {d e : Debug} (h : SameCore d e) : SameCore e d := by
  refine ⟨h.pc.symm, h.registers.symm, h.ram.symm, h.length.symm, fun k => ?_⟩
  rcases h.rom k with q | ⟨i, j, rd, g, q1, q2, q3, q4⟩
  · exact .inl q.symm
  · exact .inr ⟨j, i, rd, g, q2, q1, q4, q3⟩

/-- What a cycle keeps. -/
structure Core (m : Nat) (d : Debug) : Prop where
  regs : d.registers.length = 32
  zero : d.registers[0]? = some 0#32
  ram : d.ram.length = 2 ^ m

theorem anyCycle_of {d d2 : Debug} (h : Spec.cycle { d with rom := d.rom.map anyEntry } = some d2) :
    anyCycle d = some { d2 with rom := d.rom } := by
  unfold anyCycle; rw [h]; rfl

theorem anyCycle_core {m : Nat} {d d2 : Debug} (h : Core m d) (hc : anyCycle d = some d2) : Core m d2 ∧ d2.rom = d.rom := by
  obtain ⟨d1, hc1, rfl⟩ := Option.map_eq_some_iff.mp hc
  have h0 := cycle_zero hc1
  obtain ⟨pc, i, a, b, v, r, o, ro, po, c⟩ := cycle_inv hc1
  refine ⟨⟨?_, h0, ?_⟩, rfl⟩
  · rw [c.result]
    simpa using h.regs
  · rw [c.result]
    simpa using h.ram

theorem SameCore.cycle {m : Nat} {d e d2 : Debug} (h : SameCore d e) (hd : Core m d) (hc : anyCycle d = some d2) :
    ∃ e2, anyCycle e = some e2 ∧ SameCore d2 e2 := by
  obtain ⟨d1, hc1, rfl⟩ := Option.map_eq_some_iff.mp hc
  obtain ⟨pc, i, a, b, v, r, o, ro, po, c⟩ := cycle_inv hc1
  have hpc : pc = BitVec.ofNat 32 (e.pc.toNat % 2 ^ (bitsFor (e.rom.map anyEntry).length + 2)) := by
    rw [h.pc, List.length_map, h.length]
    have := c.pcEq
    simpa using this
  have hins : (d.rom.map anyEntry)[pc.toNat / 4]? = some i := c.ins
  rw [List.getElem?_map] at hins
  rcases h.rom (pc.toNat / 4) with q | ⟨i', j, rd, g, q1, q2, q3, q4⟩
  · have c' : CycleOf { e with rom := e.rom.map anyEntry } _ pc i a b v r o ro po :=
      ⟨hpc, by show (e.rom.map anyEntry)[_]? = _; rw [List.getElem?_map, ← q]; exact hins,
        by rw [h.registers]; exact c.rs1, by rw [h.registers]; exact c.rs2, by rw [h.ram]; exact c.ram, c.op, c.opId, c.mu,
        c.pcu, c.val, by rw [h.registers]; exact c.rd, rfl⟩
    refine ⟨_, anyCycle_of c'.eq, ?_, ?_, ?_, h.length, h.rom⟩
    · rw [c.result]
    · rw [c.result]
      show (e.registers.set _ _).set _ _ = (d.registers.set _ _).set _ _
      rw [h.registers]
    · rw [c.result]
      show e.ram.set _ _ = d.ram.set _ _
      rw [h.ram]
  · rw [q1] at hins
    obtain ⟨d3, e1, e2, e3, e4, -⟩ := q3.cycle (d := { d with rom := d.rom.map anyEntry }) m pc c.pcEq
      (by show (d.rom.map anyEntry)[_]? = _; rw [List.getElem?_map, q1]; rfl) hd.regs hd.zero hd.ram
    obtain ⟨d4, g1, g2, g3, g4, -⟩ := q4.cycle (d := { e with rom := e.rom.map anyEntry }) m pc hpc
      (by show (e.rom.map anyEntry)[_]? = _; rw [List.getElem?_map, q2]; rfl) (by rw [h.registers]; exact hd.regs)
      (by rw [h.registers]; exact hd.zero) (by rw [h.ram]; exact hd.ram)
    have : d3 = d1 := Option.some.inj (e1.symm.trans hc1)
    subst this
    refine ⟨{ d4 with rom := e.rom }, anyCycle_of g1, ?_, ?_, ?_, h.length, h.rom⟩
    · exact g2.trans e2.symm
    · refine g3.trans (Eq.trans ?_ e3.symm)
      show (e.registers.set _ (g pc e.registers)).set _ _ = _
      rw [h.registers]
    · exact g4.trans (h.ram.trans e4.symm)

theorem SameCore.cycles {m : Nat} {d e d2 : Debug} (h : SameCore d e) (hd : Core m d) (n : Nat)
    (hc : anyCycles n d = some d2) : ∃ e2, anyCycles n e = some e2 ∧ SameCore d2 e2 := by
  induction n generalizing d e with
  | zero => cases hc; exact ⟨e, rfl, h⟩
  | succ n ih =>
    obtain ⟨d1, h1, h2⟩ := Option.bind_eq_some_iff.mp hc
    obtain ⟨e1, g1, s1⟩ := h.cycle hd h1
    obtain ⟨e2, g2, s2⟩ := ih s1 (anyCycle_core hd h1).1 h2
    exact ⟨e2, by show (anyCycle e).bind _ = _; rw [g1]; exact g2, s2⟩

theorem isMulDiv_encode (w : Word) (h : isMulDiv w) : w = encode (.mul (mulOp (w.extractLsb' 12 3)) (w.extractLsb' 7 5)
    (w.extractLsb' 15 5) (w.extractLsb' 20 5)) := by
  have f : ∀ x : BitVec 3, (mulOp x).funct3 = x := by decide
  have e := r_decomp w
  rw [h.1, h.2] at e
  show w = rType _ _ _ (mulOp _).funct3 _ _
  rw [f]
  exact e

/-- Decoding a word and the word that replaces it. -/
theorem soft_decode (dbg : Bool) (w : Word) (i j : Decoded) (hi : decodeWord dbg w = some i)
    (hj : decodeWord dbg (soft w) = some j) :
    i = j ∨ ∃ rd g, Writes (anyEntry i) rd g ∧ Writes (anyEntry j) rd g := by
  unfold soft at hj
  split at hj
  · rename_i h
    rw [isMulDiv_encode w h, decodeWord_encode] at hi
    rw [decodeWord_encode] at hj
    cases hi
    cases hj
    exact .inr ⟨_, _, mul_writes _ _ _ _, soft_writes _ _ _⟩
  · exact .inl (Option.some.inj (hi.symm.trans hj))

theorem soft_program (dbg : Bool) (ws : List Word) (ds : List Decoded) (h : ws.map (decodeWord dbg) = ds.map some) :
    ∃ ds' : List Decoded, (ws.map soft).map (decodeWord dbg) = ds'.map some := by
  induction ws generalizing ds with
  | nil => exact ⟨[], rfl⟩
  | cons w ws ih =>
    cases ds with
    | nil => cases h
    | cons i ds =>
      obtain ⟨h1, h2⟩ := List.cons.inj h
      obtain ⟨ds', e⟩ := ih ds h2
      have : ∃ j, decodeWord dbg (soft w) = some j := by
        unfold soft
        split
        · exact ⟨_, decodeWord_encode _ _⟩
        · exact ⟨i, h1⟩
      obtain ⟨j, hj⟩ := this
      refine ⟨j :: ds', ?_⟩
      show decodeWord dbg (soft w) :: _ = some j :: _
      rw [hj, e]

theorem image_sameCore (dbg : Bool) (romSize ramSize : Nat) (ws : List Word) (ds ds' : List Decoded) (data : List Word)
    (h : ws.map (decodeWord dbg) = ds.map some) (h' : (ws.map soft).map (decodeWord dbg) = ds'.map some) :
    SameCore (Debug.image romSize ramSize ds data) (Debug.image romSize ramSize ds' data) := by
  have l1 : ds.length = ws.length := by simpa using (congrArg List.length h).symm
  have l2 : ds'.length = ws.length := by simpa using (congrArg List.length h').symm
  refine ⟨rfl, rfl, rfl, ?_, fun k => ?_⟩
  · show (ds' ++ List.replicate (romSize - ds'.length) Decoded.zero).length =
      (ds ++ List.replicate (romSize - ds.length) Decoded.zero).length
    simp [l1, l2]
  · show (ds ++ List.replicate (romSize - ds.length) Decoded.zero)[k]? =
        (ds' ++ List.replicate (romSize - ds'.length) Decoded.zero)[k]? ∨
      ∃ i j rd g, (ds ++ List.replicate (romSize - ds.length) Decoded.zero)[k]? = some i ∧
        (ds' ++ List.replicate (romSize - ds'.length) Decoded.zero)[k]? = some j ∧
        Writes (anyEntry i) rd g ∧ Writes (anyEntry j) rd g
    by_cases hk : k < ws.length
    · rw [List.getElem?_append_left (by omega), List.getElem?_append_left (by omega),
        List.getElem?_eq_getElem (by omega : k < ds.length), List.getElem?_eq_getElem (by omega : k < ds'.length)]
      have a1 := congrArg (·[k]?) h
      have a2 := congrArg (·[k]?) h'
      simp only [List.getElem?_map, List.getElem?_eq_getElem hk, List.getElem?_eq_getElem (by omega : k < ds.length),
        List.getElem?_eq_getElem (by omega : k < ds'.length), Option.map_some] at a1 a2
      rcases soft_decode dbg _ _ _ (Option.some.inj a1) (Option.some.inj a2) with q | ⟨rd, g, q1, q2⟩
      · exact .inl (congrArg some q)
      · exact .inr ⟨_, _, rd, g, rfl, rfl, q1, q2⟩
    · rw [List.getElem?_append_right (by omega), List.getElem?_append_right (by omega), l1, l2]
      exact .inl rfl

theorem image_core (romSize m : Nat) (ds : List Decoded) (data : List Word) (h : data.length ≤ 2 ^ m) :
    Core m (Debug.image romSize (2 ^ m) ds data) := by
  refine ⟨by simp [Debug.image, Debug.new], rfl, ?_⟩
  simp [Debug.image]
  omega

/-- Under encryption a program and the same program with each multiplication or division replaced by `softOf` never panic
(power-of-two memories) and have, after any number of cycles, the same registers, RAM and program counter. -/
theorem C87_replaced (F : Fhe) (rand rand' : Nat → Nat → Nat → F.C.Rand) (dbg : Bool) (k m threads threads' : Nat)
    (ws : List Word) (p q : Parser) (data : List Word) (vm vn : Interp F.B) (ht : 0 < threads) (ht' : 0 < threads')
    (hl : ws.length ≤ 2 ^ k) (hl2 : data.length ≤ 2 ^ m)
    (hp : Parser.new.addAll dbg ws = some p) (hq : Parser.new.addAll dbg (ws.map soft) = some q)
    (hvm : Interp.load F.C rand dbg (2 ^ k) (2 ^ m) threads p data = some vm)
    (hvn : Interp.load F.C rand' dbg (2 ^ k) (2 ^ m) threads' q data = some vn) (n : Nat) (hn : n < 2 ^ 32) :
    ∃ vm2 vn2 regs ram, Interp.run n vm = some vm2 ∧ Interp.run n vn = some vn2 ∧
      vm2.registers.decrypt F.C (List.replicate 32 0#32) = some regs ∧
      vn2.registers.decrypt F.C (List.replicate 32 0#32) = some regs ∧
      vm2.decryptRam F.C (List.replicate (2 ^ m) 0#32) = some ram ∧
      vn2.decryptRam F.C (List.replicate (2 ^ m) 0#32) = some ram ∧
      (n ≠ 0 → F.decU vm2.pc = F.decU vn2.pc) := by
  obtain ⟨ds, hd, hds⟩ := decodeProgram_words dbg ws p hp
  obtain ⟨ds', hd', hds'⟩ := decodeProgram_words dbg _ q hq
  have hlen : ds.length = ws.length := by simpa using (congrArg List.length hds).symm
  have sc := image_sameCore dbg (2 ^ k) (2 ^ m) ws ds ds' data hds hds'
  have co := image_core (2 ^ k) m ds data hl2
  obtain ⟨r1, cy1⟩ := C29_start F rand dbg _ _ threads p data vm ds ht hd hvm
  obtain ⟨r2, cy2⟩ := C29_start F rand' dbg _ _ threads' q data vn ds' ht' hd' hvn
  obtain ⟨-, d, -, hs, -⟩ := C87_total F vm _ r1 k m (by simp [Debug.image]; omega) co.ram co.regs n
    (by rw [cy1]; simpa using hn)
  obtain ⟨d', hs', sc'⟩ := sc.cycles co n hs
  obtain ⟨vm2, e1, q1, c1⟩ := r1.anyRun n hs (by rw [cy1]; simpa using hn)
  obtain ⟨vn2, e2, q2, c2⟩ := r2.anyRun n hs' (by rw [cy2]; simpa using hn)
  have ne (v v2 : Interp F.B) (h0 : v.cycle = 0#32) (h : v2.cycle = v.cycle + BitVec.ofNat 32 n) (hne : n ≠ 0) :
      v2.cycle ≠ 0#32 := by
    rw [h, h0]
    intro h0
    have := congrArg BitVec.toNat h0
    simp at this
    omega
  have hram : d.ram.length = 2 ^ m := by
    clear e1 q1 hs' sc'
    suffices ∀ (n : Nat) (x y : Debug), Core m x → anyCycles n x = some y → y.ram.length = 2 ^ m from this n _ _ co hs
    intro n
    induction n with
    | zero => intro x y h e; cases e; exact h.ram
    | succ n ih =>
      intro x y h e
      obtain ⟨z, g1, g2⟩ := Option.bind_eq_some_iff.mp e
      exact ih z y (anyCycle_core h g1).1 g2
  obtain ⟨a1, a2, a3, -⟩ := C29_observe F vm2 d q1
  obtain ⟨b1, b2, b3, -⟩ := C29_observe F vn2 d' q2
  refine ⟨vm2, vn2, d.registers, d.ram, e1, e2, a1, ?_, a2 _ (by rw [hram]; simp), ?_, fun hne => ?_⟩
  · rw [b1, sc'.registers]
  · rw [b2 _ (by rw [sc'.ram, hram]; simp), sc'.ram]
  · rw [a3 (ne _ _ cy1 c1 hne), b3 (ne _ _ cy2 c2 hne), sc'.pc]

/-! ### Output of a guest that multiplies or divides -/

theorem soft_not_m (w : Word) : ¬ isMulDiv (soft w) := by
  unfold soft
  split
  · have key : ∀ (o : MulOp) (rd rs1 : Reg), (encode (softOf o rd rs1)).extractLsb' 0 7 ≠ 0b0110011#7 := by
      intro o rd rs1 h
      have h2 := congrArg (·.getLsbD 5) h
      have h3 := congrArg (·.getLsbD 2) h
      cases o <;>
        simp [softOf, encode, iType, uType, place, BitVec.getLsbD_extractLsb', -BitVec.getLsbD_eq_getElem] at h2 h3
    exact fun h => key _ _ _ h.1
  · assumption

theorem any_of_cycles (n : Nat) (d d2 : Debug) (hi : ∀ i ∈ d.rom, Rv32i i) (h : Spec.cycles n d = some d2) :
    anyCycles n d = some d2 := by
  induction n generalizing d with
  | zero => exact h
  | succ n ih =>
    obtain ⟨d1, h1, h2⟩ := Option.bind_eq_some_iff.mp h
    have hmap : d.rom.map anyEntry = d.rom := by
      have : d.rom.map anyEntry = d.rom.map id := List.map_congr_left fun i m => C87_own i (hi i m)
      rw [this, List.map_id]
    have hrom : d1.rom = d.rom := by
      obtain ⟨pc, i, a, b, v, r, o, ro, po, c⟩ := cycle_inv h1
      rw [c.result]
    have e1 : anyCycle d = some d1 := by
      unfold anyCycle
      rw [hmap, h1, ← hrom]
      rfl
    show (anyCycle d).bind _ = _
    rw [e1]
    exact ih d1 (by rw [hrom]; exact hi) h2

/-- The encrypted VM, without the debug comparison, completes a guest with multiplications and divisions and puts out what
the test VM does for the guest with all of them replaced.  Hypotheses as in C42, about `q`. -/
theorem C87_output (F : Fhe) (rand : Nat → Nat → Nat → F.C.Rand) (chk dbg : Bool)
    (threads n : Nat) (e : Elf) (p q : Phantom) (tape : List Byte) (ev : EncVM F.B) (vm0 vm1 vm2 : TestVM)
    (hfile : e.bytes.length < 2 ^ 63) (hq : Phantom.fromElf e = some q)
    (hpq : Softened p q) (hbase : p.bootRam.offset = ramBase) (ht : 0 < threads) (hn : n < 2 ^ 32)
    (hev : p.encryptedVm F.C rand dbg false threads tape n = some ev)
    (hvm : q.testVm chk n = some vm0) (hin : vm0.readInputTape chk tape = some vm1)
    (hex : ∀ k v, k < n → vm1.steps chk k = some v → v.Executes chk (encOk 4096))
    (hrun : vm1.execute chk = some vm2) :
    ∃ ev2, ev.execute F.C F.decU F.decP = some ev2 ∧ ev2.outputTape F.C chk = vm2.outputTape chk := by
  obtain ⟨h4, hl, parser, ds, bytes, hpa, hd, hds, hb, hv, ho, hro, hmc, hmir⟩ := encryptedVm_inv hev
  have hbq : q.bootRam.offset = ramBase := by rw [hpq.ram]; exact hbase
  have hlq : tape.length = q.input.size := by rw [hpq.input]; exact hl
  have hbb : copyInto q.bootRam.data q.bootRam.offset q.input.startAddr tape = some bytes := by
    rw [hpq.ram, hpq.input]; exact hb
  have h4q : q.bootRom.data.length % 4 = 0 := by rw [hpq.length]; exact h4
  obtain ⟨ds', hds'⟩ := soft_program dbg _ ds hds
  have hvm1 := testVm_ready hfile hq hbq hlq hbb hvm hin
  obtain ⟨hw, ha, hsp, hrl⟩ := setup_agree (chk := chk) (dbg := dbg) hfile hq hbq hlq h4q
    (by rw [hpq.code]; exact hds') hbb hvm hin
  have hsteps : vm1.steps chk n = some vm2 := by
    have : vm1.maxCycles = n := by rw [hvm1]
    rw [← this]; exact hrun
  obtain ⟨d1, hch1, a', w', f', l'⟩ := agree_both chk dbg n 10 vm1 vm2 _ hw (by rw [hvm1]; rfl) ha hsp hrl hex hsteps
  rw [hpq.romSize, hpq.ram] at hch1 hrl
  have sc := image_sameCore dbg (p.bootRom.size / 4) (p.bootRam.size / 4) _ ds ds' (packWords bytes) hds hds'
  have hrv : ∀ i ∈ (Debug.image (p.bootRom.size / 4) (p.bootRam.size / 4) ds' (packWords bytes)).rom, Rv32i i := by
    intro i hi
    rcases List.mem_append.mp hi with hi | hi
    · have hi2 : some i ∈ ((packWords p.bootRom.data).map soft).map (decodeWord dbg) := by
        rw [hds']; exact List.mem_map.mpr ⟨i, hi, rfl⟩
      obtain ⟨w, hw, hdw⟩ := List.mem_map.mp hi2
      obtain ⟨w0, -, rfl⟩ := List.mem_map.mp hw
      exact C29_decoded dbg _ i hdw (C29_not_m dbg _ i hdw fun h1 h2 => soft_not_m w0 ⟨h1, h2⟩)
    · rw [List.eq_of_mem_replicate hi]
      exact ⟨by decide, by decide, by decide, ⟨.NONE, by decide, rfl⟩, ⟨.NONE, by decide, rfl⟩, ⟨.BEQ, by decide, rfl⟩⟩
  have hs1 := any_of_cycles n _ d1 hrv hch1.cycles
  have co : Core 10 (Debug.image (p.bootRom.size / 4) (p.bootRam.size / 4) ds' (packWords bytes)) :=
    ⟨by simp [Debug.image, Debug.new], rfl, hrl⟩
  obtain ⟨d', hs, sc'⟩ := sc.symm.cycles co n hs1
  obtain ⟨hruns, hcy⟩ := C29_start F rand dbg _ _ threads parser _ ev.interp ds ht hd hv
  have hcount : ev.interp.cycle.toNat + n < 2 ^ 32 := by rw [hcy]; simpa using hn
  obtain ⟨i, e1, r1, -⟩ := hruns.anyRun n hs hcount
  refine ⟨{ ev with interp := i },
    (congrArg (EncVM.cycles F.C F.decU F.decP · ev) hmc).trans (cycles_none n ev i hmir e1), ?_⟩
  have gram : d'.ram = d1.ram := sc'.ram
  have hdec : i.decryptRam F.C (List.replicate (RAM_SIZE / 4) 0#32) = some d'.ram :=
    (C29_observe F i d' r1).2.1 _ (by rw [List.length_replicate, gram, l']; rfl)
  have fout : vm2.output = p.output := by
    have := congrArg (·.2.2.1) f'
    rw [hvm1] at this; exact this.trans hpq.output
  have foff : vm2.ram.offset = p.bootRam.offset := by
    have := congrArg (·.2.2.2.2.1) f'
    rw [hvm1] at this; exact this.trans hbase.symm
  have fsz : vm2.ram.size = 4096 := by
    have := congrArg (·.2.2.2.2.2) f'
    rw [hvm1] at this; exact this
  unfold EncVM.outputTape TestVM.outputTape
  simp only
  rw [hdec, Option.bind_some, ho, hro, fout]
  apply collect_congr
  intro i _
  refine congrArg _ (funext fun a => ?_)
  unfold TMem.readByte
  rw [foff]
  refine congrArg _ (funext fun k => ?_)
  unfold TMem.get
  rw [fsz, if_neg (by decide), a'.ram, gram, unpackWords_eq]
  rfl

/-! ### A guest that multiplies -/

/-- `mul x1, x1, x1`. -/
def square : Word := 0x021080B3#32

/-- `addi x1, x0, 0`. -/
def cleared : Word := 0x00000093#32

example : square = encode (.mul .mul 1#5 1#5 1#5) ∧ soft square = cleared := by decide +kernel

theorem square_elf : Phantom.fromElf (printElf square) = some (printGuest square) ∧
    Phantom.fromElf (printElf cleared) = some (printGuest cleared) := by
  have h1 : (Phantom.fromElf (printElf square)).isSome = true := by decide +kernel
  have h2 : (Phantom.fromElf (printElf cleared)).isSome = true := by decide +kernel
  obtain ⟨x, hx⟩ := Option.isSome_iff_exists.mp h1
  obtain ⟨y, hy⟩ := Option.isSome_iff_exists.mp h2
  unfold printGuest
  rw [hx, hy]
  exact ⟨rfl, rfl⟩

theorem square_softened : Softened (printGuest square) (printGuest cleared) where
  code := by decide +kernel
  length := by decide +kernel
  romSize := by decide +kernel
  ram := by
    have h1 : (printGuest cleared).bootRam.data = (printGuest square).bootRam.data := eq_of_beq (by decide +kernel)
    have h2 : (printGuest cleared).bootRam.offset = (printGuest square).bootRam.offset := by decide +kernel
    have h3 : (printGuest cleared).bootRam.size = (printGuest square).bootRam.size := by decide +kernel
    exact bootMemory_ext h1 h2 h3
  input := by decide +kernel
  output := by decide +kernel

theorem square_step (k : Nat) (v : TestVM) (pc : Word) (x : Option Word) (hv : (printStart cleared).steps true k = some v)
    (hf : ((printStart cleared).steps true k).map exFacts =
      some (pc, x, (printStart cleared).rom, 0x40000, 4096, true)) :
    v.pc = pc ∧ v.registers[2]? = x ∧ v.rom = (printStart cleared).rom := by
  rw [hv, Option.map_some] at hf
  have h := Option.some.inj hf
  simp only [exFacts, Prod.mk.injEq] at h
  exact ⟨h.1, h.2.1, h.2.2.1⟩

theorem square_executes (k : Nat) (v : TestVM) (hk : k < 7) (hv : (printStart cleared).steps true k = some v) :
    v.Executes true (encOk 4096) := by
  have : k = 0 ∨ k = 1 ∨ k = 2 ∨ k = 3 ∨ k = 4 ∨ k = 5 ∨ k = 6 := by omega
  rcases this with rfl | rfl | rfl | rfl | rfl | rfl | rfl
  · obtain ⟨h1, h2, h3⟩ := square_step 0 v 0#32 (some 0#32) hv (by decide +kernel)
    refine executes_plain (.lui 2 0x40) ?_ ?_ (fun _ => ⟨trivial, trivial⟩) <;> rw [h1, h3] <;> decide +kernel
  · obtain ⟨h1, h2, h3⟩ := square_step 1 v 4#32 (some 0x40000#32) hv (by decide +kernel)
    refine executes_access (.load .lw 1 2 0) 2 0 0x40000#32 (Or.inl ⟨1, rfl⟩) ?_ ?_ h2 ?_ <;>
      first | (rw [h1, h3]; decide +kernel) | decide
  · obtain ⟨h1, h2, h3⟩ := square_step 2 v 8#32 (some 0x40000#32) hv (by decide +kernel)
    refine executes_plain (.opImm .addi 10 0 0) ?_ ?_ (fun _ => ⟨trivial, trivial⟩) <;> rw [h1, h3] <;> decide +kernel
  · obtain ⟨h1, h2, h3⟩ := square_step 3 v 12#32 (some 0x40000#32) hv (by decide +kernel)
    refine executes_plain (.opImm .addi 1 0 0) ?_ ?_ (fun _ => ⟨trivial, trivial⟩) <;> rw [h1, h3] <;> decide +kernel
  · obtain ⟨h1, h2, h3⟩ := square_step 4 v 16#32 (some 0x40000#32) hv (by decide +kernel)
    refine executes_plain (.opImm .addi 1 1 1) ?_ ?_ (fun _ => ⟨trivial, trivial⟩) <;> rw [h1, h3] <;> decide +kernel
  · obtain ⟨h1, h2, h3⟩ := square_step 5 v 20#32 (some 0x40000#32) hv (by decide +kernel)
    refine executes_access (.store .sw 2 1 4) 2 4 0x40000#32 (Or.inr ⟨1, rfl⟩) ?_ ?_ h2 ?_ <;>
      first | (rw [h1, h3]; decide +kernel) | decide
  · obtain ⟨h1, h2, h3⟩ := square_step 6 v 24#32 (some 0x40000#32) hv (by decide +kernel)
    refine executes_plain (.jal 0 0) ?_ ?_ (fun _ => ⟨trivial, (by decide : -2 ^ 18 ≤ (0#20).toInt ∧ (0#20).toInt < 2 ^ 18)⟩) <;> rw [h1, h3] <;> decide +kernel

/-- So the two VMs differ on guests that multiply.  This one is loaded by both and puts out the square of its input plus one:
for 0xFFFE the test VM gives 0xFFFC0005, the encrypted VM 1, under any correct library. -/
theorem C87_differ (F : Fhe) (rand : Nat → Nat → Nat → F.C.Rand) :
    ∃ ev ev2 vm0 vm1 vm2,
      (printGuest square).encryptedVm F.C rand true false 3 exTape 7 = some ev ∧
      ev.execute F.C F.decU F.decP = some ev2 ∧ ev2.outputTape F.C true = some [1, 0, 0, 0] ∧
      (printGuest square).testVm true 7 = some vm0 ∧ vm0.readInputTape true exTape = some vm1 ∧
      vm1.execute true = some vm2 ∧ vm2.outputTape true = some [0x05, 0, 0xFC, 0xFF] := by
  have hpa : ∃ q, Parser.new.addAll true (packWords (printGuest square).bootRom.data) = some q := by
    rw [← Option.isSome_iff_exists]; decide +kernel
  obtain ⟨q, hq⟩ := hpa
  obtain ⟨ev, hev⟩ := C42_setup F rand true false 3 7 (printElf square) (printGuest square) exTape q square_elf.1
    (by decide +kernel) (by decide +kernel) hq (by decide +kernel) (by decide +kernel) (by decide +kernel)
  obtain ⟨vm0, h1, h2⟩ := print_start cleared (by decide +kernel)
  obtain ⟨vm3, g1, g2⟩ := print_start square (by decide +kernel)
  have h3 : (((printStart cleared).execute true).bind fun vm => vm.outputTape true) = some [1, 0, 0, 0] := by decide +kernel
  obtain ⟨vm2, h4, h5⟩ := Option.bind_eq_some_iff.mp h3
  have g3 : (((printStart square).execute true).bind fun vm => vm.outputTape true) = some [0x05, 0, 0xFC, 0xFF] := by
    decide +kernel
  obtain ⟨vm4, g4, g5⟩ := Option.bind_eq_some_iff.mp g3
  obtain ⟨ev2, e1, e2⟩ := C87_output F rand true true 3 7 (printElf cleared) (printGuest square)
    (printGuest cleared) exTape ev vm0 (printStart cleared) vm2 (by decide +kernel) square_elf.2 square_softened
    (by decide +kernel) (by decide) (by decide) hev h1 h2 (fun k v hk hv => square_executes k v hk hv) h4
  exact ⟨ev, ev2, vm3, _, vm4, hev, e1, e2.trans h5, g1, g2, g4, g5⟩

/-- A cycle of the mirror at an instruction that does not jump. -/
theorem mirror_next {d d2 : Debug} (i : Decoded) (hi : d.rom[d.pc.toNat / 4]? = some i) (hp : i.pcu = PcUpdate.NONE.id)
    (hs : d.step = some d2) : d2.pc = d.pc + 4#32 ∧ d2.rom = d.rom := by
  obtain ⟨d1, j, a, b, v, r, o, ro, po, hl, c⟩ := Debug.step_inv hs
  have hj := c.ins
  rw [toNat_shift2, hi] at hj
  cases hj
  have hpo : po = .NONE := pcUpdate_inj _ _ (c.pcu.trans hp)
  subst hpo
  rw [c.result, c.loaded]
  exact ⟨rfl, rfl⟩

/-- With the debug comparison the same guest panics. -/
theorem C87_differ_debug (F : Fhe) (rand : Nat → Nat → Nat → F.C.Rand) (ev : EncVM F.B)
    (h : (printGuest square).encryptedVm F.C rand true true 3 exTape 7 = some ev) :
    ev.execute F.C F.decU F.decP = none := by
  obtain ⟨-, -, parser, ds, bytes, -, -, hds, -, -, -, -, hmc, hmir⟩ := encryptedVm_inv h
  unfold EncVM.execute
  rw [hmc]
  refine C87_debug _ _ _ 7 ev _ hmir ?_
  have get (k : Nat) (w : Word) (i : Decoded) (hw : (packWords (printGuest square).bootRom.data)[k]? = some w)
      (hi : decodeWord true w = some i) :
      (Debug.image ((printGuest square).bootRom.size / 4) ((printGuest square).bootRam.size / 4) ds (packWords bytes)).rom[k]?
        = some i := by
    have e := congrArg (·[k]?) hds
    simp only [List.getElem?_map, hw, Option.map_some, hi] at e
    obtain ⟨j, hj, e2⟩ := Option.map_eq_some_iff.mp e.symm
    cases e2
    show (ds ++ _)[k]? = _
    rw [List.getElem?_append_left (List.getElem?_eq_some_iff.mp hj).1]
    exact hj
  obtain ⟨i0, q0⟩ : ∃ i, decodeWord true 0x00040137#32 = some i ∧ i.pcu = PcUpdate.NONE.id :=
    ⟨_, decodeWord_encode true (.lui 2 0x40), rfl⟩
  obtain ⟨i1, q1⟩ : ∃ i, decodeWord true 0x00012083#32 = some i ∧ i.pcu = PcUpdate.NONE.id :=
    ⟨_, decodeWord_encode true (.load .lw 1 2 0), rfl⟩
  obtain ⟨i2, q2⟩ : ∃ i, decodeWord true 0x00000513#32 = some i ∧ i.pcu = PcUpdate.NONE.id :=
    ⟨_, decodeWord_encode true (.opImm .addi 10 0 0), rfl⟩
  have r0 := get 0 _ _ (by decide +kernel) q0.1
  have r1 := get 1 _ _ (by decide +kernel) q1.1
  have r2 := get 2 _ _ (by decide +kernel) q2.1
  have r3 := get 3 square _ (by decide +kernel) (decodeWord_encode true (.mul .mul 1#5 1#5 1#5))
  have hpc : (Debug.image ((printGuest square).bootRom.size / 4) ((printGuest square).bootRam.size / 4) ds (packWords bytes)).pc
    = 0#32 := rfl
  generalize Debug.image ((printGuest square).bootRom.size / 4) ((printGuest square).bootRam.size / 4) ds (packWords bytes) = d
    at r0 r1 r2 r3 hpc
  show d.step.bind (fun d => d.step.bind fun d => d.step.bind fun d => d.step.bind _) = none
  cases s0 : d.step with
  | none => rfl
  | some d1 =>
    obtain ⟨p1, m1⟩ := mirror_next i0 (by rw [hpc]; exact r0) q0.2 s0
    rw [hpc] at p1
    rw [Option.bind_some]
    cases s1 : d1.step with
    | none => rfl
    | some d2 =>
      obtain ⟨p2, m2⟩ := mirror_next i1 (by rw [p1, m1]; exact r1) q1.2 s1
      rw [p1] at p2
      rw [Option.bind_some]
      cases s2 : d2.step with
      | none => rfl
      | some d3 =>
        obtain ⟨p3, m3⟩ := mirror_next i2 (by rw [p2, m2, m1]; exact r2) q2.2 s2
        rw [p2] at p3
        rw [Option.bind_some, C87_mirror d3 true .mul 1#5 1#5 1#5
          (by rw [p3, m3, m2, m1, decodeWord_encode]; exact r3)]
        rfl

example : isMulDiv square ∧ soft square = encode (.opImm .addi 1#5 0#5 0#12) ∧ ¬ isMulDiv nop := by decide +kernel
example : encMulDiv .divu 0x24#32 7#32 = 0x24#32 ∧ encMulDiv .remu 0#32 0x80000000#32 = 1#32 := by decide +kernel

end Verif.Props
