import Verif.Spec.Isa
import Verif.Lemmas.WellFormed
import Verif.Lemmas.PcChecks.A
import Verif.Lemmas.PcChecks.B
import Verif.Lemmas.PcChecks.C
import Verif.Props.Decode
/-
  Properties C15-C20: the generated circuits compute what the VM needs, on every input and whatever
  the evaluator's buffers held before.
-/
namespace Verif.Props
open Spec Model Bdd

/-! ## C15 LUI -/

theorem twoWords_lo (a b : Word) (k : Nat) (h : k < 32) : twoWords a b k = a.getLsbD k := by
  simp [twoWords, h]
theorem twoWords_hi (a b : Word) (k : Nat) : twoWords a b (32 + k) = b.getLsbD k := by
  simp [twoWords]

/-- The LUI circuit yields the 20-bit immediate shifted into the upper bits. -/
theorem C15_lui (imm other : Word) (s0 s1 : Nat → Nat → Bool) :
    luiOp s0 s1 imm other = some (imm <<< 12) := by
  apply circuitWord_eq _ _ _ _ _ rfl
  intro j c hj s s'
  have hlt : j < 32 := by
    have := List.getElem?_eq_some_iff.mp hj; exact this.1
  have h := checkIdx_get lui_checked j c hj
  rw [Nat.zero_add] at h
  rw [check_sound (addAuto parJalr j) (addSem parJalr j (twoWords imm other)) (twoWords imm other)
    noFixed (by simp [noFixed]) (addAuto_step _ _ _) (addAuto_out _ _ _) 0 c _ h s s']
  congr 1
  by_cases h12 : j < 12
  · simp [Nat.blt_eq, h12, addSem, BitVec.getLsbD_shiftLeft]
  · simp only [Nat.blt_eq, h12, if_false, addSem]
    rw [twoWords_lo _ _ _ (by omega), BitVec.getLsbD_shiftLeft]
    simp [hlt, h12]

/-- In terms of the manual: on the immediate stored in the ROM, the value LUI writes. -/
theorem C15_lui_isa (imm : BitVec 20) (other : Word) (s0 s1 : Nat → Nat → Bool) :
    luiOp s0 s1 (imm.setWidth 32) other = some (immU imm) := C15_lui _ _ _ _

example : luiOp (fun _ _ => true) (fun _ _ => true) 0xABCDE#32 7#32 = some 0xABCDE000#32 := by
  decide +kernel

/-! ## Adders -/

theorem adder_word (P : AdderP) (cs : List BitCircuit) (hc : checkIdx (checkAdd P) 0 cs = true)
    (hl : cs.length = 32) (bit : Nat → Bool) (x y : Word) (hK : P.K < 2 ^ 32) (hsg : P.sg = none)
    (hX : ∀ k, k < 32 → semX P bit k = (x.getLsbD k).toNat)
    (hY : ∀ k sgn, k < 32 → semY P bit k sgn = (y.getLsbD k).toNat)
    (s0 s1 : Nat → Nat → Bool) :
    circuitWord cs bit s0 s1 = some (x + y + BitVec.ofNat 32 P.K) := by
  apply circuitWord_eq _ _ _ _ _ hl
  intro j c hj s s'
  have hlt : j < 32 := by
    have := (List.getElem?_eq_some_iff.mp hj).1; omega
  have h := checkIdx_get hc j c hj
  rw [Nat.zero_add] at h
  rw [check_sound (addAuto P j) (addSem P j bit) bit noFixed (by simp [noFixed])
    (addAuto_step _ _ _) (addAuto_out _ _ _) 0 c _ h s s']
  congr 1
  refine mk_word P j bit x y false hlt hK (fun k hk => hX k (by omega))
    (fun k sgn hk _ => hY k sgn (by omega)) ?_ ?_
  · intro k sgn _ _ h; simp [AdderP.above, hsg] at h
  · intro _ h; simp [AdderP.above, hsg] at h

/-! ## C16 AUIPC -/

theorem C16_auipc (pc imm : Word) (s0 s1 : Nat → Nat → Bool) :
    auipcOp s0 s1 pc imm = some (pc + imm <<< 12) := by
  have := adder_word parAuipc _ auipc_checked rfl (twoWords pc imm) pc (imm <<< 12) (by decide) rfl
    (fun k hk => by simp only [semX, parAuipc, twoWords_lo pc imm k hk])
    (fun k sgn hk => by
      by_cases h : k < 12
      · simp [semY, AdderP.yPend, AdderP.yConst, AdderP.above, parAuipc, h, BitVec.getLsbD_shiftLeft]
      · simp only [semY, AdderP.yPend, AdderP.above, parAuipc, Nat.blt_eq, h, if_false,
          Bool.false_eq_true]
        rw [show 20 + k = 32 + (k - 12) by omega, twoWords_hi, BitVec.getLsbD_shiftLeft]
        simp [hk, h]) s0 s1
  simpa [auipcOp, parAuipc] using this

theorem C16_auipc_isa (s : Arch) (imm : BitVec 20) (s0 s1 : Nat → Nat → Bool) :
    auipcOp s0 s1 s.pc (imm.setWidth 32) = some ((exec (.auipc 1#5 imm) s).reg 1#5) := by
  rw [C16_auipc]; rfl

example : auipcOp (fun _ _ => true) (fun _ _ => false) 0xFFFFF008#32 0x00001#32 = some 0x8#32 := by
  decide +kernel

/-! ## C17 link value -/

theorem C17_link (pc other : Word) (s0 s1 : Nat → Nat → Bool) :
    jalrOp s0 s1 pc other = some (pc + 4#32) := by
  have := adder_word parJalr _ jalr_checked rfl (twoWords pc other) pc 0#32 (by decide) rfl
    (fun k hk => by simp only [semX, parJalr, twoWords_lo pc other k hk])
    (fun k sgn hk => by simp [semY, AdderP.yPend, AdderP.yConst, parJalr]) s0 s1
  simpa [jalrOp, parJalr] using this

example : jalrOp (fun _ _ => true) (fun _ _ => false) 0xFFFFFFFC#32 9#32 = some 0#32 := by
  decide +kernel

/-! ## C18 RAM address -/

theorem helper2_lo (a b : Word) (k : Nat) (h : k < 32) :
    helperBit [0, 32] [a, b] k = a.getLsbD k := by
  have : ¬ 32 ≤ k := by omega
  simp [helperBit, this]
theorem helper2_hi (a b : Word) (k : Nat) : helperBit [0, 32] [a, b] (32 + k) = b.getLsbD k := by
  simp [helperBit]

/-- Sum of the operands minus the RAM base `2^18` (modulo `2^32`). -/
theorem C18_ram_offset (a b : Word) (s0 s1 : Nat → Nat → Bool) :
    ramOffsetOp s0 s1 a b = some (a + b - 0x40000#32) := by
  have := adder_word parRam _ ramOffset_checked rfl (helperBit [0, 32] [a, b]) a b (by decide) rfl
    (fun k hk => by simp only [semX, parRam, helper2_lo a b k hk])
    (fun k sgn hk => by
      simp only [semY, AdderP.yPend, AdderP.above, parRam, Bool.false_eq_true, if_false, helper2_hi])
    s0 s1
  rw [ramOffsetOp, this]
  refine congrArg some ?_
  rw [BitVec.sub_eq_add_neg]
  exact congrArg (fun z => a + b + z) (show BitVec.ofNat 32 parRam.K = -0x40000#32 by decide)

/-- The VM passes the operands as `(imm, rs1)` although the parameters are named `(rs1, imm)`; the
order is irrelevant. -/
theorem C18_order (a b : Word) (s0 s1 s0' s1' : Nat → Nat → Bool) :
    ramOffsetOp s0 s1 a b = ramOffsetOp s0' s1' b a := by
  rw [C18_ram_offset, C18_ram_offset, BitVec.add_comm a b]

/-- For an address at or above the RAM base, the result is the distance to the base. -/
theorem C18_in_ram (a b : Word) (s0 s1 : Nat → Nat → Bool) (h : 0x40000 ≤ (a + b).toNat) :
    ramOffsetOp s0 s1 a b = some (BitVec.ofNat 32 ((a + b).toNat - 0x40000)) := by
  rw [C18_ram_offset]
  refine congrArg some ?_
  apply BitVec.eq_of_toNat_eq
  have := (a + b).isLt
  rw [BitVec.toNat_sub_of_le (by simpa [BitVec.le_def] using h)]
  rw [BitVec.toNat_ofNat, BitVec.toNat_ofNat]; omega

example : ramOffsetOp (fun _ _ => true) (fun _ _ => true) 0xFFFFFFFC#32 0x40010#32 = some 0xC#32 := by
  decide +kernel

/-! ## C19 next pc -/

section
variable (opid rs1 rs2 pc imm : Word)

/-- Inputs as laid out by the helper. -/
abbrev pcBit : Nat → Bool := helperBit [0, 4, 36, 68, 100] [opid, rs1, rs2, pc, imm]

theorem pcBit_op (k : Nat) (h : k < 4) : pcBit opid rs1 rs2 pc imm k = opid.getLsbD k := by
  have : ¬ 4 ≤ k := by omega
  simp [pcBit, helperBit, this]
theorem pcBit_rs1 (k : Nat) (h : k < 32) : pcBit opid rs1 rs2 pc imm (4 + k) = rs1.getLsbD k := by
  have : ¬ 36 ≤ 4 + k := by omega
  simp [pcBit, helperBit, this]
theorem pcBit_rs2 (k : Nat) (h : k < 32) : pcBit opid rs1 rs2 pc imm (36 + k) = rs2.getLsbD k := by
  have h1 : ¬ 68 ≤ 36 + k := by omega
  have h2 : 4 ≤ 36 + k := by omega
  simp [pcBit, helperBit, h1, h2]
theorem pcBit_pc (k : Nat) (h : k < 32) : pcBit opid rs1 rs2 pc imm (68 + k) = pc.getLsbD k := by
  have h1 : ¬ 100 ≤ 68 + k := by omega
  have h2 : 4 ≤ 68 + k := by omega
  have h3 : 36 ≤ 68 + k := by omega
  simp [pcBit, helperBit, h1, h2, h3]
theorem pcBit_imm (k : Nat) : pcBit opid rs1 rs2 pc imm (100 + k) = imm.getLsbD k := by
  have h2 : 4 ≤ 100 + k := by omega
  have h3 : 36 ≤ 100 + k := by omega
  have h4 : 68 ≤ 100 + k := by omega
  simp [pcBit, helperBit, h2, h3, h4]
end

/-- The branch comparison performed for an operation. -/
def cmpOf : PcUpdate → Option Cmp
  | .BEQ => some .eq | .BNE => some .ne | .BLT => some .lt | .BGE => some .ge
  | .BLTU => some .ltu | .BGEU => some .geu
  | _ => none

theorem pcStart_sem (o : PcUpdate) (opid rs1 rs2 pc imm : Word) (t : Nat) (ht : t < 32) :
    pcSem (pcBit opid rs1 rs2 pc imm) t (pcStart o t) =
      (o.evalPlain (imm20 imm) rs1 rs2 pc).getLsbD t := by
  have hrs1 := fun k h => pcBit_rs1 opid rs1 rs2 pc imm k h
  have hrs2 := fun k h => pcBit_rs2 opid rs1 rs2 pc imm k h
  have hpc := fun k h => pcBit_pc opid rs1 rs2 pc imm k h
  have himm := fun k (_ : k < 20) => pcBit_imm opid rs1 rs2 pc imm k
  have s1 := sum_pcImm _ t pc imm ht hpc himm
  have s2 := sum_pc4 _ t pc ht hpc
  have s3 := sum_rs1Imm _ t rs1 imm ht hrs1 himm
  have hc := fun c => semCmp_holds (pcBit opid rs1 rs2 pc imm) rs1 rs2 hrs1 hrs2 c
  have br : ∀ (c : Cmp), pcSem (pcBit opid rs1 rs2 pc imm) t (.cmp c 31 none) =
      if semCmp (pcBit opid rs1 rs2 pc imm) c 31 then (pc + imm20 imm).getLsbD t
      else (pc + 4#32).getLsbD t := by
    intro c; rw [← s1, ← s2]; rfl
  have fin : ∀ (c : Cmp) (p : Prop) [Decidable p], (c.holds rs1 rs2 ↔ p) →
      pcSem (pcBit opid rs1 rs2 pc imm) t (.cmp c 31 none) =
        (if p then pc + imm20 imm else pc + 4#32).getLsbD t := by
    intro c p _ hp
    rw [br c]
    by_cases h : p
    · rw [if_pos h, if_pos ((hc c).mpr (hp.mpr h))]
    · rw [if_neg h, if_neg (fun h' => h (hp.mp ((hc c).mp h')))]
  cases o with
  | NONE => exact s2
  | JAL => exact s1
  | JALR =>
    simp only [pcStart, PcUpdate.evalPlain]
    cases t with
    | zero => simp [pcSem, addSem]
    | succ t =>
      have : (rs1 + imm20 imm &&& 0xFFFFFFFE#32).getLsbD (t + 1) =
          (rs1 + imm20 imm).getLsbD (t + 1) := by
        rw [BitVec.getLsbD_and]
        have : (0xFFFFFFFE#32).getLsbD (t + 1) = true := by
          have : ∀ u, u < 31 → (0xFFFFFFFE#32).getLsbD (u + 1) = true := by decide
          exact this t (by omega)
        rw [this, Bool.and_true]
      rw [this, ← s3]
      rfl
  | BEQ => exact fin .eq _ Iff.rfl
  | BNE => exact fin .ne _ Iff.rfl
  | BLT => exact fin .lt _ (by simp [Cmp.holds, BitVec.slt])
  | BGE => exact fin .ge _ (by simp [Cmp.holds, BitVec.sle])
  | BLTU => exact fin .ltu _ (by simp [Cmp.holds, BitVec.ult])
  | BGEU => exact fin .geu _ (by simp [Cmp.holds, BitVec.ule])

theorem pc_checked (o : PcUpdate) : checkIdx (checkPc o) 0 Circuits.PcUpdate.circuits = true := by
  cases o
  · exact pc_NONE_checked
  · exact pc_JAL_checked
  · exact pc_JALR_checked
  · exact pc_BEQ_checked
  · exact pc_BNE_checked
  · exact pc_BLT_checked
  · exact pc_BGE_checked
  · exact pc_BLTU_checked
  · exact pc_BGEU_checked

/-- The pc circuit computes the plaintext next pc, with the immediate reduced to its low 20 bits,
sign-extended.  Only the low four bits of the operation id matter. -/
theorem C19_next_pc (o : PcUpdate) (opid rs1 rs2 pc imm : Word) (s0 s1 : Nat → Nat → Bool)
    (hop : opid.setWidth 4 = o.id.setWidth 4) :
    updatePcOp s0 s1 rs1 rs2 pc imm opid =
      some (o.evalPlain ((imm.setWidth 20).signExtend 32) rs1 rs2 pc) := by
  apply circuitWord_eq _ _ _ _ _ rfl
  intro j c hj s s'
  have hlt : j < 32 := by
    have := List.getElem?_eq_some_iff.mp hj; exact this.1
  have h := checkIdx_get (pc_checked o) j c hj
  rw [Nat.zero_add] at h
  have hfix : ∀ v b, fixedOp o.id.toNat v = some b → pcBit opid rs1 rs2 pc imm v = b := by
    intro v b hv
    unfold fixedOp at hv
    by_cases h4 : v < 4
    · simp only [Nat.blt_eq, h4, if_true, Option.some.injEq] at hv
      rw [pcBit_op _ _ _ _ _ v h4, ← hv]
      have := congrArg (fun z => z.getLsbD v) hop
      simpa [h4, -BitVec.getLsbD_eq_getElem, BitVec.testBit_toNat] using this
    · simp [Nat.blt_eq, h4] at hv
  rw [check_sound (pcAuto j) (pcSem (pcBit opid rs1 rs2 pc imm) j) (pcBit opid rs1 rs2 pc imm)
    (fixedOp o.id.toNat) hfix (pcAuto_step _ _) (pcAuto_out _ _) _ c _ h s s',
    pcStart_sem o opid rs1 rs2 pc imm j hlt]
  rfl

/-- Immediates of 20 signed bits. -/
theorem imm20_id (imm : Word) (h1 : -2 ^ 19 ≤ imm.toInt) (h2 : imm.toInt < 2 ^ 19) :
    (imm.setWidth 20).signExtend 32 = imm := by
  apply BitVec.eq_of_toInt_eq
  rw [BitVec.toInt_signExtend_of_le (by omega), BitVec.toInt_setWidth]
  have : imm.toInt = (imm.toNat : Int).bmod (2 ^ 32) := BitVec.toInt_eq_toNat_bmod imm
  have h3 : (imm.toNat : Int).bmod (2 ^ 20) = imm.toInt.bmod (2 ^ 20) := by
    rw [this, Int.bmod_bmod_of_dvd (by decide)]
  rw [h3]
  apply Int.bmod_eq_of_le <;> simp <;> omega

theorem C19_next_pc_20bit (o : PcUpdate) (opid rs1 rs2 pc imm : Word) (s0 s1 : Nat → Nat → Bool)
    (hop : opid.setWidth 4 = o.id.setWidth 4) (h1 : -2 ^ 19 ≤ imm.toInt) (h2 : imm.toInt < 2 ^ 19) :
    updatePcOp s0 s1 rs1 rs2 pc imm opid = some (o.evalPlain imm rs1 rs2 pc) := by
  rw [C19_next_pc o _ _ _ _ _ _ _ hop, imm20_id imm h1 h2]

/-- Outside that range the circuit's sum differs from the plaintext one: a forward jump of 512 KiB
goes backwards. -/
theorem C19_wide_jump_fails :
    updatePcOp (fun _ _ => false) (fun _ _ => false) 0#32 0#32 0x80000#32 0x80000#32
      PcUpdate.JAL.id = some 0#32 ∧
    PcUpdate.JAL.evalPlain 0x80000#32 0#32 0#32 0x80000#32 = 0x100000#32 := by
  refine ⟨?_, by decide⟩
  rw [C19_next_pc .JAL _ _ _ _ _ _ _ rfl]; decide

example : updatePcOp (fun _ _ => true) (fun _ _ => true) 0x80000000#32 1#32 0x100#32 0xFFFFFFF8#32
    PcUpdate.BLT.id = some 0xF8#32 := by decide +kernel
example : updatePcOp (fun _ _ => true) (fun _ _ => true) 0x80000000#32 1#32 0x100#32 0xFFFFFFF8#32
    PcUpdate.BLTU.id = some 0x104#32 := by decide +kernel

/-! ## C20 well-formedness -/

/-- The five generated families with their declared input sizes. -/
def families : List (Nat × List BitCircuit) :=
  [(Circuits.Lui.inputBits, Circuits.Lui.circuits), (Circuits.Jalr.inputBits, Circuits.Jalr.circuits),
   (Circuits.Auipc.inputBits, Circuits.Auipc.circuits),
   (Circuits.RamOffset.inputBits, Circuits.RamOffset.circuits),
   (Circuits.PcUpdate.inputBits, Circuits.PcUpdate.circuits)]

theorem families_wf (f : Nat × List BitCircuit) (hf : f ∈ families) (c : BitCircuit) (hc : c ∈ f.2) :
    wellFormed f.1 c = true := by
  simp only [families, List.mem_cons, List.not_mem_nil, or_false] at hf
  rcases hf with rfl | rfl | rfl | rfl | rfl
  · exact List.all_eq_true.mp lui_wf c hc
  · exact List.all_eq_true.mp jalr_wf c hc
  · exact List.all_eq_true.mp auipc_wf c hc
  · exact List.all_eq_true.mp ramOffset_wf c hc
  · exact List.all_eq_true.mp pcUpdate_wf c hc

/-- Evaluation never panics, and its outcome depends only on the declared inputs: neither on inputs
beyond the declared size nor on the previous contents of the buffers. -/
theorem C20_defined (f : Nat × List BitCircuit) (hf : f ∈ families) (c : BitCircuit) (hc : c ∈ f.2)
    (bit bit' : Nat → Bool) (hb : ∀ v, v < f.1 → bit v = bit' v) :
    ∃ b, ∀ s0 s1, c.run bit s0 s1 = some b ∧ c.run bit' s0 s1 = some b := by
  have hw := families_wf f hf c hc
  obtain ⟨b, h⟩ := wellFormed_run f.1 c hw bit
  refine ⟨b, fun s0 s1 => ⟨h s0 s1, ?_⟩⟩
  rw [← h s0 s1]
  exact (run_congr f.1 c hw bit bit' hb s0 s1 s0 s1).symm

def selOk (nin : Nat) : Node → Bool
  | .cmux v _ _ => Nat.blt v nin
  | _ => true

/-- Every selector is within the declared inputs, every level is complete, and there are 32 output
bits per family. -/
theorem C20_shape : ∀ f ∈ families, f.2.length = 32 ∧
    ∀ c ∈ f.2, (∀ v hi lo, Node.cmux v hi lo ∈ c.nodes → v < f.1) ∧
      c.nodes.length % c.maxInterState = 0 := by
  have key : families.all (fun f => Nat.beq f.2.length 32 && f.2.all fun c =>
      c.nodes.all (selOk f.1) && Nat.beq (c.nodes.length % c.maxInterState) 0) = true := by
    decide +kernel
  intro f hf
  have h := List.all_eq_true.mp key f hf
  simp only [Bool.and_eq_true] at h
  refine ⟨Nat.eq_of_beq_eq_true h.1, fun c hc => ?_⟩
  have h2 := List.all_eq_true.mp h.2 c hc
  simp only [Bool.and_eq_true] at h2
  refine ⟨fun v hi lo hm => ?_, Nat.eq_of_beq_eq_true h2.2⟩
  have := List.all_eq_true.mp h2.1 _ hm
  simpa [selOk, Nat.blt_eq] using this

example : (Circuits.PcUpdate.b0.run (fun v => v == 0) (fun _ => true) (fun _ => true)) =
    (Circuits.PcUpdate.b0.run (fun v => v == 0) (fun _ => false) (fun _ => false)) := by decide +kernel

end Verif.Props
