import Verif.Spec.DocTable
import Verif.Lemmas.PcChecks.Other
import Verif.Props.Circuits
/-
  Property C86: the operation ids of the documentation, and what every id does.
-/
namespace Verif.Props
open Spec Model Bdd

/-- The circuits checked with any of the sixteen ids. -/
theorem pc_checked_at (n : Nat) (h : n < 16) :
    checkIdx (checkPcAt n (pcOperation (n.testBit 0) (n.testBit 1) (n.testBit 2) (n.testBit 3))) 0
      Circuits.PcUpdate.circuits = true := by
  have hc : n = 0 ∨ n = 1 ∨ n = 2 ∨ n = 3 ∨ n = 4 ∨ n = 5 ∨ n = 6 ∨ n = 7 ∨ n = 8 ∨ n = 9 ∨ n = 10 ∨ n = 11 ∨
      n = 12 ∨ n = 13 ∨ n = 14 ∨ n = 15 := by omega
  rcases hc with rfl | rfl | rfl | rfl | rfl | rfl | rfl | rfl | rfl | rfl | rfl | rfl | rfl | rfl | rfl | rfl
  · exact pc_BEQ_checked
  · exact pc_NONE_checked
  · exact pc_BLTU_checked
  · exact pc_JAL_checked
  · exact pc_BNE_checked
  · exact pc_5_checked
  · exact pc_BLT_checked
  · exact pc_JALR_checked
  · exact pc_8_checked
  · exact pc_9_checked
  · exact pc_BGEU_checked
  · exact pc_11_checked
  · exact pc_12_checked
  · exact pc_13_checked
  · exact pc_BGE_checked
  · exact pc_15_checked

/-- Every id is that of an operation: whatever word the VM holds as id, the circuit of the next pc computes one of
the nine operations, the one its four low bits stand for. -/
theorem C86_every_id (opid rs1 rs2 pc imm : U32) (s0 s1 : Nat → Nat → Bool) :
    updatePcOp s0 s1 rs1 rs2 pc imm opid =
      some ((pcOperation (opid.getLsbD 0) (opid.getLsbD 1) (opid.getLsbD 2) (opid.getLsbD 3)).evalPlain
        ((imm.setWidth 20).signExtend 32) rs1 rs2 pc) := by
  have hn : (opid.setWidth 4).toNat < 16 := (opid.setWidth 4).isLt
  have hb : ∀ v, v < 4 → (opid.setWidth 4).toNat.testBit v = opid.getLsbD v := by
    intro v hv
    rw [BitVec.testBit_toNat, BitVec.getLsbD_setWidth]; simp [hv]
  have hck := pc_checked_at _ hn
  rw [hb 0 (by omega), hb 1 (by omega), hb 2 (by omega), hb 3 (by omega)] at hck
  apply circuitWord_eq _ _ _ _ _ rfl
  intro j c hj s s'
  have hlt : j < 32 := by
    have := List.getElem?_eq_some_iff.mp hj; exact this.1
  have h := checkIdx_get hck j c hj
  rw [Nat.zero_add] at h
  have hfix : ∀ v b, fixedOp (opid.setWidth 4).toNat v = some b → pcBit opid rs1 rs2 pc imm v = b := by
    intro v b hv
    unfold fixedOp at hv
    by_cases h4 : v < 4
    · simp only [Nat.blt_eq, h4, if_true, Option.some.injEq] at hv
      rw [pcBit_op _ _ _ _ _ v h4, ← hv, hb v h4]
    · simp [Nat.blt_eq, h4] at hv
  rw [check_sound (pcAuto j) (pcSem (pcBit opid rs1 rs2 pc imm) j) (pcBit opid rs1 rs2 pc imm)
    (fixedOp (opid.setWidth 4).toNat) hfix (pcAuto_step _ _) (pcAuto_out _ _) _ c _ h s s',
    pcStart_sem _ opid rs1 rs2 pc imm j hlt]
  rfl

/-- The ids of the code are among them. -/
theorem C86_own (o : PcUpdate) :
    pcOperation (o.id.getLsbD 0) (o.id.getLsbD 1) (o.id.getLsbD 2) (o.id.getLsbD 3) = o := by
  cases o <;> decide

/-- The documented ids are those of the code except for four loads and, for the next pc, JALR and BNE. -/
theorem C86_ids_partial :
    (∀ o : RdUpdate, docId docRd (rdMnemonic o) = some o.id.toNat ↔ o ∉ [.LH, .LW, .LBU, .LHU]) ∧
    (∀ o : RamUpdate, docId docRam (ramMnemonic o) = some o.id.toNat) ∧
    (∀ o : PcUpdate, docId docPc (pcMnemonic o) = some o.id.toNat ↔ o ∉ [.JALR, .BNE]) := by
  refine ⟨?_, ?_, ?_⟩ <;> intro o <;> cases o <;> decide +kernel

/-- What the documented ids of the others stand for: loads of another width, and BNE for JALR. -/
theorem C86_fails :
    (docId docRd "lh" = some RdUpdate.LBU.id.toNat ∧ docId docRd "lw" = some RdUpdate.LH.id.toNat ∧
      docId docRd "lbu" = some RdUpdate.LHU.id.toNat ∧ docId docRd "lhu" = some RdUpdate.LW.id.toNat) ∧
    docId docPc "jalr" = some PcUpdate.BNE.id.toNat := by
  decide +kernel

/-- With the documented id of BNE the encrypted VM branches exactly when the operands are equal. -/
theorem C86_bne (rs1 rs2 pc imm : U32) (s0 s1 : Nat → Nat → Bool) (n : Nat) (h : docId docPc "bne" = some n) :
    updatePcOp s0 s1 rs1 rs2 pc imm (BitVec.ofNat 32 n) =
      some (if rs1 = rs2 then pc + (imm.setWidth 20).signExtend 32 else pc + 4#32) := by
  have : n = 8 := by
    have h8 : docId docPc "bne" = some 8 := by decide +kernel
    rw [h8] at h; exact (Option.some.inj h).symm
  subst this
  rw [C86_every_id]; rfl

example : updatePcOp (fun _ _ => true) (fun _ _ => false) 5#32 5#32 0x100#32 0x20#32 8#32 = some 0x120#32 := by
  rw [C86_every_id]; decide
example : updatePcOp (fun _ _ => true) (fun _ _ => false) 5#32 6#32 0x100#32 0x20#32 0xFFFFFFFF#32 = some 0x24#32 := by
  rw [C86_every_id]; decide
example : docId docPc "bne" = some 8 := by decide +kernel

end Verif.Props
