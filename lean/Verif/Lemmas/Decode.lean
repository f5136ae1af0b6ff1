import Verif.Spec.Isa
import Verif.Lemmas.Bits
import Verif.Model.Instr
/-
  Helper lemmas: what the model's field accessors return on words built with the
  manual's formats.
-/
namespace Verif
open Spec Model

macro "fld" : tactic => `(tactic| (
  simp only [getOpcode, getField, setField, OPCODEMASK, OPCODESHIFT, FUNCT3MASK, FUNCT3SHIFT, FUNCT7MASK,
    FUNCT7SHIFT, RS1MASK, RS1SHIFT, RS2MASK, RS2SHIFT, RDMASK, RDSHIFT, SHAMTMASK, SHAMTSHIFT,
    rType, iType, sType, bType, uType, jType, place]
  bits32))

section
variable (f7 op : BitVec 7) (rs2 rs1 rd : Reg) (f3 : BitVec 3) (imm12 : BitVec 12) (imm20 : BitVec 20)

theorem opcode_r : getOpcode (rType f7 rs2 rs1 f3 rd op) = op.setWidth 32 := by fld
theorem opcode_i : getOpcode (iType imm12 rs1 f3 rd op) = op.setWidth 32 := by fld
theorem opcode_s : getOpcode (sType imm12 rs2 rs1 f3 op) = op.setWidth 32 := by fld
theorem opcode_b : getOpcode (bType imm12 rs2 rs1 f3 op) = op.setWidth 32 := by fld
theorem opcode_u : getOpcode (uType imm20 rd op) = op.setWidth 32 := by fld
theorem opcode_j : getOpcode (jType imm20 rd op) = op.setWidth 32 := by fld

theorem funct3_r : getField FUNCT3MASK FUNCT3SHIFT (rType f7 rs2 rs1 f3 rd op) = f3.setWidth 32 := by fld
theorem funct3_i : getField FUNCT3MASK FUNCT3SHIFT (iType imm12 rs1 f3 rd op) = f3.setWidth 32 := by fld
theorem funct3_s : getField FUNCT3MASK FUNCT3SHIFT (sType imm12 rs2 rs1 f3 op) = f3.setWidth 32 := by fld
theorem funct3_b : getField FUNCT3MASK FUNCT3SHIFT (bType imm12 rs2 rs1 f3 op) = f3.setWidth 32 := by fld
theorem funct7_r : getField FUNCT7MASK FUNCT7SHIFT (rType f7 rs2 rs1 f3 rd op) = f7.setWidth 32 := by fld
theorem rs1_r : getField RS1MASK RS1SHIFT (rType f7 rs2 rs1 f3 rd op) = rs1.setWidth 32 := by fld
theorem rs1_i : getField RS1MASK RS1SHIFT (iType imm12 rs1 f3 rd op) = rs1.setWidth 32 := by fld
theorem rs1_s : getField RS1MASK RS1SHIFT (sType imm12 rs2 rs1 f3 op) = rs1.setWidth 32 := by fld
theorem rs1_b : getField RS1MASK RS1SHIFT (bType imm12 rs2 rs1 f3 op) = rs1.setWidth 32 := by fld
theorem rs2_r : getField RS2MASK RS2SHIFT (rType f7 rs2 rs1 f3 rd op) = rs2.setWidth 32 := by fld
theorem rs2_s : getField RS2MASK RS2SHIFT (sType imm12 rs2 rs1 f3 op) = rs2.setWidth 32 := by fld
theorem rs2_b : getField RS2MASK RS2SHIFT (bType imm12 rs2 rs1 f3 op) = rs2.setWidth 32 := by fld
theorem rd_r : getField RDMASK RDSHIFT (rType f7 rs2 rs1 f3 rd op) = rd.setWidth 32 := by fld
theorem rd_i : getField RDMASK RDSHIFT (iType imm12 rs1 f3 rd op) = rd.setWidth 32 := by fld
theorem rd_u : getField RDMASK RDSHIFT (uType imm20 rd op) = rd.setWidth 32 := by fld
theorem rd_j : getField RDMASK RDSHIFT (jType imm20 rd op) = rd.setWidth 32 := by fld
theorem shamt_r : getField SHAMTMASK SHAMTSHIFT (rType f7 rs2 rs1 f3 rd op) = rs2.setWidth 32 := by fld

theorem imm_i : IType.getImmediate (iType imm12 rs1 f3 rd op) = immI imm12 := by
  simp only [IType.getImmediate, signmask, immI]; fld
theorem imm_s : SType.getImmediate (sType imm12 rs2 rs1 f3 op) = immI imm12 := by
  simp only [SType.getImmediate, signmask, immI]; fld
theorem imm_b : BType.getImmediate (bType imm12 rs2 rs1 f3 op) = immB imm12 := by
  simp only [BType.getImmediate, signmask, immB]; fld
theorem imm_j : JType.getImmediate (jType imm20 rd op) = immJ imm20 := by
  simp only [JType.getImmediate, signmask, immJ]; fld
theorem imm_u : UType.getImmediate (uType imm20 rd op) = imm20.setWidth 32 := by
  simp only [UType.getImmediate]; fld
end

end Verif
