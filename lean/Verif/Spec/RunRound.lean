import Verif.Spec.SameStep
import Verif.Spec.Interpreter
/-
  Specification: when an instruction has the same effect on both VMs if the program counter of the encrypted VM is taken modulo the size
  of the program and that of the test VM is not.
-/
namespace Verif.Spec

/-- In a state of the test VM, with a program of `2 ^ bits` bytes: as before, and an instruction that writes the program counter to a
register is executed before the program starts over.  A jump may be far if the program is at most 1 MiB. -/
def sameRound (bits : Nat) (i : Instr) (s : Arch) : Prop :=
  match i with
  | .auipc rd _ | .jalr rd _ _ => rd = 0#5 ∨ s.pc.toNat < 2 ^ bits
  | .jal rd imm => (rd = 0#5 ∨ s.pc.toNat < 2 ^ bits) ∧ (bits ≤ 20 ∨ -2 ^ 18 ≤ imm.toInt ∧ imm.toInt < 2 ^ 18)
  | .mul o rd rs1 rs2 => rd = 0#5 ∨ o.eval (s.x rs1) (s.x rs2) = encMulDiv o (s.wrapPc bits).pc (s.x rs1)
  | i => sameStep i s

/-- The instructions for which this holds in every state in which the test VM executes them: as before, except that none writes the
program counter to a register, unless the program is as large as the address space.  (JALR to a constant address which is not a multiple
of four is never executed.) -/
def alwaysRound (bits : Nat) (i : Instr) : Prop :=
  match i with
  | .auipc rd _ => rd = 0#5 ∨ 32 ≤ bits
  | .jalr rd rs1 imm => rd = 0#5 ∨ 32 ≤ bits ∨ rs1 = 0#5 ∧ 2 ≤ imm.toNat % 4
  | .jal rd imm => (rd = 0#5 ∨ 32 ≤ bits) ∧ (bits ≤ 20 ∨ -2 ^ 18 ≤ imm.toInt ∧ imm.toInt < 2 ^ 18)
  | i => alwaysSame i

end Verif.Spec
