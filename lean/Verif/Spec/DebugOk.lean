import Verif.Spec.Interpreter
/-
  Specification: when the comparison of the encrypted execution with the mirror passes.
-/
namespace Verif.Spec

/-- At an instruction in a state: it is not a multiplication or division; a signed byte load meets a byte below 128 at the word it reads;
a JAL stays within 512 KiB. -/
def debugOk (words : Nat) (i : Instr) (s : Arch) : Prop :=
  match i with
  | .mul .. => False
  | .load .lb _ rs1 imm => (s.mem (ramWord words (s.x rs1 + immI imm))).toNat < 128
  | .jal _ imm => -2 ^ 18 ≤ imm.toInt ∧ imm.toInt < 2 ^ 18
  | _ => True

end Verif.Spec
