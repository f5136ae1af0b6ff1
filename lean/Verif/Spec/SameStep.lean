import Verif.Spec.AllInstr
import Verif.Spec.TestExact
/-
  Specification: when an instruction has the same effect on both VMs, with the RAM of the loader.
-/
namespace Verif.Spec

/-- A load at `a` from the bytes `m` returns the same as the load at the start of the word, without sign extension of a byte. -/
def sameLoad (o : LoadOp) (m : Word → Byte) (a : Word) : Prop :=
  let w := a - BitVec.ofNat 32 (a.toNat % 4)
  match o with
  | .lb => m a = m w ∧ (m a).toNat < 128
  | .lbu => m a = m w
  | .lh | .lhu => m a = m w ∧ m (a + 1#32) = m (w + 1#32)
  | .lw => True

/-- In a state: a load is `sameLoad` or goes to `x0`; a half word is stored at an even address, or it is zero and so are the bytes around
it; a jump is below 512 KiB; a multiplication or division goes to `x0` or has the result of the instruction that the encrypted VM executes
instead. -/
def sameStep (i : Instr) (s : Arch) : Prop :=
  match i with
  | .load o rd rs1 imm => rd = 0#5 ∨ sameLoad o (fun b => s.mem (ramByte ramBase 4096 b)) (s.x rs1 + immI imm)
  | .store .sh rs1 rs2 imm =>
    let a := s.x rs1 + immI imm
    a.toNat % 2 = 0 ∨ s.mem (ramByte ramBase 4096 (a - 1#32)) = 0#8 ∧ s.mem (ramByte ramBase 4096 (a + 2#32)) = 0#8 ∧
      (s.x rs2).toNat % 2 ^ 16 = 0
  | .jal _ imm => -2 ^ 18 ≤ imm.toInt ∧ imm.toInt < 2 ^ 18
  | .mul o rd rs1 rs2 => rd = 0#5 ∨ o.eval (s.x rs1) (s.x rs2) = encMulDiv o s.pc (s.x rs1)
  | _ => True

/-- Of loads those of words, of stores those of bytes and words, of JAL those below 512 KiB, and any load, multiplication or division to
`x0`.  Of other loads and stores those at a constant address: of an unsigned byte or a half word at the start of a word, of a half word
stored at an even address (or at one where the test VM stops); of multiplications and divisions those with the operand `x0`, but not the
unsigned quotient of zero. -/
def alwaysSame (i : Instr) : Prop :=
  match i with
  | .load o rd rs1 imm => rd = 0#5 ∨ o = .lw ∨ rs1 = 0#5 ∧
      match o with
      | .lb => False
      | .lbu => imm.toNat % 4 = 0
      | _ => imm.toNat % 4 ≠ 2
  | .store o rs1 _ imm => o ≠ .sh ∨ rs1 = 0#5 ∧ imm.toNat % 4 ≠ 1
  | .jal _ imm => -2 ^ 18 ≤ imm.toInt ∧ imm.toInt < 2 ^ 18
  | .mul o rd rs1 rs2 => rd = 0#5 ∨ rs2 = 0#5 ∨ rs1 = 0#5 ∧ o ≠ .divu
  | _ => True

end Verif.Spec
