import Verif.Spec.Interpreter
/-
  Specification: the state in which a guest starts, its program and its output, in terms of bytes.
-/
namespace Verif.Spec

/-- Registers and program counter are zero; the RAM, from `ramBase`, holds `bytes`. -/
def startState (bytes : List Byte) : Arch :=
  { pc := 0#32
    reg := fun _ => 0#32
    mem := fun a => if ramBase ≤ a.toNat then bytes.getD (a.toNat - ramBase) 0#8 else 0#8 }

/-- The four bytes of `rom` from index `a` are the machine word of `i`, least significant byte first. -/
def InstrAt (rom : List Byte) (a : Nat) (i : Instr) : Prop :=
  ∀ j, j < 4 → rom[a + j]? = some ((encode i).extractLsb' (8 * j) 8)

/-- The `size` bytes of the RAM from its byte `off`. -/
def ramBytes (s : Arch) (off size : Nat) : List Byte :=
  (List.range size).map fun i => s.mem (BitVec.ofNat 32 (ramBase + (off + i)))

/-- RV32I instructions that the mirror and the encrypted VM execute alike in every state: no LB, and JAL only over
distances of less than 512 KiB. -/
def Instr.plainBase : Instr → Prop
  | .mul .. => False
  | .load .lb .. => False
  | .jal _ imm => -2 ^ 18 ≤ imm.toInt ∧ imm.toInt < 2 ^ 18
  | _ => True

end Verif.Spec
