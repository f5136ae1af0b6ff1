import Verif.Spec.MulDiv
import Verif.Spec.Start
/-
  Specification: the machine the encrypted VM is, for all of RV32IM.
-/
namespace Verif.Spec

/-- As `execEnc`, and a multiplication or division writes `encMulDiv`. -/
def execAll (words : Nat) (i : Instr) (s : Arch) : Arch :=
  match i with
  | .mul o rd rs1 _ => (s.setX rd (encMulDiv o s.pc (s.x rs1))).next
  | i => execEnc words i s

/-- The instruction whose machine word is in the program at an address: a multiple of four. -/
def FetchAny (rom : List Byte) (fetch : Word → Option Instr) : Prop :=
  ∀ pc i, fetch pc = some i ↔ pc.toNat % 4 = 0 ∧ InstrAt rom pc.toNat i

end Verif.Spec
