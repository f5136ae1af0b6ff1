import Verif.Lemmas.CircuitChecks
/-
  The circuits of the next pc with the seven operation ids that no operation has.
-/
namespace Verif.Bdd
open Verif.Model

/-- `checkPc` with another id than that of the operation. -/
def checkPcAt (id : Nat) (o : PcUpdate) (t : Nat) (c : BitCircuit) : Bool :=
  checkCircuit (pcAuto t) (fixedOp id)
    (match o with
      | .JALR => holdOf c.levels.reverse
      | _ => 0) c (pcStart o t)

theorem pc_5_checked : checkIdx (checkPcAt 5 .NONE) 0 Circuits.PcUpdate.circuits = true := by
  decide +kernel
theorem pc_8_checked : checkIdx (checkPcAt 8 .BEQ) 0 Circuits.PcUpdate.circuits = true := by
  decide +kernel
theorem pc_9_checked : checkIdx (checkPcAt 9 .NONE) 0 Circuits.PcUpdate.circuits = true := by
  decide +kernel
theorem pc_11_checked : checkIdx (checkPcAt 11 .JAL) 0 Circuits.PcUpdate.circuits = true := by
  decide +kernel
theorem pc_12_checked : checkIdx (checkPcAt 12 .BNE) 0 Circuits.PcUpdate.circuits = true := by
  decide +kernel
theorem pc_13_checked : checkIdx (checkPcAt 13 .NONE) 0 Circuits.PcUpdate.circuits = true := by
  decide +kernel
theorem pc_15_checked : checkIdx (checkPcAt 15 .JALR) 0 Circuits.PcUpdate.circuits = true := by
  decide +kernel

end Verif.Bdd
