import Verif.Lemmas.CircuitChecks
/- The program counter circuits pass the product check, for three of the nine operations. -/
namespace Verif.Bdd
open Model

theorem pc_NONE_checked : checkIdx (checkPc .NONE) 0 Circuits.PcUpdate.circuits = true := by
  decide +kernel
theorem pc_JAL_checked : checkIdx (checkPc .JAL) 0 Circuits.PcUpdate.circuits = true := by
  decide +kernel
theorem pc_JALR_checked : checkIdx (checkPc .JALR) 0 Circuits.PcUpdate.circuits = true := by
  decide +kernel

end Verif.Bdd
