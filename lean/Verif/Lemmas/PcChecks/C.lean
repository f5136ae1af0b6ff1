import Verif.Lemmas.CircuitChecks
/- The program counter circuits pass the product check, for three of the nine operations. -/
namespace Verif.Bdd
open Model

theorem pc_BGE_checked : checkIdx (checkPc .BGE) 0 Circuits.PcUpdate.circuits = true := by
  decide +kernel
theorem pc_BLTU_checked : checkIdx (checkPc .BLTU) 0 Circuits.PcUpdate.circuits = true := by
  decide +kernel
theorem pc_BGEU_checked : checkIdx (checkPc .BGEU) 0 Circuits.PcUpdate.circuits = true := by
  decide +kernel

end Verif.Bdd
