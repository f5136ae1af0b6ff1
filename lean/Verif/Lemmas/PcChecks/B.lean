import Verif.Lemmas.PcChecks.A
/- (Imports A only so that the two are not checked at the same time: each takes 3 GB.) -/
/- The program counter circuits pass the product check, for three of the nine operations. -/
namespace Verif.Bdd
open Model

theorem pc_BEQ_checked : checkIdx (checkPc .BEQ) 0 Circuits.PcUpdate.circuits = true := by
  decide +kernel
theorem pc_BNE_checked : checkIdx (checkPc .BNE) 0 Circuits.PcUpdate.circuits = true := by
  decide +kernel
theorem pc_BLT_checked : checkIdx (checkPc .BLT) 0 Circuits.PcUpdate.circuits = true := by
  decide +kernel

end Verif.Bdd
