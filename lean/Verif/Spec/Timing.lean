import Verif.Model.Timing
/-
  What the times of a cycle have to satisfy: parts measured one after the other fit into the whole.
-/
namespace Verif.Spec
open Model

/-- The parts of every measured stretch fit into it. -/
structure Nested (m : Measurement) : Prop where
  total : m.preparePc + m.rom + m.registers + m.readRam + m.updateRegisters + m.updateRam + m.updatePc ≤ m.total
  rom : m.readRom + m.prepareRom ≤ m.rom
  registers : m.readRegisters + m.prepareRegisters ≤ m.registers
  readRam : m.deriveAddr + m.prepareAddr + m.readStatefull ≤ m.readRam
  updateRegisters : m.evaluateRd + m.selectRd + m.refreshRd + m.writeRd ≤ m.updateRegisters
  updateRam : m.evaluateRam + m.selectRam + m.refreshRam + m.writeRam ≤ m.updateRam

/-- A clock that never goes back. -/
def Monotone (clock : Nat → Nat) : Prop := ∀ i j, i ≤ j → clock i ≤ clock j

end Verif.Spec
