import Verif.Model.Noise
/-
  The noise budget of the VM: how much noise one cycle adds to the registers and to the RAM, and what must
  stay below the limit of the library.
-/
namespace Verif.Spec
open Verif.Model (Costs)

/-- Noise one cycle adds to every register: the register written is brought to the front, cleared, written,
normalised and brought back (also the others move), then register 0 is cleared. -/
def regGrowth (c : Costs) : Nat :=
  2 * c.retrieval + 2 * c.rotation + 2 * c.trace + c.identity + c.getBit + c.normalize

/-- Noise one cycle adds to every word of the RAM. -/
def ramGrowth (c : Costs) : Nat :=
  2 * c.retrieval + 2 * c.rotation + c.trace + c.identity + c.getBit + c.normalize

/-- A word read without moving it, from memory with noise `ν`. -/
def readNoise (c : Costs) (ν : Nat) : Nat := ν + c.retrieve + c.rotation + c.pack

/-- A word read from RAM with noise `ν`. -/
def loadNoise (c : Costs) (ν : Nat) : Nat := ν + c.retrieval + c.rotation + c.pack

/-- Program counter and RAM address. -/
def wordNoise (c : Costs) : Nat := c.bdd + c.pack

/-- One cycle is possible: everything that is bootstrapped has noise at most `limit`.  Program noise is that
of fresh encryptions, `r` that of the registers, `m` that of the RAM. -/
structure Fits (c : Costs) (limit r m : Nat) : Prop where
  program : readNoise c c.fresh ≤ limit
  word : wordNoise c ≤ limit
  registers : readNoise c r ≤ limit
  /-- new value of the destination register before it is refreshed -/
  rd : max (max c.bin (wordNoise c)) (loadNoise c m + 3 * c.byte) + c.select ≤ limit
  /-- new value of the RAM word before it is refreshed -/
  ram : max (readNoise c r) (loadNoise c m) + c.byte + 2 * c.select ≤ limit

/-- `n` cycles are possible for a freshly loaded VM: the registers start without noise, the RAM with that of
fresh encryptions.  Noise grows monotonically, so only the last cycle counts. -/
def FitsRun (c : Costs) (limit : Nat) : Nat → Prop
  | 0 => True
  | n + 1 => Fits c limit (n * regGrowth c) (c.fresh + n * ramGrowth c)

end Verif.Spec
