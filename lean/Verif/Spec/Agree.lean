import Verif.Spec.TestState
import Verif.Spec.MirrorState
/-
  What it means for the test VM and the interpreter to be in the same state, and which steps of the
  test VM both support.
-/
namespace Verif.Spec

/-- The four bytes of a word, least significant first. -/
def bytesLE (w : Word) : List Byte :=
  [w.extractLsb' 0 8, w.extractLsb' 8 8, w.extractLsb' 16 8, w.extractLsb' 24 8]

/-- The bytes of a list of words. -/
def wordBytes (ws : List Word) : List Byte := ws.flatMap bytesLE

end Verif.Spec

namespace Verif.Model
open Spec

/-- Same program counter, registers and RAM, with the RAM of the test VM at the address the
interpreter assumes. -/
structure Agree (vm : TestVM) (d : Debug) : Prop where
  pc : d.pc = vm.pc
  regs : d.registers = vm.registers
  ram : vm.ram.data = wordBytes d.ram
  base : vm.ram.offset = ramBase

/-- The test VM is about to execute, inside its program, an RV32IM instruction `i` of which `ok`
holds.  Accesses may go anywhere. -/
def TestVM.Executes (vm : TestVM) (chk : Bool) (ok : Instr → Arch → Prop) : Prop :=
  vm.pc.toNat + 4 ≤ vm.rom.size ∧
  ∀ s, vm.Shows s → ∃ i, vm.rom.readWord chk vm.pc.toNat = some (encode i) ∧ ok i s

/-- Both program memories hold the same instructions. -/
def SameProgram (chk dbg : Bool) (rom : TMem) (prog : List Decoded) : Prop :=
  ∀ (pc : Word) (i : Instr), pc.toNat + 4 ≤ rom.size → rom.readWord chk pc.toNat = some (encode i) →
    prog[pc.toNat / 4]? = decodeWord dbg (encode i)

end Verif.Model
