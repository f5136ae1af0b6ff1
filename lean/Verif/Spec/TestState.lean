import Verif.Spec.Env
import Verif.Model.TestVM
/-
  How a state of the test VM is read as a state of the manual's machine.
-/
namespace Verif.Model
open Spec

/-- What holds of the test VM at all times: 32 registers, and a RAM of the declared size that lies
within the 32-bit address space. -/
structure TestVM.WF (vm : TestVM) : Prop where
  regs : vm.registers.length = 32
  len : vm.ram.data.length = vm.ram.size
  pos : 0 < vm.ram.size
  top : vm.ram.offset + vm.ram.size ≤ 2 ^ 32

/-- `vm` has the registers, program counter and RAM contents of `s`. -/
structure TestVM.Shows (vm : TestVM) (s : Arch) : Prop where
  pcEq : vm.pc = s.pc
  reg : ∀ r : Reg, vm.registers[r.toNat]? = some (s.x r)
  mem : ∀ k, k < vm.ram.size → vm.ram.data[k]? = some (s.mem (BitVec.ofNat 32 (vm.ram.offset + k)))

/-- What no instruction changes. -/
def TestVM.frame (vm : TestVM) : TMem × TapeInfo × TapeInfo × Nat × Nat × Nat :=
  (vm.rom, vm.input, vm.output, vm.maxCycles, vm.ram.offset, vm.ram.size)

end Verif.Model
