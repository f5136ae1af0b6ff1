import Verif.Spec.Start
/-
  States of a machine whose RAM begins at an address of the ELF file, and the same states with the RAM at 0x40000.
-/
namespace Verif.Spec

/-- Registers and program counter are zero; the RAM, from `base`, holds `bytes`. -/
def startAt (base : Nat) (bytes : List Byte) : Arch :=
  { pc := 0#32
    reg := fun _ => 0#32
    mem := fun a => if base ≤ a.toNat then bytes.getD (a.toNat - base) 0#8 else 0#8 }

/-- The same registers and program counter; what was at `base + k` is at `ramBase + k`. -/
def Arch.moved (s : Arch) (base : Nat) : Arch :=
  { s with mem := fun a => s.mem (a - BitVec.ofNat 32 ramBase + BitVec.ofNat 32 base) }

/-- The `size` bytes from `addr`. -/
def bytesAt (s : Arch) (addr size : Nat) : List Byte := (List.range size).map fun i => s.mem (BitVec.ofNat 32 (addr + i))

end Verif.Spec
