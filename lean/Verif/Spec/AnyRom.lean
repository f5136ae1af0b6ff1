import Verif.Spec.Cycle
import Verif.Spec.DocTable
/-
  Plaintext meaning of one encrypted cycle for arbitrary contents of the program memories, also those that no RV32I
  instruction is decoded to.
-/
namespace Verif.Spec
open Model

/-- The entry of an RV32I instruction that is executed for an entry: register numbers have five bits, operation ids
five, two and four; the ids 29, 30 and 31 of a register operation give 0, as id 0 does. -/
def anyEntry (i : Decoded) : Decoded where
  imm := i.imm
  rs1 := i.rs1 % 32#32
  rs2 := i.rs2 % 32#32
  rd := i.rd % 32#32
  rdu := if 29 ≤ i.rdu.toNat % 32 then 0#32 else i.rdu % 32#32
  mu := i.mu % 4#32
  pcu := (pcOperation (i.pcu.getLsbD 0) (i.pcu.getLsbD 1) (i.pcu.getLsbD 2) (i.pcu.getLsbD 3)).id

/-- One cycle; the program stays as it is. -/
def anyCycle (d : Debug) : Option Debug :=
  (cycle { d with rom := d.rom.map anyEntry }).map fun d2 => { d2 with rom := d.rom }

/-- `n` cycles. -/
def anyCycles : Nat → Debug → Option Debug
  | 0, d => some d
  | n + 1, d => (anyCycle d).bind (anyCycles n)

end Verif.Spec
