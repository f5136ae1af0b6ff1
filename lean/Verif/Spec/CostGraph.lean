import Verif.Model.Debug
/-
  The dependency graph of one cycle as drawn in doc/costs.md:41-160, edge by edge.
-/
namespace Verif.Spec

/-- The nodes of the drawing, costs.md:44-102.  The node `ROM` is split into the seven program
memories, each of which has exactly the edge to its own component (costs.md:113-119). -/
inductive Quantity where
  | PC | ROM_IMM | ROM_RS1 | ROM_RS2 | ROM_RD | ROM_PCU | ROM_RDU | ROM_MU | RAM | REGISTERS
  | IMM | RS1_INDEX | RS2_INDEX | RD_INDEX | PCU | RDU | MU
  | RS1 | RS2
  | RAM_ADDRESS | RAM_VAL
  | POSSIBLE_RD_VALS | RD
  | POSSIBLE_RAM_VALS | NEW_RAM_VAL
  | NEW_PC_VAL
  | PC_AFTER | RAM_AFTER | REGISTERS_AFTER
  deriving DecidableEq, Repr

open Quantity

/-- The arrows `source --> node` of the drawing, costs.md:105-154, listed by target. -/
def docSources : Quantity → List Quantity
  | PC | ROM_IMM | ROM_RS1 | ROM_RS2 | ROM_RD | ROM_PCU | ROM_RDU | ROM_MU | RAM | REGISTERS => []
  | IMM => [PC, ROM_IMM]
  | RS1_INDEX => [PC, ROM_RS1]
  | RS2_INDEX => [PC, ROM_RS2]
  | RD_INDEX => [PC, ROM_RD]
  | PCU => [PC, ROM_PCU]
  | RDU => [PC, ROM_RDU]
  | MU => [PC, ROM_MU]
  | RS1 => [RS1_INDEX, REGISTERS]
  | RS2 => [RS2_INDEX, REGISTERS]
  | RAM_ADDRESS => [IMM, RS1]
  | RAM_VAL => [RAM_ADDRESS, RAM]
  | POSSIBLE_RD_VALS => [IMM, RS1, RS2, PC, RAM_VAL]
  | RD => [POSSIBLE_RD_VALS, RD_INDEX, RDU]
  | POSSIBLE_RAM_VALS => [RS2, RAM_VAL, RAM_ADDRESS]
  | NEW_RAM_VAL => [POSSIBLE_RAM_VALS, MU]
  | NEW_PC_VAL => [IMM, RS1, RS2, PC, PCU]
  | PC_AFTER => [NEW_PC_VAL]
  | RAM_AFTER => [NEW_RAM_VAL]
  | REGISTERS_AFTER => [RD]

/-- The arrows missing in the drawing. -/
def missing : Quantity → List Quantity
  | RAM_AFTER => [RAM, RAM_ADDRESS]
  | REGISTERS_AFTER => [REGISTERS]
  | _ => []

/-- The inputs from which a node can be reached in the drawing. -/
def inputs : Quantity → List Quantity
  | PC => [PC] | ROM_IMM => [ROM_IMM] | ROM_RS1 => [ROM_RS1] | ROM_RS2 => [ROM_RS2]
  | ROM_RD => [ROM_RD] | ROM_PCU => [ROM_PCU] | ROM_RDU => [ROM_RDU] | ROM_MU => [ROM_MU]
  | RAM => [RAM] | REGISTERS => [REGISTERS]
  | IMM => [PC, ROM_IMM]
  | RS1_INDEX => [PC, ROM_RS1]
  | RS2_INDEX => [PC, ROM_RS2]
  | RD_INDEX => [PC, ROM_RD]
  | PCU => [PC, ROM_PCU]
  | RDU => [PC, ROM_RDU]
  | MU => [PC, ROM_MU]
  | RS1 => [PC, ROM_RS1, REGISTERS]
  | RS2 => [PC, ROM_RS2, REGISTERS]
  | RAM_ADDRESS => [PC, ROM_IMM, ROM_RS1, REGISTERS]
  | RAM_VAL => [PC, ROM_IMM, ROM_RS1, REGISTERS, RAM]
  | POSSIBLE_RD_VALS => [PC, ROM_IMM, ROM_RS1, ROM_RS2, REGISTERS, RAM]
  | RD | REGISTERS_AFTER => [PC, ROM_IMM, ROM_RS1, ROM_RS2, ROM_RD, ROM_RDU, REGISTERS, RAM]
  | POSSIBLE_RAM_VALS => [PC, ROM_IMM, ROM_RS1, ROM_RS2, REGISTERS, RAM]
  | NEW_RAM_VAL | RAM_AFTER => [PC, ROM_IMM, ROM_RS1, ROM_RS2, ROM_MU, REGISTERS, RAM]
  | NEW_PC_VAL | PC_AFTER => [PC, ROM_IMM, ROM_RS1, ROM_RS2, ROM_PCU, REGISTERS]

/-- The column of the program and the parts of the machine state that a node names, on the plaintext
machine: the two states agree on the input. -/
def sameInput (d d' : Model.Debug) : Quantity → Prop
  | PC => d.pc = d'.pc
  | ROM_IMM => d.rom.map (·.imm) = d'.rom.map (·.imm)
  | ROM_RS1 => d.rom.map (·.rs1) = d'.rom.map (·.rs1)
  | ROM_RS2 => d.rom.map (·.rs2) = d'.rom.map (·.rs2)
  | ROM_RD => d.rom.map (·.rd) = d'.rom.map (·.rd)
  | ROM_PCU => d.rom.map (·.pcu) = d'.rom.map (·.pcu)
  | ROM_RDU => d.rom.map (·.rdu) = d'.rom.map (·.rdu)
  | ROM_MU => d.rom.map (·.mu) = d'.rom.map (·.mu)
  | RAM => d.ram = d'.ram
  | REGISTERS => d.registers = d'.registers
  | _ => True

instance (d d' : Model.Debug) (n : Quantity) : Decidable (sameInput d d' n) := by
  cases n <;> unfold sameInput <;> infer_instance

/-- All the inputs of the drawing. -/
def allInputs : List Quantity :=
  [PC, ROM_IMM, ROM_RS1, ROM_RS2, ROM_RD, ROM_PCU, ROM_RDU, ROM_MU, RAM, REGISTERS]

end Verif.Spec
