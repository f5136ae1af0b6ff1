import Verif.Model.Instr
/-
  The tables of operations in the documentation at the head of fhevm/src/instructions/mod.rs (lines 1-65): first
  column (id) and second column (operation), row by row.
-/
namespace Verif.Spec
open Model

/-- "RD UPDATE", mod.rs:4-44. -/
def docRd : List (Nat × String) :=
  [(0, "none"), (1, "lui"), (2, "auipc"), (3, "addi"), (4, "slti"), (5, "sltiu"), (6, "xori"), (7, "ori"),
   (8, "andi"), (9, "slli"), (10, "srli"), (11, "srai"),
   (12, "add"), (13, "sub"), (14, "sll"), (15, "slt"), (16, "sltu"), (17, "xor"), (18, "srl"), (19, "sra"),
   (20, "or"), (21, "and"),
   (22, "lb"), (23, "lh"), (24, "lw"), (25, "lbu"), (26, "lhu"),
   (27, "jal"), (28, "jalr"),
   (29, "mul"), (30, "mulh"), (31, "mulhsu"), (32, "mulhu"), (33, "div"), (34, "divu"), (35, "rem"), (36, "remu")]

/-- "MEMORY UPDATE", mod.rs:49-52. -/
def docRam : List (Nat × String) := [(0, "none"), (1, "sb"), (2, "sh"), (3, "sw")]

/-- "PC UPDATE", mod.rs:57-65. -/
def docPc : List (Nat × String) :=
  [(1, "none"), (3, "jal"), (4, "jalr"), (0, "beq"), (8, "bne"), (6, "blt"), (14, "bge"), (2, "bltu"), (10, "bgeu")]

/-- How the documentation calls the operations. -/
def rdMnemonic : RdUpdate → String
  | .NONE => "none" | .LUI => "lui" | .AUIPC => "auipc" | .ADDI => "addi" | .SLTI => "slti" | .SLTIU => "sltiu"
  | .XORI => "xori" | .ORI => "ori" | .ANDI => "andi" | .SLLI => "slli" | .SRLI => "srli" | .SRAI => "srai"
  | .ADD => "add" | .SUB => "sub" | .SLL => "sll" | .SLT => "slt" | .SLTU => "sltu" | .XOR => "xor"
  | .SRL => "srl" | .SRA => "sra" | .OR => "or" | .AND => "and"
  | .LB => "lb" | .LBU => "lbu" | .LH => "lh" | .LHU => "lhu" | .LW => "lw" | .JAL => "jal" | .JALR => "jalr"
  | .MUL => "mul" | .MULH => "mulh" | .MULHSU => "mulhsu" | .MULHU => "mulhu" | .DIV => "div" | .DIVU => "divu"
  | .REM => "rem" | .REMU => "remu"
def ramMnemonic : RamUpdate → String
  | .NONE => "none" | .SB => "sb" | .SH => "sh" | .SW => "sw"
def pcMnemonic : PcUpdate → String
  | .NONE => "none" | .JAL => "jal" | .JALR => "jalr" | .BEQ => "beq" | .BNE => "bne" | .BLT => "blt"
  | .BGE => "bge" | .BLTU => "bltu" | .BGEU => "bgeu"

/-- The id on the row of an operation. -/
def docId (table : List (Nat × String)) (name : String) : Option Nat :=
  (table.find? fun r => r.2 == name).map (·.1)

/-- The operation that a four-bit id stands for in the circuit of the next pc: bit 0 set, not a branch; otherwise
bit 1 chooses between equality and order, bit 2 negates the former and makes the latter signed, bit 3 negates the
latter. -/
def pcOperation (b0 b1 b2 b3 : Bool) : PcUpdate :=
  match b0, b1, b2, b3 with
  | true, false, _, _ => .NONE
  | true, true, false, _ => .JAL
  | true, true, true, _ => .JALR
  | false, false, false, _ => .BEQ
  | false, false, true, _ => .BNE
  | false, true, false, false => .BLTU
  | false, true, false, true => .BGEU
  | false, true, true, false => .BLT
  | false, true, true, true => .BGE

end Verif.Spec
