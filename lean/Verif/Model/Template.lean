import Verif.Model.Debug
/-
  Model of the instruction builder used by the crate's own tests: the templates `RV32I` of
  fhevm/src/instructions/mod.rs and chains of setters.  Setters are those of Model/Instr.  Also the
  two tests of fhevm/src/tests/cycle.rs (without keys, timings and the noise plot).
-/
namespace Verif.Model

/-- `RV32I`, mod.rs:80-142. -/
inductive Template
  | LUI | AUIPC | JAL | ADDI | SLTI | SLTIU | XORI | ORI | ANDI | SLLI | SRLI | SRAI
  | ADD | SUB | SLL | SLT | SLTU | XOR | SRL | SRA | OR | AND
  | LB | LH | LW | LBU | LHU | SB | SH | SW
  | BEQ | BNE | BLT | BGE | BLTU | BGEU | JALR
  deriving DecidableEq, Repr

/-- The discriminants, mod.rs:83-141, and `RV32I::new`, mod.rs:145-148. -/
def Template.new : Template → U32
  | .LUI => 0b000000000000_00000_0110111#32
  | .AUIPC => 0b000000000000_00000_0010111#32
  | .JAL => 0b00000000000000000000_00000_1101111#32
  | .ADDI => 0b000000000000_00000_000_00000_0010011#32
  | .SLTI => 0b000000000000_00000_010_00000_0010011#32
  | .SLTIU => 0b000000000000_00000_011_00000_0010011#32
  | .XORI => 0b000000000000_00000_100_00000_0010011#32
  | .ORI => 0b000000000000_00000_110_00000_0010011#32
  | .ANDI => 0b000000000000_00000_111_00000_0010011#32
  | .SLLI => 0b0000000_00000_00000_001_00000_0010011#32
  | .SRLI => 0b0000000_00000_00000_101_00000_0010011#32
  | .SRAI => 0b0100000_00000_00000_101_00000_0010011#32
  | .ADD => 0b0000000_00000_00000_000_00000_0110011#32
  | .SUB => 0b0100000_00000_00000_000_00000_0110011#32
  | .SLL => 0b0000000_00000_00000_001_00000_0110011#32
  | .SLT => 0b0000000_00000_00000_010_00000_0110011#32
  | .SLTU => 0b0000000_00000_00000_011_00000_0110011#32
  | .XOR => 0b0000000_00000_00000_100_00000_0110011#32
  | .SRL => 0b0000000_00000_00000_101_00000_0110011#32
  | .SRA => 0b0100000_00000_00000_101_00000_0110011#32
  | .OR => 0b0000000_00000_00000_110_00000_0110011#32
  | .AND => 0b0000000_00000_00000_111_00000_0110011#32
  | .LB => 0b000000000000_00000_000_00000_0000011#32
  | .LH => 0b000000000000_00000_001_00000_0000011#32
  | .LW => 0b000000000000_00000_010_00000_0000011#32
  | .LBU => 0b000000000000_00000_100_00000_0000011#32
  | .LHU => 0b000000000000_00000_101_00000_0000011#32
  | .SB => 0b0000000_00000_00000_000_00000_0100011#32
  | .SH => 0b0000000_00000_00000_001_00000_0100011#32
  | .SW => 0b0000000_00000_00000_010_00000_0100011#32
  | .BEQ => 0b0000000_00000_00000_000_00000_1100011#32
  | .BNE => 0b0000000_00000_00000_001_00000_1100011#32
  | .BLT => 0b0000000_00000_00000_100_00000_1100011#32
  | .BGE => 0b0000000_00000_00000_101_00000_1100011#32
  | .BLTU => 0b0000000_00000_00000_110_00000_1100011#32
  | .BGEU => 0b0000000_00000_00000_111_00000_1100011#32
  | .JALR => 0b000000000000_00000_000_00000_1100111#32

/-- A call in a chain of setters. -/
inductive Setter
  | rd (v : U32) | rs1 (v : U32) | rs2 (v : U32) | imm (v : U32)
  deriving DecidableEq, Repr

/-- `set_rd`, `set_rs1`, `set_rs2`, `set_imm`. -/
def Setter.apply (dbg : Bool) (w : U32) : Setter → Option U32
  | .rd v => setRd dbg w v
  | .rs1 v => setRs1 dbg w v
  | .rs2 v => setRs2 dbg w v
  | .imm v => setImm dbg w v

/-- A chain of setters applied to a word. -/
def chain (dbg : Bool) : U32 → List Setter → Option U32
  | w, [] => some w
  | w, s :: ss => (s.apply dbg w).bind fun w' => chain dbg w' ss

/-- The program of `test_interpreter_cycles`, fhevm/src/tests/cycle.rs:63-78. -/
def cycleTestRom (dbg : Bool) : List (Option U32) :=
  [ chain dbg Template.LUI.new [.imm (1#32 <<< 6), .rd 31#32],
    chain dbg Template.LUI.new [.imm 0xABCD#32, .rd 1#32],
    chain dbg Template.LUI.new [.imm 0xEF10#32, .rd 2#32],
    chain dbg Template.ADDI.new [.imm 0x1#32, .rs1 1#32, .rd 3#32],
    chain dbg Template.SW.new [.imm 0#32, .rs1 31#32, .rs2 3#32],
    chain dbg Template.ADDI.new [.imm 4#32, .rs1 31#32, .rd 31#32],
    chain dbg Template.SLTI.new [.imm 0xEF10#32, .rs1 1#32, .rd 3#32],
    chain dbg Template.SW.new [.imm 0#32, .rs1 31#32, .rs2 3#32],
    chain dbg Template.ADDI.new [.imm 4#32, .rs1 31#32, .rd 31#32] ]

/-- The program of `test_interpreter_cycles_noise_progression`, cycle.rs:176-178. -/
def noiseTestRom : List U32 := List.replicate 100 0b00000000_00000000_00000000_1110011#32

variable {B : Backend} (decU : B.Uint → U32) (decP : B.Prep → U32) (C : Cipher B)

/-- `n` calls of `cycle_debug`. -/
def debugCycles : Nat → Interp B × Debug → Option (Interp B × Debug)
  | 0, s => some s
  | n + 1, s => (cycleDebug decU decP C s.1 s.2).bind (debugCycles n)

/-- The body of both tests, cycle.rs:80-147 and 180-253: an interpreter with mirror, of exactly the size of
the program and the RAM, run for one cycle per instruction; `none` = the test fails. -/
def cyclesTest (rand : Nat → Nat → Nat → C.Rand) (dbg : Bool) (threads : Nat) (rom ram : List U32) :
    Option (Interp B × Debug) :=
  (Parser.new.addAll dbg rom).bind fun p =>
  (Interp.load C rand dbg rom.length ram.length threads p ram).bind fun vm =>
  (((Debug.new rom.length ram.length).setInstructions dbg p).bind fun d => d.setRam ram).bind fun d =>
  debugCycles decU decP C rom.length (vm, d)

end Verif.Model
