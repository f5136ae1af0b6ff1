import Verif.Model.Debug
/-
  Model of compiler/src/interpreter/testvm.rs: the plaintext VM of the compiler crate.

  `none` = panic.  `chk` = overflow checks are compiled in (debug profile); without them unsigned
  arithmetic wraps.  `usize` has 64 bits.  Printing (`verbose_println!`) is not modelled.
-/
namespace Verif.Model

/-- `usize` subtraction. -/
def usizeSub (chk : Bool) (a b : Nat) : Option Nat :=
  if b ≤ a then some (a - b) else if chk then none else some (2 ^ 64 + a - b)

/-- `usize` addition. -/
def usizeAdd (chk : Bool) (a b : Nat) : Option Nat :=
  if a + b < 2 ^ 64 then some (a + b) else if chk then none else some (a + b - 2 ^ 64)

/-- `Memory`, testvm.rs:5-10 (`_is_write` is never read and left out). -/
structure TMem where
  data : List (BitVec 8)
  offset : Nat
  size : Nat
  deriving DecidableEq

/-- `Memory::new`, testvm.rs:13-20. -/
def TMem.new (offset size : Nat) : TMem := ⟨List.replicate size 0#8, offset, size⟩

/-- `self.data[i % self.size]`. -/
def TMem.get (m : TMem) (i : Nat) : Option (BitVec 8) :=
  if m.size = 0 then none else m.data[i % m.size]?

/-- `self.data[i % self.size] = v`. -/
def TMem.put (m : TMem) (i : Nat) (v : BitVec 8) : Option TMem :=
  if m.size = 0 then none
  else if i % m.size < m.data.length then some { m with data := m.data.set (i % m.size) v } else none

/-- `write_byte`, testvm.rs:22-25. -/
def TMem.writeByte (chk : Bool) (m : TMem) (addr : Nat) (v : BitVec 8) : Option TMem :=
  (usizeSub chk addr m.offset).bind fun i => m.put i v

/-- One iteration of the loop of `write_half`, testvm.rs:29-32; the address is
`addr + i - offset` (`value` widened to 32 bits). -/
def TMem.writeNth (chk : Bool) (addr : Nat) (value : U32) (i : Nat) (m : TMem) : Option TMem :=
  (usizeAdd chk addr i).bind fun a =>
  (usizeSub chk a m.offset).bind fun k =>
  m.put k (((value >>> (i * 8)) &&& 0xFF#32).setWidth 8)

/-- `write_half`, testvm.rs:27-33. -/
def TMem.writeHalf (chk : Bool) (m : TMem) (addr : Nat) (v : BitVec 16) : Option TMem :=
  (m.writeNth chk addr (v.setWidth 32) 0).bind fun m => m.writeNth chk addr (v.setWidth 32) 1

/-- `write_word`, testvm.rs:35-41. -/
def TMem.writeWord (chk : Bool) (m : TMem) (addr : Nat) (v : U32) : Option TMem :=
  (m.writeNth chk addr v 0).bind fun m =>
  (m.writeNth chk addr v 1).bind fun m =>
  (m.writeNth chk addr v 2).bind fun m => m.writeNth chk addr v 3

/-- `load_memory`, testvm.rs:43-46: slice assignment, panics when the range leaves the vector. -/
def TMem.loadMemory (chk : Bool) (m : TMem) (startAt : Nat) (values : List (BitVec 8)) : Option TMem :=
  (usizeSub chk startAt m.offset).bind fun s =>
  (usizeAdd chk s values.length).bind fun e =>
  if s ≤ e ∧ e ≤ m.data.length then
    some { m with data := m.data.take s ++ values ++ m.data.drop e }
  else none

/-- `read_byte`, testvm.rs:48-50. -/
def TMem.readByte (chk : Bool) (m : TMem) (addr : Nat) : Option (BitVec 8) :=
  (usizeSub chk addr m.offset).bind fun i => m.get i

/-- `self.data[((addr - self.offset) + i) % self.size]`, testvm.rs:60 and 73. -/
def TMem.readNth (chk : Bool) (m : TMem) (addr i : Nat) : Option (BitVec 8) :=
  (usizeSub chk addr m.offset).bind fun k => (usizeAdd chk k i).bind fun k => m.get k

/-- Sum accumulated by `read_half`, testvm.rs:58-61. -/
def leHalf (b0 b1 : BitVec 8) : BitVec 16 :=
  0#16 + b0.setWidth 16 <<< 0 + b1.setWidth 16 <<< 8

/-- Sum accumulated by `read_word`, testvm.rs:71-74. -/
def leWord (b0 b1 b2 b3 : BitVec 8) : U32 :=
  0#32 + b0.setWidth 32 <<< 0 + b1.setWidth 32 <<< 8 + b2.setWidth 32 <<< 16 + b3.setWidth 32 <<< 24

/-- `read_half`, testvm.rs:52-63.  The sums cannot overflow (the summands have no common bit). -/
def TMem.readHalf (chk : Bool) (m : TMem) (addr : Nat) : Option (BitVec 16) :=
  if addr % 2 = 0 then
    (m.readNth chk addr 0).bind fun b0 =>
    (m.readNth chk addr 1).map fun b1 =>
    leHalf b0 b1
  else none

/-- `read_word`, testvm.rs:65-77. -/
def TMem.readWord (chk : Bool) (m : TMem) (addr : Nat) : Option U32 :=
  if addr % 4 = 0 then
    (m.readNth chk addr 0).bind fun b0 =>
    (m.readNth chk addr 1).bind fun b1 =>
    (m.readNth chk addr 2).bind fun b2 =>
    (m.readNth chk addr 3).map fun b3 =>
    leWord b0 b1 b2 b3
  else none

/-! ### Decoder -/

/-- `RegisterIndex`, testvm.rs:148-149. -/
abbrev RegIdx := U32

/-- `Inst`, testvm.rs:80-146.  The operands are in the order of the source. -/
inductive TInst
  | ADD (rs1 rs2 rd : RegIdx) | SUB (rs1 rs2 rd : RegIdx) | SLL (rs1 rs2 rd : RegIdx)
  | SLT (rs1 rs2 rd : RegIdx) | SLTU (rs1 rs2 rd : RegIdx) | XOR (rs1 rs2 rd : RegIdx)
  | SRL (rs1 rs2 rd : RegIdx) | SRA (rs1 rs2 rd : RegIdx) | OR (rs1 rs2 rd : RegIdx)
  | AND (rs1 rs2 rd : RegIdx)
  | ADDI (rs1 rd : RegIdx) (imm : U32) | SLTI (rs1 rd : RegIdx) (imm : U32)
  | SLTIU (rs1 rd : RegIdx) (imm : U32) | XORI (rs1 rd : RegIdx) (imm : U32)
  | ORI (rs1 rd : RegIdx) (imm : U32) | ANDI (rs1 rd : RegIdx) (imm : U32)
  | SLLI (rs1 rd : RegIdx) (imm : U32) | SRLI (rs1 rd : RegIdx) (imm : U32)
  | SRAI (rs1 rd : RegIdx) (imm : U32)
  | MUL (rs1 rs2 rd : RegIdx) | MULH (rs1 rs2 rd : RegIdx) | MULHSU (rs1 rs2 rd : RegIdx)
  | MULHU (rs1 rs2 rd : RegIdx) | DIV (rs1 rs2 rd : RegIdx) | DIVU (rs1 rs2 rd : RegIdx)
  | REM (rs1 rs2 rd : RegIdx) | REMU (rs1 rs2 rd : RegIdx)
  | LUI (rd : RegIdx) (imm : U32) | AUIPC (rd : RegIdx) (imm : U32)
  | JAL (rd : RegIdx) (imm : U32) | JALR (rs1 rd : RegIdx) (imm : U32)
  | BEQ (rs1 rs2 : RegIdx) (imm : U32) | BNE (rs1 rs2 : RegIdx) (imm : U32)
  | BLT (rs1 rs2 : RegIdx) (imm : U32) | BGE (rs1 rs2 : RegIdx) (imm : U32)
  | BLTU (rs1 rs2 : RegIdx) (imm : U32) | BGEU (rs1 rs2 : RegIdx) (imm : U32)
  | LB (rs1 rd : RegIdx) (imm : U32) | LH (rs1 rd : RegIdx) (imm : U32)
  | LW (rs1 rd : RegIdx) (imm : U32) | LBU (rs1 rd : RegIdx) (imm : U32)
  | LHU (rs1 rd : RegIdx) (imm : U32)
  | SB (rs1 rs2 : RegIdx) (imm : U32) | SH (rs1 rs2 : RegIdx) (imm : U32)
  | SW (rs1 rs2 : RegIdx) (imm : U32)
  deriving DecidableEq, Repr

/-- `extract_bits`, testvm.rs:1177-1179; called with fewer than 32 bits. -/
def extractBits (value : U32) (bits : Nat) : U32 := value &&& ((1#32 <<< bits) - 1#32)

/-- `sign_extend`, testvm.rs:1181-1189. -/
def tSignExtend (value : U32) (bitlen : Nat) : Option U32 :=
  if value >>> bitlen = 0#32 then
    let msb := (value >>> (bitlen - 1)) &&& 1#32
    some ((List.range' bitlen (32 - bitlen)).foldl (fun out i => out + (msb <<< i)) value)
  else none

/-- `RegisterIndex::from`, testvm.rs:152-155. -/
def regFrom (v : U32) : Option RegIdx := if v.toNat < 32 then some v else none

/-- `decode_inst`, testvm.rs:206-391.  The chain of `if`s falls through to the final `panic!`. -/
def decodeInst (inst : U32) : Option TInst :=
  let opcode := extractBits inst 7
  if opcode = 0b0010011#32 then
    (tSignExtend (extractBits (inst >>> 20) 12) 12).bind fun imm =>
    (regFrom (extractBits (inst >>> 7) 5)).bind fun rd =>
    (regFrom (extractBits (inst >>> 15) 5)).bind fun rs1 =>
    let funct3 := extractBits (inst >>> 12) 3
    let shift := extractBits (inst >>> 20) 5
    if funct3 = 0b000#32 then some (.ADDI rs1 rd imm)
    else if funct3 = 0b010#32 then some (.SLTI rs1 rd imm)
    else if funct3 = 0b011#32 then some (.SLTIU rs1 rd imm)
    else if funct3 = 0b100#32 then some (.XORI rs1 rd imm)
    else if funct3 = 0b0110#32 then some (.ORI rs1 rd imm)
    else if funct3 = 0b0111#32 then some (.ANDI rs1 rd imm)
    else if funct3 = 0b001#32 then some (.SLLI rs1 rd shift)
    else if funct3 = 0b101#32 then
      if (inst >>> 30) &&& 1#32 = 0#32 then some (.SRLI rs1 rd shift)
      else some (.SRAI rs1 rd shift)
    else none
  else if opcode = 0b0110111#32 then
    (regFrom (extractBits (inst >>> 7) 5)).bind fun rd =>
    some (.LUI rd (extractBits (inst >>> 12) 20 <<< 12))
  else if opcode = 0b0010111#32 then
    (regFrom (extractBits (inst >>> 7) 5)).bind fun rd =>
    some (.AUIPC rd (extractBits (inst >>> 12) 20 <<< 12))
  else if opcode = 0b0110011#32 then
    (regFrom (extractBits (inst >>> 7) 5)).bind fun rd =>
    (regFrom (extractBits (inst >>> 15) 5)).bind fun rs1 =>
    (regFrom (extractBits (inst >>> 20) 5)).bind fun rs2 =>
    let func3 := extractBits (inst >>> 12) 3
    if (inst >>> 25) &&& 1#32 = 0#32 then
      if func3 = 0b000#32 then
        if (inst >>> 30) &&& 1#32 = 0#32 then some (.ADD rs1 rs2 rd) else some (.SUB rs1 rs2 rd)
      else if func3 = 0b001#32 then some (.SLL rs1 rs2 rd)
      else if func3 = 0b010#32 then some (.SLT rs1 rs2 rd)
      else if func3 = 0b011#32 then some (.SLTU rs1 rs2 rd)
      else if func3 = 0b100#32 then some (.XOR rs1 rs2 rd)
      else if func3 = 0b110#32 then some (.OR rs1 rs2 rd)
      else if func3 = 0b111#32 then some (.AND rs1 rs2 rd)
      else if func3 = 0b101#32 then
        if (inst >>> 30) &&& 1#32 = 0#32 then some (.SRL rs1 rs2 rd) else some (.SRA rs1 rs2 rd)
      else none
    else
      if func3 = 0b000#32 then some (.MUL rs1 rs2 rd)
      else if func3 = 0b001#32 then some (.MULH rs1 rs2 rd)
      else if func3 = 0b010#32 then some (.MULHSU rs1 rs2 rd)
      else if func3 = 0b011#32 then some (.MULHU rs1 rs2 rd)
      else if func3 = 0b100#32 then some (.DIV rs1 rs2 rd)
      else if func3 = 0b101#32 then some (.DIVU rs1 rs2 rd)
      else if func3 = 0b110#32 then some (.REM rs1 rs2 rd)
      else if func3 = 0b111#32 then some (.REMU rs1 rs2 rd)
      else none
  else if opcode = 0b1101111#32 then
    (regFrom (extractBits (inst >>> 7) 5)).bind fun rd =>
    (tSignExtend ((extractBits (inst >>> 21) 10 <<< 1) + (extractBits (inst >>> 20) 1 <<< 11)
      + (extractBits (inst >>> 12) 8 <<< 12) + (extractBits (inst >>> 31) 1 <<< 20)) 21).bind fun imm =>
    some (.JAL rd imm)
  else if opcode = 0b1100111#32 ∧ extractBits (inst >>> 12) 3 = 0#32 then
    (regFrom (extractBits (inst >>> 7) 5)).bind fun rd =>
    (regFrom (extractBits (inst >>> 15) 5)).bind fun rs1 =>
    (tSignExtend (extractBits (inst >>> 20) 12) 12).bind fun imm =>
    some (.JALR rs1 rd imm)
  else if opcode = 0b1100011#32 then
    let func3 := extractBits (inst >>> 12) 3
    (regFrom (extractBits (inst >>> 15) 5)).bind fun rs1 =>
    (regFrom (extractBits (inst >>> 20) 5)).bind fun rs2 =>
    (tSignExtend ((extractBits (inst >>> 8) 4 <<< 1) + (extractBits (inst >>> 25) 6 <<< 5)
      + (extractBits (inst >>> 7) 1 <<< 11) + (extractBits (inst >>> 31) 1 <<< 12)) 13).bind fun imm =>
    if func3 = 0b000#32 then some (.BEQ rs1 rs2 imm)
    else if func3 = 0b001#32 then some (.BNE rs1 rs2 imm)
    else if func3 = 0b100#32 then some (.BLT rs1 rs2 imm)
    else if func3 = 0b101#32 then some (.BGE rs1 rs2 imm)
    else if func3 = 0b110#32 then some (.BLTU rs1 rs2 imm)
    else if func3 = 0b111#32 then some (.BGEU rs1 rs2 imm)
    else none
  else if opcode = 0b0000011#32 then
    let func3 := extractBits (inst >>> 12) 3
    (regFrom (extractBits (inst >>> 15) 5)).bind fun rs1 =>
    (regFrom (extractBits (inst >>> 7) 5)).bind fun rd =>
    (tSignExtend (extractBits (inst >>> 20) 12) 12).bind fun imm =>
    if func3 = 0b000#32 then some (.LB rs1 rd imm)
    else if func3 = 0b001#32 then some (.LH rs1 rd imm)
    else if func3 = 0b010#32 then some (.LW rs1 rd imm)
    else if func3 = 0b100#32 then some (.LBU rs1 rd imm)
    else if func3 = 0b101#32 then some (.LHU rs1 rd imm)
    else none
  else if opcode = 0b0100011#32 then
    let func3 := extractBits (inst >>> 12) 3
    (regFrom (extractBits (inst >>> 15) 5)).bind fun rs1 =>
    (regFrom (extractBits (inst >>> 20) 5)).bind fun rs2 =>
    (tSignExtend (extractBits (inst >>> 7) 5 + (extractBits (inst >>> 25) 7 <<< 5)) 12).bind fun imm =>
    if func3 = 0b000#32 then some (.SB rs1 rs2 imm)
    else if func3 = 0b001#32 then some (.SH rs1 rs2 imm)
    else if func3 = 0b010#32 then some (.SW rs1 rs2 imm)
    else none
  else none

/-! ### Execution -/

/-- `InputInfo` / `OutputInfo`, compiler/src/interpreter.rs:77-107. -/
structure TapeInfo where
  startAddr : Nat
  size : Nat
  deriving DecidableEq

/-- `TestVM`, testvm.rs:164-179. -/
structure TestVM where
  registers : List U32
  rom : TMem
  ram : TMem
  pc : U32
  input : TapeInfo
  output : TapeInfo
  maxCycles : Nat
  deriving DecidableEq

/-- `BootMemory`, compiler/src/interpreter.rs:53-57. -/
structure BootMemory where
  data : List (BitVec 8)
  offset : Nat
  size : Nat
  deriving DecidableEq

/-- `TestVM::init`, testvm.rs:182-204. -/
def TestVM.init (chk : Bool) (bootRom bootRam : BootMemory) (input output : TapeInfo)
    (maxCycles : Nat) : Option TestVM :=
  ((TMem.new bootRom.offset bootRom.size).loadMemory chk bootRom.offset bootRom.data).bind fun rom =>
  ((TMem.new bootRam.offset bootRam.size).loadMemory chk bootRam.offset bootRam.data).map fun ram =>
  { registers := List.replicate 32 0#32, rom := rom, ram := ram, pc := 0#32, input := input,
    output := output, maxCycles := maxCycles }

namespace TestVM

/-- `register`, testvm.rs:393-395. -/
def register (vm : TestVM) (i : RegIdx) : Option U32 := vm.registers[i.toNat]?

/-- `*self.register_mut(i) = v`, testvm.rs:397-402. -/
def setReg (vm : TestVM) (i : RegIdx) (v : U32) : Option TestVM :=
  if i.toNat < vm.registers.length then some { vm with registers := vm.registers.set i.toNat v }
  else none

/-- `self.pc += 4`. -/
def incPc (chk : Bool) (vm : TestVM) : Option TestVM :=
  if chk ∧ 2 ^ 32 ≤ vm.pc.toNat + 4 then none else some { vm with pc := vm.pc + 4#32 }

/-- Common end of the computational instructions: `*self.register_mut(rd) = v; self.pc += 4`. -/
def finish (chk : Bool) (vm : TestVM) (rd : RegIdx) (v : U32) : Option TestVM :=
  (vm.setReg rd v).bind (incPc chk)

/-- `assert!(jump_target % 4 == 0); self.pc = jump_target`. -/
def jump (vm : TestVM) (target : U32) : Option TestVM :=
  if target % 4#32 = 0#32 then some { vm with pc := target } else none

/-- A conditional branch, testvm.rs:726-851 (six arms, differing in the condition). -/
def branch (chk : Bool) (vm : TestVM) (rs1 rs2 : RegIdx) (imm : U32) (cond : U32 → U32 → Bool) :
    Option TestVM :=
  let target := imm + vm.pc
  (vm.register rs1).bind fun a => (vm.register rs2).bind fun b =>
  if cond a b then vm.jump target else vm.incPc chk

/-- Instruction with two register operands and a destination. -/
def regReg (chk : Bool) (vm : TestVM) (rs1 rs2 rd : RegIdx) (f : U32 → U32 → Option U32) :
    Option TestVM :=
  (vm.register rs1).bind fun a => (vm.register rs2).bind fun b => (f a b).bind fun v =>
  vm.finish chk rd v

/-- Instruction with one register operand and a destination. -/
def regImm (chk : Bool) (vm : TestVM) (rs1 rd : RegIdx) (f : U32 → U32) : Option TestVM :=
  (vm.register rs1).bind fun a => vm.finish chk rd (f a)

/-- The assertion of LH, LHU and SH: `(addr % 4 == 0) || ((addr - 1) % 4 == 0) || ((addr - 2) % 4 == 0)`,
testvm.rs:882-885, 935-938, 970-973.  The subtractions are only reached with `addr ≥ 1` and
`addr ≥ 2`. -/
def halfOk (addr : U32) : Bool :=
  addr % 4#32 = 0#32 ∨ (addr - 1#32) % 4#32 = 0#32 ∨ (addr - 2#32) % 4#32 = 0#32

/-- The `match` of `run`, testvm.rs:423-1145. -/
def exec (chk : Bool) (vm : TestVM) : TInst → Option TestVM
  | .ADDI rs1 rd imm => vm.regImm chk rs1 rd fun a => a + imm
  | .SLTI rs1 rd imm => vm.regImm chk rs1 rd fun a => if a.slt imm then 1#32 else 0#32
  | .SLTIU rs1 rd imm => vm.regImm chk rs1 rd fun a => if a.ult imm then 1#32 else 0#32
  | .XORI rs1 rd imm => vm.regImm chk rs1 rd fun a => a ^^^ imm
  | .ORI rs1 rd imm => vm.regImm chk rs1 rd fun a => a ||| imm
  | .ANDI rs1 rd imm => vm.regImm chk rs1 rd fun a => a &&& imm
  | .SLLI rs1 rd shift => vm.regImm chk rs1 rd fun a => a <<< shift
  | .SRLI rs1 rd shift => vm.regImm chk rs1 rd fun a => a >>> shift
  | .SRAI rs1 rd shift => vm.regImm chk rs1 rd fun a => a.sshiftRight shift.toNat
  | .LUI rd imm => vm.finish chk rd imm
  | .AUIPC rd imm => vm.finish chk rd (imm + vm.pc)
  | .ADD rs1 rs2 rd => vm.regReg chk rs1 rs2 rd fun a b => some (a + b)
  | .SUB rs1 rs2 rd => vm.regReg chk rs1 rs2 rd fun a b => some (a - b)
  | .SLL rs1 rs2 rd => vm.regReg chk rs1 rs2 rd fun a b => some (a <<< extractBits b 5)
  | .SLT rs1 rs2 rd => vm.regReg chk rs1 rs2 rd fun a b => some (if a.slt b then 1#32 else 0#32)
  | .SLTU rs1 rs2 rd => vm.regReg chk rs1 rs2 rd fun a b => some (if a.ult b then 1#32 else 0#32)
  | .XOR rs1 rs2 rd => vm.regReg chk rs1 rs2 rd fun a b => some (a ^^^ b)
  | .OR rs1 rs2 rd => vm.regReg chk rs1 rs2 rd fun a b => some (a ||| b)
  | .AND rs1 rs2 rd => vm.regReg chk rs1 rs2 rd fun a b => some (a &&& b)
  | .SRL rs1 rs2 rd => vm.regReg chk rs1 rs2 rd fun a b => some (a >>> extractBits b 5)
  | .SRA rs1 rs2 rd => vm.regReg chk rs1 rs2 rd fun a b =>
      some (a.sshiftRight (extractBits b 5).toNat)
  | .JAL rd offset =>
      let target := vm.pc + offset
      if target % 4#32 = 0#32 then (vm.setReg rd (vm.pc + 4#32)).map fun vm => { vm with pc := target }
      else none
  | .JALR rs1 rd imm =>
      (vm.register rs1).bind fun a =>
      let target := ((a + imm) >>> 1) <<< 1
      if target % 4#32 = 0#32 then (vm.setReg rd (vm.pc + 4#32)).map fun vm => { vm with pc := target }
      else none
  | .BEQ rs1 rs2 imm => vm.branch chk rs1 rs2 imm fun a b => a == b
  | .BNE rs1 rs2 imm => vm.branch chk rs1 rs2 imm fun a b => a != b
  | .BLT rs1 rs2 imm => vm.branch chk rs1 rs2 imm fun a b => a.slt b
  | .BLTU rs1 rs2 imm => vm.branch chk rs1 rs2 imm fun a b => a.ult b
  | .BGE rs1 rs2 imm => vm.branch chk rs1 rs2 imm fun a b => b.sle a
  | .BGEU rs1 rs2 imm => vm.branch chk rs1 rs2 imm fun a b => b.ule a
  | .LB rs1 rd imm =>
      (vm.register rs1).bind fun a =>
      (vm.ram.readByte chk (a + imm).toNat).bind fun v =>
      (tSignExtend (v.setWidth 32) 8).bind fun v => vm.finish chk rd v
  | .LH rs1 rd imm =>
      (vm.register rs1).bind fun a =>
      if halfOk (a + imm) then
        (vm.ram.readHalf chk (a + imm).toNat).bind fun v =>
        (tSignExtend (v.setWidth 32) 16).bind fun v => vm.finish chk rd v
      else none
  | .LW rs1 rd imm =>
      (vm.register rs1).bind fun a =>
      if (a + imm) % 4#32 = 0#32 then
        (vm.ram.readWord chk (a + imm).toNat).bind fun v => vm.finish chk rd v
      else none
  | .LBU rs1 rd imm =>
      (vm.register rs1).bind fun a =>
      (vm.ram.readByte chk (a + imm).toNat).bind fun v => vm.finish chk rd (v.setWidth 32)
  | .LHU rs1 rd imm =>
      (vm.register rs1).bind fun a =>
      if halfOk (a + imm) then
        (vm.ram.readHalf chk (a + imm).toNat).bind fun v => vm.finish chk rd (v.setWidth 32)
      else none
  | .SB rs1 rs2 imm =>
      (vm.register rs1).bind fun a => (vm.register rs2).bind fun b =>
      (vm.ram.writeByte chk (a + imm).toNat ((extractBits b 8).setWidth 8)).bind fun ram =>
      incPc chk { vm with ram := ram }
  | .SH rs1 rs2 imm =>
      (vm.register rs1).bind fun a => (vm.register rs2).bind fun b =>
      if halfOk (a + imm) then
        (vm.ram.writeHalf chk (a + imm).toNat ((extractBits b 16).setWidth 16)).bind fun ram =>
        incPc chk { vm with ram := ram }
      else none
  | .SW rs1 rs2 imm =>
      (vm.register rs1).bind fun a => (vm.register rs2).bind fun b =>
      if (a + imm) % 4#32 = 0#32 then
        (vm.ram.writeWord chk (a + imm).toNat b).bind fun ram => incPc chk { vm with ram := ram }
      else none
  | .MUL rs1 rs2 rd => vm.regReg chk rs1 rs2 rd fun a b => some (a * b)
  | .MULH rs1 rs2 rd => vm.regReg chk rs1 rs2 rd fun a b =>
      some (((a.signExtend 64 * b.signExtend 64) >>> 32).setWidth 32)
  | .MULHU rs1 rs2 rd => vm.regReg chk rs1 rs2 rd fun a b =>
      some (((a.setWidth 64 * b.setWidth 64) >>> 32).setWidth 32)
  | .MULHSU rs1 rs2 rd => vm.regReg chk rs1 rs2 rd fun a b =>
      some (((a.signExtend 64 * b.setWidth 64) >>> 32).setWidth 32)
  | .DIV rs1 rs2 rd => vm.regReg chk rs1 rs2 rd fun a b =>
      if b = 0#32 ∨ (a = 0x80000000#32 ∧ b = 0xFFFFFFFF#32) then none else some (a.sdiv b)
  | .DIVU rs1 rs2 rd => vm.regReg chk rs1 rs2 rd fun a b =>
      if b = 0#32 then none else some (a / b)
  | .REM rs1 rs2 rd => vm.regReg chk rs1 rs2 rd fun a b =>
      if b = 0#32 ∨ (a = 0x80000000#32 ∧ b = 0xFFFFFFFF#32) then none else some (a.srem b)
  | .REMU rs1 rs2 rd => vm.regReg chk rs1 rs2 rd fun a b =>
      if b = 0#32 then none else some (a % b)

/-- `run`, testvm.rs:413-1149: one instruction. -/
def run (chk : Bool) (vm : TestVM) : Option TestVM :=
  (vm.rom.readWord chk vm.pc.toNat).bind fun w =>
  (decodeInst w).bind fun i =>
  (vm.exec chk i).bind fun vm => vm.setReg 0#32 0#32

/-- `n` iterations of the loop of `execute`, testvm.rs:404-411. -/
def steps (chk : Bool) : Nat → TestVM → Option TestVM
  | 0, vm => some vm
  | n + 1, vm => (vm.run chk).bind (steps chk n)

/-- `execute`, testvm.rs:404-411. -/
def execute (chk : Bool) (vm : TestVM) : Option TestVM := steps chk vm.maxCycles vm

/-- `read_input_tape`, testvm.rs:1151-1158. -/
def readInputTape (chk : Bool) (vm : TestVM) (tape : List (BitVec 8)) : Option TestVM :=
  if tape.length = vm.input.size then
    (vm.ram.loadMemory chk vm.input.startAddr tape).map fun ram => { vm with ram := ram }
  else none

/-- `output_tape`, testvm.rs:1160-1173: byte `i` is `read_byte(start_addr + i)`. -/
def outputTape (chk : Bool) (vm : TestVM) : Option (List (BitVec 8)) :=
  collect ((List.range vm.output.size).map fun i =>
    (usizeAdd chk vm.output.startAddr i).bind fun a => vm.ram.readByte chk a)

end TestVM

end Verif.Model
