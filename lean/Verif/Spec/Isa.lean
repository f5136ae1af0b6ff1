/-
  Specification: the RV32I / RV32M instruction set, written from the RISC-V
  unprivileged manual (chapters "RV32I Base Integer Instruction Set",
  "M Extension", and the opcode listing table).  This file imports no model
  file; theorems in `Verif/Props` compare the models of the code with it.
-/
namespace Verif.Spec

abbrev Word := BitVec 32
abbrev Byte := BitVec 8
/-- A register number. -/
abbrev Reg := BitVec 5

inductive BranchOp | beq | bne | blt | bge | bltu | bgeu deriving DecidableEq, Repr
inductive LoadOp | lb | lh | lw | lbu | lhu deriving DecidableEq, Repr
inductive StoreOp | sb | sh | sw deriving DecidableEq, Repr
inductive ImmOp | addi | slti | sltiu | xori | ori | andi deriving DecidableEq, Repr
inductive ShiftOp | slli | srli | srai deriving DecidableEq, Repr
inductive RegOp | add | sub | sll | slt | sltu | xor | srl | sra | or | and
  deriving DecidableEq, Repr
inductive MulOp | mul | mulh | mulhsu | mulhu | div | divu | rem | remu
  deriving DecidableEq, Repr

/-- Instructions with their operands.  Immediates are the raw fields of the
manual: `imm[11:0]` for I and S formats, `imm[12:1]` for B, `imm[20:1]` for J,
`imm[31:12]` for U. -/
inductive Instr
  | lui (rd : Reg) (imm : BitVec 20)
  | auipc (rd : Reg) (imm : BitVec 20)
  | jal (rd : Reg) (imm : BitVec 20)
  | jalr (rd rs1 : Reg) (imm : BitVec 12)
  | branch (op : BranchOp) (rs1 rs2 : Reg) (imm : BitVec 12)
  | load (op : LoadOp) (rd rs1 : Reg) (imm : BitVec 12)
  | store (op : StoreOp) (rs1 rs2 : Reg) (imm : BitVec 12)
  | opImm (op : ImmOp) (rd rs1 : Reg) (imm : BitVec 12)
  | shImm (op : ShiftOp) (rd rs1 : Reg) (shamt : BitVec 5)
  | op (op : RegOp) (rd rs1 rs2 : Reg)
  | mul (op : MulOp) (rd rs1 rs2 : Reg)
  deriving DecidableEq, Repr

/-! ### Encodings -/

/-- `place x k`: the field `x` put at bit position `k` of the word. -/
def place {n : Nat} (x : BitVec n) (k : Nat) : Word := x.setWidth 32 <<< k

def rType (funct7 : BitVec 7) (rs2 rs1 : Reg) (funct3 : BitVec 3) (rd : Reg)
    (opcode : BitVec 7) : Word :=
  place funct7 25 ||| place rs2 20 ||| place rs1 15 ||| place funct3 12 ||| place rd 7
    ||| place opcode 0

def iType (imm : BitVec 12) (rs1 : Reg) (funct3 : BitVec 3) (rd : Reg)
    (opcode : BitVec 7) : Word :=
  place imm 20 ||| place rs1 15 ||| place funct3 12 ||| place rd 7 ||| place opcode 0

def sType (imm : BitVec 12) (rs2 rs1 : Reg) (funct3 : BitVec 3) (opcode : BitVec 7) : Word :=
  place (imm.extractLsb' 5 7) 25 ||| place rs2 20 ||| place rs1 15 ||| place funct3 12
    ||| place (imm.extractLsb' 0 5) 7 ||| place opcode 0

/-- `imm` is `imm[12:1]`; the word holds `imm[12] imm[10:5] rs2 rs1 funct3 imm[4:1] imm[11]`. -/
def bType (imm : BitVec 12) (rs2 rs1 : Reg) (funct3 : BitVec 3) (opcode : BitVec 7) : Word :=
  place (imm.extractLsb' 11 1) 31 ||| place (imm.extractLsb' 4 6) 25 ||| place rs2 20
    ||| place rs1 15 ||| place funct3 12 ||| place (imm.extractLsb' 0 4) 8
    ||| place (imm.extractLsb' 10 1) 7 ||| place opcode 0

def uType (imm : BitVec 20) (rd : Reg) (opcode : BitVec 7) : Word :=
  place imm 12 ||| place rd 7 ||| place opcode 0

/-- `imm` is `imm[20:1]`; the word holds `imm[20] imm[10:1] imm[11] imm[19:12] rd`. -/
def jType (imm : BitVec 20) (rd : Reg) (opcode : BitVec 7) : Word :=
  place (imm.extractLsb' 19 1) 31 ||| place (imm.extractLsb' 0 10) 21
    ||| place (imm.extractLsb' 10 1) 20 ||| place (imm.extractLsb' 11 8) 12
    ||| place rd 7 ||| place opcode 0

def BranchOp.funct3 : BranchOp → BitVec 3
  | .beq => 0b000#3 | .bne => 0b001#3 | .blt => 0b100#3 | .bge => 0b101#3
  | .bltu => 0b110#3 | .bgeu => 0b111#3
def LoadOp.funct3 : LoadOp → BitVec 3
  | .lb => 0b000#3 | .lh => 0b001#3 | .lw => 0b010#3 | .lbu => 0b100#3 | .lhu => 0b101#3
def StoreOp.funct3 : StoreOp → BitVec 3
  | .sb => 0b000#3 | .sh => 0b001#3 | .sw => 0b010#3
def ImmOp.funct3 : ImmOp → BitVec 3
  | .addi => 0b000#3 | .slti => 0b010#3 | .sltiu => 0b011#3 | .xori => 0b100#3
  | .ori => 0b110#3 | .andi => 0b111#3
def ShiftOp.funct3 : ShiftOp → BitVec 3
  | .slli => 0b001#3 | .srli => 0b101#3 | .srai => 0b101#3
def ShiftOp.funct7 : ShiftOp → BitVec 7
  | .slli => 0b0000000#7 | .srli => 0b0000000#7 | .srai => 0b0100000#7
def RegOp.funct3 : RegOp → BitVec 3
  | .add => 0b000#3 | .sub => 0b000#3 | .sll => 0b001#3 | .slt => 0b010#3 | .sltu => 0b011#3
  | .xor => 0b100#3 | .srl => 0b101#3 | .sra => 0b101#3 | .or => 0b110#3 | .and => 0b111#3
def RegOp.funct7 : RegOp → BitVec 7
  | .sub => 0b0100000#7 | .sra => 0b0100000#7 | _ => 0b0000000#7
def MulOp.funct3 : MulOp → BitVec 3
  | .mul => 0b000#3 | .mulh => 0b001#3 | .mulhsu => 0b010#3 | .mulhu => 0b011#3
  | .div => 0b100#3 | .divu => 0b101#3 | .rem => 0b110#3 | .remu => 0b111#3

/-- The machine word of an instruction. -/
def encode : Instr → Word
  | .lui rd imm => uType imm rd 0b0110111#7
  | .auipc rd imm => uType imm rd 0b0010111#7
  | .jal rd imm => jType imm rd 0b1101111#7
  | .jalr rd rs1 imm => iType imm rs1 0b000#3 rd 0b1100111#7
  | .branch o rs1 rs2 imm => bType imm rs2 rs1 o.funct3 0b1100011#7
  | .load o rd rs1 imm => iType imm rs1 o.funct3 rd 0b0000011#7
  | .store o rs1 rs2 imm => sType imm rs2 rs1 o.funct3 0b0100011#7
  | .opImm o rd rs1 imm => iType imm rs1 o.funct3 rd 0b0010011#7
  | .shImm o rd rs1 sh => rType o.funct7 sh rs1 o.funct3 rd 0b0010011#7
  | .op o rd rs1 rs2 => rType o.funct7 rs2 rs1 o.funct3 rd 0b0110011#7
  | .mul o rd rs1 rs2 => rType 0b0000001#7 rs2 rs1 o.funct3 rd 0b0110011#7

/-! ### Immediate values -/

/-- Value of a 12-bit I/S immediate. -/
def immI (imm : BitVec 12) : Word := imm.signExtend 32
/-- Value of a B immediate: `imm[12:1]` with bit 0 = 0, sign-extended. -/
def immB (imm : BitVec 12) : Word := imm.signExtend 32 <<< 1
/-- Value of a J immediate: `imm[20:1]` with bit 0 = 0, sign-extended. -/
def immJ (imm : BitVec 20) : Word := imm.signExtend 32 <<< 1
/-- Value of a U immediate: `imm[31:12]` with low 12 bits zero. -/
def immU (imm : BitVec 20) : Word := imm.setWidth 32 <<< 12

/-! ### Value semantics (stated over integers) -/

def BranchOp.taken (o : BranchOp) (x y : Word) : Prop :=
  match o with
  | .beq => x = y
  | .bne => x ≠ y
  | .blt => x.toInt < y.toInt
  | .bge => y.toInt ≤ x.toInt
  | .bltu => x.toNat < y.toNat
  | .bgeu => y.toNat ≤ x.toNat

instance (o : BranchOp) (x y : Word) : Decidable (o.taken x y) := by
  unfold BranchOp.taken; cases o <;> infer_instance

def bool01 (p : Prop) [Decidable p] : Word := if p then 1#32 else 0#32

def ImmOp.eval (o : ImmOp) (x i : Word) : Word :=
  match o with
  | .addi => BitVec.ofNat 32 (x.toNat + i.toNat)
  | .slti => bool01 (x.toInt < i.toInt)
  | .sltiu => bool01 (x.toNat < i.toNat)
  | .xori => x ^^^ i
  | .ori => x ||| i
  | .andi => x &&& i

/-- `s` is the shift amount, `0 ≤ s < 32`. -/
def ShiftOp.eval (o : ShiftOp) (x : Word) (s : Nat) : Word :=
  match o with
  | .slli => BitVec.ofNat 32 (x.toNat * 2 ^ s)
  | .srli => BitVec.ofNat 32 (x.toNat / 2 ^ s)
  | .srai => BitVec.ofInt 32 (x.toInt / 2 ^ s)

def RegOp.eval (o : RegOp) (x y : Word) : Word :=
  match o with
  | .add => BitVec.ofNat 32 (x.toNat + y.toNat)
  | .sub => BitVec.ofInt 32 ((x.toNat : Int) - y.toNat)
  | .sll => ShiftOp.eval .slli x (y.toNat % 32)
  | .slt => bool01 (x.toInt < y.toInt)
  | .sltu => bool01 (x.toNat < y.toNat)
  | .xor => x ^^^ y
  | .srl => ShiftOp.eval .srli x (y.toNat % 32)
  | .sra => ShiftOp.eval .srai x (y.toNat % 32)
  | .or => x ||| y
  | .and => x &&& y

/-- M extension.  Division by zero and overflow as in the manual's table:
a quotient by zero is all ones, a remainder by zero is the dividend; the quotient of the
smallest integer by minus one is the smallest integer and the remainder 0, which is what
wrapping the exact quotient and remainder gives. -/
def MulOp.eval (o : MulOp) (x y : Word) : Word :=
  match o with
  | .mul => BitVec.ofNat 32 (x.toNat * y.toNat)
  | .mulh => BitVec.ofInt 32 (x.toInt * y.toInt / 2 ^ 32)
  | .mulhsu => BitVec.ofInt 32 (x.toInt * (y.toNat : Int) / 2 ^ 32)
  | .mulhu => BitVec.ofNat 32 (x.toNat * y.toNat / 2 ^ 32)
  | .div => if y = 0#32 then BitVec.ofInt 32 (-1) else BitVec.ofInt 32 (x.toInt.tdiv y.toInt)
  | .divu => if y = 0#32 then BitVec.ofInt 32 (-1) else BitVec.ofNat 32 (x.toNat / y.toNat)
  | .rem => if y = 0#32 then x else BitVec.ofInt 32 (x.toInt.tmod y.toInt)
  | .remu => if y = 0#32 then x else BitVec.ofNat 32 (x.toNat % y.toNat)

/-! ### One-step semantics over a byte-addressed memory -/

structure Arch where
  pc : Word
  reg : Reg → Word
  mem : Word → Byte

/-- Register read: `x0` reads as zero. -/
def Arch.x (s : Arch) (r : Reg) : Word := if r = 0#5 then 0#32 else s.reg r

/-- Register write: writes to `x0` are ignored. -/
def Arch.setX (s : Arch) (r : Reg) (v : Word) : Arch :=
  { s with reg := fun k => if k = r ∧ r ≠ 0#5 then v else s.reg k }

/-- Little-endian value of `n` bytes at `a`. -/
def leValue (mem : Word → Byte) (a : Word) : Nat → Nat
  | 0 => 0
  | n + 1 => (mem a).toNat + 256 * leValue mem (a + 1#32) n

def LoadOp.size : LoadOp → Nat
  | .lb => 1 | .lbu => 1 | .lh => 2 | .lhu => 2 | .lw => 4
def StoreOp.size : StoreOp → Nat
  | .sb => 1 | .sh => 2 | .sw => 4

def LoadOp.eval (o : LoadOp) (mem : Word → Byte) (a : Word) : Word :=
  match o with
  | .lb => (BitVec.ofNat 8 (leValue mem a 1)).signExtend 32
  | .lbu => BitVec.ofNat 32 (leValue mem a 1)
  | .lh => (BitVec.ofNat 16 (leValue mem a 2)).signExtend 32
  | .lhu => BitVec.ofNat 32 (leValue mem a 2)
  | .lw => BitVec.ofNat 32 (leValue mem a 4)

/-- Memory after storing the low `n` bytes of `v` at `a`, `n ≤ 4`. -/
def storeBytes (mem : Word → Byte) (a v : Word) (n : Nat) : Word → Byte :=
  fun b => if (b - a).toNat < n then v.extractLsb' (8 * (b - a).toNat) 8 else mem b

def Arch.next (s : Arch) : Arch := { s with pc := s.pc + 4#32 }

/-- Effect of one instruction located at `s.pc`. -/
def exec (i : Instr) (s : Arch) : Arch :=
  match i with
  | .lui rd imm => (s.setX rd (immU imm)).next
  | .auipc rd imm => (s.setX rd (s.pc + immU imm)).next
  | .jal rd imm => { s.setX rd (s.pc + 4#32) with pc := s.pc + immJ imm }
  | .jalr rd rs1 imm =>
      { s.setX rd (s.pc + 4#32) with pc := (s.x rs1 + immI imm) &&& ~~~1#32 }
  | .branch o rs1 rs2 imm =>
      if o.taken (s.x rs1) (s.x rs2) then { s with pc := s.pc + immB imm } else s.next
  | .load o rd rs1 imm => (s.setX rd (o.eval s.mem (s.x rs1 + immI imm))).next
  | .store o rs1 rs2 imm =>
      { s with mem := storeBytes s.mem (s.x rs1 + immI imm) (s.x rs2) o.size }.next
  | .opImm o rd rs1 imm => (s.setX rd (o.eval (s.x rs1) (immI imm))).next
  | .shImm o rd rs1 sh => (s.setX rd (o.eval (s.x rs1) sh.toNat)).next
  | .op o rd rs1 rs2 => (s.setX rd (o.eval (s.x rs1) (s.x rs2))).next
  | .mul o rd rs1 rs2 => (s.setX rd (o.eval (s.x rs1) (s.x rs2))).next

end Verif.Spec
