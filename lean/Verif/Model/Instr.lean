/-
  Model of fhevm/src/instructions/{mod,b_type,i_type,j_type,s_type,u_type}.rs:
  instruction words, field getters/setters, immediates, operation ids, the
  plaintext semantics (`eval_plain`) and the instruction parser.

  `u32` is `BitVec 32`, `i64` is `BitVec 64`.  A Rust panic is `none`.
  Checks compiled only with `debug_assertions` are kept, guarded by a flag
  `dbg`, so both build profiles are covered.
-/
namespace Verif.Model

abbrev U32 := BitVec 32
abbrev I64 := BitVec 64

/-! ### Operation families -/

/-- `RAM_UPDATE`, instructions/mod.rs:156-164. -/
inductive RamUpdate | NONE | SB | SH | SW deriving DecidableEq, Repr

/-- `PC_UPDATE`, instructions/mod.rs:199-212. -/
inductive PcUpdate | NONE | JAL | JALR | BEQ | BNE | BLT | BGE | BLTU | BGEU
  deriving DecidableEq, Repr

/-- `RD_UPDATE`, instructions/mod.rs:281-322. -/
inductive RdUpdate
  | NONE | LUI | AUIPC | ADDI | SLTI | SLTIU | XORI | ORI | ANDI | SLLI | SRLI | SRAI
  | ADD | SUB | SLL | SLT | SLTU | XOR | SRL | SRA | OR | AND
  | LB | LBU | LH | LHU | LW | JAL | JALR
  | MUL | MULH | MULHSU | MULHU | DIV | DIVU | REM | REMU
  deriving DecidableEq, Repr

/-- `RAM_UPDATE::id`, mod.rs:160-163 (discriminants) and 167-169. -/
def RamUpdate.id : RamUpdate → U32
  | .NONE => 0b00#32 | .SB => 0b01#32 | .SH => 0b10#32 | .SW => 0b11#32

/-- `PC_UPDATE::id`, mod.rs:203-211 (discriminants) and 215-217. -/
def PcUpdate.id : PcUpdate → U32
  | .NONE => 0b0001#32 | .JAL => 0b0011#32 | .JALR => 0b0111#32
  | .BEQ => 0b0000#32 | .BNE => 0b0100#32 | .BLT => 0b0110#32 | .BGE => 0b1110#32
  | .BLTU => 0b0010#32 | .BGEU => 0b1010#32

/-- `RD_UPDATE::id`, mod.rs:285-321 (discriminants) and 325-327. -/
def RdUpdate.id : RdUpdate → U32
  | .NONE => 0#32 | .LUI => 1#32 | .AUIPC => 2#32 | .ADDI => 3#32 | .SLTI => 4#32
  | .SLTIU => 5#32 | .XORI => 6#32 | .ORI => 7#32 | .ANDI => 8#32 | .SLLI => 9#32
  | .SRLI => 10#32 | .SRAI => 11#32 | .ADD => 12#32 | .SUB => 13#32 | .SLL => 14#32
  | .SLT => 15#32 | .SLTU => 16#32 | .XOR => 17#32 | .SRL => 18#32 | .SRA => 19#32
  | .OR => 20#32 | .AND => 21#32 | .LB => 22#32 | .LBU => 23#32 | .LH => 24#32
  | .LHU => 25#32 | .LW => 26#32 | .JAL => 27#32 | .JALR => 28#32 | .MUL => 29#32
  | .MULH => 30#32 | .MULHSU => 31#32 | .MULHU => 32#32 | .DIV => 33#32 | .DIVU => 34#32
  | .REM => 35#32 | .REMU => 36#32

/-- `RAM_UPDATE_OP_LIST`, mod.rs:192-197. -/
def ramUpdateOpList : List RamUpdate := [.NONE, .SB, .SH, .SW]

/-- `PC_UPDATE_OP_LIST`, mod.rs:270-280. -/
def pcUpdateOpList : List PcUpdate :=
  [.NONE, .BEQ, .BGE, .BGEU, .BLT, .BLTU, .BNE, .JAL, .JALR]

/-- `RD_UPDATE_RV32I_OP_LIST`, mod.rs:462-492. -/
def rdUpdateRv32iOpList : List RdUpdate :=
  [.NONE, .LUI, .AUIPC, .ADDI, .SLTI, .SLTIU, .XORI, .ORI, .ANDI, .SLLI, .SRLI, .SRAI,
   .ADD, .SUB, .SLL, .SLT, .SLTU, .XOR, .SRL, .SRA, .OR, .AND, .LB, .LBU, .LH, .LHU, .LW,
   .JAL, .JALR]

/-- `RD_UPDATE_RV32M_OP_LIST`, mod.rs:421-460. -/
def rdUpdateRv32mOpList : List RdUpdate :=
  [.NONE, .LUI, .AUIPC, .ADDI, .SLTI, .SLTIU, .XORI, .ORI, .ANDI, .SLLI, .SRLI, .SRAI,
   .ADD, .SUB, .SLL, .SLT, .SLTU, .XOR, .SRL, .SRA, .OR, .AND, .LB, .LBU, .LH, .LHU, .LW,
   .JAL, .JALR, .MUL, .MULH, .MULHSU, .MULHU, .DIV, .DIVU, .REM, .REMU]

/-! ### Plaintext semantics -/

/-- `sext`, mod.rs:151-154.  Rust shifts by `32 - bits`, which overflows (panic in
debug builds, masked in release) when `bits = 0`, and `x >> bits`
overflows when `bits ≥ 32`; callers use 7, 11, 12, 15, 19, 20. `none` = shift overflow. -/
def sext (x : U32) (bits : Nat) : Option U32 :=
  if bits = 0 ∨ 32 ≤ bits then none
  else some (((x <<< (32 - bits)) >>> (32 - bits))
    ||| (((x >>> bits) &&& 1#32) * (0xFFFFFFFF#32 &&& (0xFFFFFFFF#32 <<< bits))))

/-- `RAM_UPDATE::eval_plain`, mod.rs:171-189. -/
def RamUpdate.evalPlain (o : RamUpdate) (rs2 ram offset : U32) : U32 :=
  match o with
  | .NONE => ram
  | .SW => rs2
  | .SB =>
    if offset = 0#32 then (rs2 &&& 0xFF#32) ||| (ram &&& 0xFFFFFF00#32)
    else if offset = 1#32 then ((rs2 &&& 0xFF#32) <<< 8) ||| (ram &&& 0xFFFF00FF#32)
    else if offset = 2#32 then ((rs2 &&& 0xFF#32) <<< 16) ||| (ram &&& 0xFF00FFFF#32)
    else if offset = 3#32 then ((rs2 &&& 0xFF#32) <<< 24) ||| (ram &&& 0x00FFFFFF#32)
    else 0#32
  | .SH =>
    if offset = 0#32 then (rs2 &&& 0xFFFF#32) ||| (ram &&& 0xFFFF0000#32)
    else if offset = 2#32 then ((rs2 &&& 0xFFFF#32) <<< 16) ||| (ram &&& 0xFFFF#32)
    else 0#32

/-- `PC_UPDATE::eval_plain`, mod.rs:219-267.  `as i32` comparisons are `BitVec.slt/sle`. -/
def PcUpdate.evalPlain (o : PcUpdate) (imm rs1 rs2 pc : U32) : U32 :=
  match o with
  | .NONE => pc + 4#32
  | .BEQ => if rs1 = rs2 then pc + imm else pc + 4#32
  | .BGE => if rs2.sle rs1 then pc + imm else pc + 4#32
  | .BGEU => if rs2.ule rs1 then pc + imm else pc + 4#32
  | .BLT => if rs1.slt rs2 then pc + imm else pc + 4#32
  | .BLTU => if rs1.ult rs2 then pc + imm else pc + 4#32
  | .BNE => if rs1 ≠ rs2 then pc + imm else pc + 4#32
  | .JAL => pc + imm
  | .JALR => (rs1 + imm) &&& 0xFFFFFFFE#32

/-- `u32::wrapping_shl` : the shift amount is taken modulo 32. -/
def wrappingShl (x n : U32) : U32 := x <<< (n &&& 31#32)
/-- `u32::wrapping_shr`. -/
def wrappingShr (x n : U32) : U32 := x >>> (n &&& 31#32)
/-- `i32::wrapping_shr` (arithmetic). -/
def wrappingSar (x n : U32) : U32 := x.sshiftRight (n &&& 31#32).toNat

/-- `RD_UPDATE::eval_plain`, mod.rs:329-418.  `none`: the Rust panics (only `REM` with a
zero divisor and a non-zero dividend: `%` by zero, mod.rs:402-410). -/
def RdUpdate.evalPlain (o : RdUpdate) (imm rs1 rs2 pc ram : U32) : Option U32 :=
  match o with
  | .NONE => some 0#32
  | .LUI => some (wrappingShl imm 12#32)
  | .AUIPC => some (pc + wrappingShl imm 12#32)
  | .ADDI => some (rs1 + imm)
  | .SLTI => some (if rs1.slt imm then 1#32 else 0#32)
  | .SLTIU => some (if rs1.ult imm then 1#32 else 0#32)
  | .XORI => some (rs1 ^^^ imm)
  | .ORI => some (rs1 ||| imm)
  | .ANDI => some (rs1 &&& imm)
  | .SLLI => some (wrappingShl rs1 (imm &&& 0x1F#32))
  | .SRLI => some (wrappingShr rs1 (imm &&& 0x1F#32))
  | .SRAI => some (wrappingSar rs1 (imm &&& 0x1F#32))
  | .ADD => some (rs1 + rs2)
  | .SUB => some (rs1 - rs2)
  | .SLL => some (wrappingShl rs1 (rs2 &&& 0x1F#32))
  | .SLT => some (if rs1.slt rs2 then 1#32 else 0#32)
  | .SLTU => some (if rs1.ult rs2 then 1#32 else 0#32)
  | .XOR => some (rs1 ^^^ rs2)
  | .SRL => some (rs1 >>> (rs2 &&& 0x1F#32))
  | .SRA => some (rs1.sshiftRight (rs2 &&& 0x1F#32).toNat)
  | .OR => some (rs1 ||| rs2)
  | .AND => some (rs1 &&& rs2)
  | .LB => sext (ram &&& 0xFF#32) 7
  | .LH => sext (ram &&& 0xFFFF#32) 15
  | .LW => some ram
  | .LBU => some (ram &&& 0xFF#32)
  | .LHU => some (ram &&& 0xFFFF#32)
  | .JAL => some (pc + 4#32)
  | .JALR => some (pc + 4#32)
  | .MUL => some (rs1 * rs2)
  | .MULH => some (((rs1.signExtend 64 * rs2.signExtend 64).sshiftRight 32).setWidth 32)
  | .MULHSU => some (((rs1.signExtend 64 * rs2.setWidth 64).sshiftRight 32).setWidth 32)
  | .MULHU => some (((rs1.setWidth 64 * rs2.setWidth 64).sshiftRight 32).setWidth 32)
  | .DIV =>
    if rs2 = 0#32 then some 0x7FFFFFFF#32
    else if rs1 = 0x80000000#32 ∧ rs2 = 0xFFFFFFFF#32 then some 0x80000000#32
    else some (rs1.sdiv rs2)
  | .DIVU => if rs2 = 0#32 then some rs1 else some (rs1 / rs2)
  | .REM =>
    if rs1 = 0#32 then some rs1
    else if rs1 = 0x80000000#32 ∧ rs2 = 0xFFFFFFFF#32 then some 0#32
    else if rs2 = 0#32 then none
    else some (rs1.srem rs2)
  | .REMU => if rs2 = 0#32 then some rs1 else some (rs1 % rs2)

/-! ### Instruction words -/

/-- `Type`, mod.rs:633-642. -/
inductive Ty | NONE | R | I | S | B | U | J deriving DecidableEq, Repr

/-- masks and shifts, mod.rs:617-631. -/
def RS1MASK : U32 := 0x000F8000#32
def RS2MASK : U32 := 0x01F00000#32
def FUNCT3MASK : U32 := 0x00007000#32
def FUNCT7MASK : U32 := 0xFE000000#32
def SHAMTMASK : U32 := 0x01F00000#32
def RDMASK : U32 := 0x00000F80#32
def OPCODEMASK : U32 := 0x0000007F#32
def RS1SHIFT : Nat := 15
def RS2SHIFT : Nat := 20
def FUNCT3SHIFT : Nat := 12
def FUNCT7SHIFT : Nat := 25
def SHAMTSHIFT : Nat := 20
def RDSHIFT : Nat := 7
def OPCODESHIFT : Nat := 0

/-- Body shared by the getters: `(self.0 & MASK) >> SHIFT`. -/
def getField (mask : U32) (shift : Nat) (w : U32) : U32 := (w &&& mask) >>> shift
/-- Body shared by the setters: `(self.0 & (0xFFFF_FFFF ^ MASK)) | (v << SHIFT) & MASK`. -/
def setField (mask : U32) (shift : Nat) (w v : U32) : U32 :=
  (w &&& (0xFFFFFFFF#32 ^^^ mask)) ||| ((v <<< shift) &&& mask)

/-- `get_opcode`, mod.rs:859-862. -/
def getOpcode (w : U32) : U32 := getField OPCODEMASK OPCODESHIFT w
/-- `set_opcode`, mod.rs:864-870. -/
def setOpcode (w v : U32) : U32 := setField OPCODEMASK OPCODESHIFT w v

/-- `get_type`, mod.rs:651-663; panics on any other opcode. -/
def getType (w : U32) : Option Ty :=
  let op := getOpcode w
  if op = 0b0110111#32 ∨ op = 0b0010111#32 then some .U
  else if op = 0b0010011#32 ∨ op = 0b0000011#32 ∨ op = 0b1100111#32 then some .I
  else if op = 0b0110011#32 then some .R
  else if op = 0b0100011#32 then some .S
  else if op = 0b1101111#32 then some .J
  else if op = 0b1100011#32 then some .B
  else if op = 0b1110011#32 then some .NONE
  else none

/-- The `#[cfg(debug_assertions)]` guard of an accessor: in a debug build, `get_type` is called
(which may panic) and the accessor panics unless the type is allowed. -/
def guardTy (dbg : Bool) (ok : Ty → Bool) (w : U32) : Option Unit :=
  if dbg then (getType w).bind (fun t => if ok t then some () else none) else some ()

def okFunct3 : Ty → Bool | .U => false | .J => false | _ => true
def okGetFunct7 : Ty → Bool | .R => true | .I => true | _ => false
def okSetFunct7 : Ty → Bool | .R => true | _ => false
def okRs1 : Ty → Bool | .R => true | .I => true | .S => true | .B => true | _ => false
def okRs2 : Ty → Bool | .R => true | .S => true | .B => true | _ => false
def okRd : Ty → Bool | .R => true | .I => true | .U => true | .J => true | _ => false
def okShamt : Ty → Bool | .I => true | _ => false

/-- `get_funct3`, mod.rs:666-678. -/
def getFunct3 (dbg : Bool) (w : U32) : Option U32 :=
  (guardTy dbg okFunct3 w).map fun _ => getField FUNCT3MASK FUNCT3SHIFT w
/-- `set_funct3`, mod.rs:681-695. -/
def setFunct3 (dbg : Bool) (w v : U32) : Option U32 :=
  (guardTy dbg okFunct3 w).map fun _ => setField FUNCT3MASK FUNCT3SHIFT w v
/-- `get_funct7`, mod.rs:698-710. -/
def getFunct7 (dbg : Bool) (w : U32) : Option U32 :=
  (guardTy dbg okGetFunct7 w).map fun _ => getField FUNCT7MASK FUNCT7SHIFT w
/-- `set_funct7`, mod.rs:713-727. -/
def setFunct7 (dbg : Bool) (w v : U32) : Option U32 :=
  (guardTy dbg okSetFunct7 w).map fun _ => setField FUNCT7MASK FUNCT7SHIFT w v
/-- `get_rs1`, mod.rs:730-742. -/
def getRs1 (dbg : Bool) (w : U32) : Option U32 :=
  (guardTy dbg okRs1 w).map fun _ => getField RS1MASK RS1SHIFT w
/-- `set_rs1`, mod.rs:745-758. -/
def setRs1 (dbg : Bool) (w v : U32) : Option U32 :=
  (guardTy dbg okRs1 w).map fun _ => setField RS1MASK RS1SHIFT w v
/-- `get_rs2`, mod.rs:761-773. -/
def getRs2 (dbg : Bool) (w : U32) : Option U32 :=
  (guardTy dbg okRs2 w).map fun _ => getField RS2MASK RS2SHIFT w
/-- `set_rs2`, mod.rs:776-789. -/
def setRs2 (dbg : Bool) (w v : U32) : Option U32 :=
  (guardTy dbg okRs2 w).map fun _ => setField RS2MASK RS2SHIFT w v
/-- `get_rd`, mod.rs:792-804. -/
def getRd (dbg : Bool) (w : U32) : Option U32 :=
  (guardTy dbg okRd w).map fun _ => getField RDMASK RDSHIFT w
/-- `set_rd`, mod.rs:807-820. -/
def setRd (dbg : Bool) (w v : U32) : Option U32 :=
  (guardTy dbg okRd w).map fun _ => setField RDMASK RDSHIFT w v
/-- `get_shamt`, mod.rs:823-835. -/
def getShamt (dbg : Bool) (w : U32) : Option U32 :=
  (guardTy dbg okShamt w).map fun _ => getField SHAMTMASK SHAMTSHIFT w
/-- `set_shamt`, mod.rs:838-851. -/
def setShamt (dbg : Bool) (w v : U32) : Option U32 :=
  (guardTy dbg okShamt w).map fun _ => setField SHAMTMASK SHAMTSHIFT w v

/-! ### Immediates per format -/

namespace BType
/-- b_type.rs:14-23 with the constants of lines 1-11. -/
def setImmediate (w imm : U32) : U32 :=
  let s := imm >>> 1
  (w &&& 0x01FFF07F#32) ||| ((s &&& 0x00000800#32) <<< 20) ||| ((s &&& 0x00000400#32) >>> 3)
    ||| ((s &&& 0x000003F0#32) <<< 21) ||| ((s &&& 0x0000000F#32) <<< 8)
/-- b_type.rs:25-33. -/
def getImmediate (w : U32) : U32 :=
  (((w >>> 20) &&& 0x00000800#32) ||| ((w <<< 3) &&& 0x00000400#32)
    ||| ((w >>> 21) &&& 0x000003F0#32) ||| ((w >>> 8) &&& 0x0000000F#32)
    ||| (((w >>> 31) &&& 1#32) * 0xFFFFF800#32)) <<< 1
end BType

namespace IType
/-- i_type.rs:5-9 with the constants of lines 1-3. -/
def setImmediate (w imm : U32) : U32 := (w &&& 0x000FFFFF#32) ||| (imm <<< 20)
/-- i_type.rs:11-14. -/
def getImmediate (w : U32) : U32 := (w >>> 20) ||| (((w >>> 31) &&& 1#32) * 0xFFFFF000#32)
end IType

namespace JType
/-- j_type.rs:13-21 with the constants of lines 1-11. -/
def setImmediate (w imm : U32) : U32 :=
  (w &&& 0x00000FFF#32) ||| ((imm &&& 0x00100000#32) <<< 11) ||| ((imm &&& 0x000FF000#32) <<< 0)
    ||| ((imm &&& 0x00000800#32) <<< 9) ||| ((imm &&& 0x000007FE#32) <<< 20)
/-- j_type.rs:23-30. -/
def getImmediate (w : U32) : U32 :=
  ((w >>> 11) &&& 0x00100000#32) ||| ((w >>> 0) &&& 0x000FF000#32)
    ||| ((w >>> 9) &&& 0x00000800#32) ||| ((w >>> 20) &&& 0x000007FE#32)
    ||| (((w >>> 31) &&& 1#32) * 0xFFF00000#32)
end JType

namespace SType
/-- s_type.rs:8-14 with the constants of lines 1-6. -/
def setImmediate (w imm : U32) : U32 :=
  (w &&& 0x01FFF07F#32) ||| ((imm &&& 0x00000FE0#32) <<< 20) ||| ((imm &&& 0x0000001F#32) <<< 7)
/-- s_type.rs:16-21. -/
def getImmediate (w : U32) : U32 :=
  ((w >>> 20) &&& 0x00000FE0#32) ||| ((w >>> 7) &&& 0x0000001F#32)
    ||| (((w >>> 31) &&& 1#32) * 0xFFFFF000#32)
end SType

namespace UType
/-- u_type.rs:4-8 with the constants of lines 1-2. -/
def setImmediate (w imm : U32) : U32 :=
  (w &&& 0x00000FFF#32) ||| ((imm <<< 12) &&& 0xFFFFF000#32)
/-- u_type.rs:10-13. -/
def getImmediate (w : U32) : U32 := (w &&& 0xFFFFF000#32) >>> 12
end UType

/-- The `(funct3, opcode)` pairs treated as shift-immediates, mod.rs:877 and 895. -/
def isShiftImm (funct3 opcode : U32) : Bool :=
  (funct3 = 0b001#32 ∧ opcode = 0b0010011#32) ∨ (funct3 = 0b101#32 ∧ opcode = 0b0010011#32)

/-- `set_imm`, mod.rs:872-888. -/
def setImm (dbg : Bool) (w imm : U32) : Option U32 :=
  (getType w).bind fun t =>
    match t with
    | .R => none
    | .I => (getFunct3 dbg w).bind fun f3 =>
        if isShiftImm f3 (getOpcode w) then setShamt dbg w imm else some (IType.setImmediate w imm)
    | .S => some (SType.setImmediate w imm)
    | .B => some (BType.setImmediate w imm)
    | .U => some (UType.setImmediate w imm)
    | .J => some (JType.setImmediate w imm)
    | .NONE => none

/-- `get_imm`, mod.rs:890-904. -/
def getImm (dbg : Bool) (w : U32) : Option U32 :=
  (getType w).bind fun t =>
    match t with
    | .R => some 0#32
    | .I => (getFunct3 dbg w).bind fun f3 =>
        if isShiftImm f3 (getOpcode w) then getShamt dbg w else some (IType.getImmediate w)
    | .S => some (SType.getImmediate w)
    | .B => some (BType.getImmediate w)
    | .U => some (UType.getImmediate w)
    | .J => some (JType.getImmediate w)
    | .NONE => some 0#32

/-- `get_registers`, mod.rs:906-915; the result is `(rs2, rs1, rd)`. -/
def getRegisters (dbg : Bool) (w : U32) : Option (U32 × U32 × U32) :=
  (getType w).bind fun t =>
    match t with
    | .R => (getRs2 dbg w).bind fun a => (getRs1 dbg w).bind fun b => (getRd dbg w).map fun c =>
        (a, b, c)
    | .I => (getRs1 dbg w).bind fun b => (getRd dbg w).map fun c => (0#32, b, c)
    | .S => (getRs2 dbg w).bind fun a => (getRs1 dbg w).map fun b => (a, b, 0#32)
    | .B => (getRs2 dbg w).bind fun a => (getRs1 dbg w).map fun b => (a, b, 0#32)
    | .U => (getRd dbg w).map fun c => (0#32, 0#32, c)
    | .J => (getRd dbg w).map fun c => (0#32, 0#32, c)
    | .NONE => some (0#32, 0#32, 0#32)

/-- R-type arm of `get_opid`, mod.rs:921-946. -/
def opidR (f7 f3 : U32) : Option RdUpdate :=
  if f7 = 0b0000000#32 ∧ f3 = 0b000#32 then some .ADD
  else if f7 = 0b0100000#32 ∧ f3 = 0b000#32 then some .SUB
  else if f7 = 0b0000000#32 ∧ f3 = 0b001#32 then some .SLL
  else if f7 = 0b0000000#32 ∧ f3 = 0b010#32 then some .SLT
  else if f7 = 0b0000000#32 ∧ f3 = 0b011#32 then some .SLTU
  else if f7 = 0b0000000#32 ∧ f3 = 0b100#32 then some .XOR
  else if f7 = 0b0000000#32 ∧ f3 = 0b101#32 then some .SRL
  else if f7 = 0b0100000#32 ∧ f3 = 0b101#32 then some .SRA
  else if f7 = 0b0000000#32 ∧ f3 = 0b110#32 then some .OR
  else if f7 = 0b0000000#32 ∧ f3 = 0b111#32 then some .AND
  else if f7 = 0b0000001#32 ∧ f3 = 0b000#32 then some .MUL
  else if f7 = 0b0000001#32 ∧ f3 = 0b001#32 then some .MULH
  else if f7 = 0b0000001#32 ∧ f3 = 0b010#32 then some .MULHSU
  else if f7 = 0b0000001#32 ∧ f3 = 0b011#32 then some .MULHU
  else if f7 = 0b0000001#32 ∧ f3 = 0b100#32 then some .DIV
  else if f7 = 0b0000001#32 ∧ f3 = 0b101#32 then some .DIVU
  else if f7 = 0b0000001#32 ∧ f3 = 0b110#32 then some .REM
  else if f7 = 0b0000001#32 ∧ f3 = 0b111#32 then some .REMU
  else none

/-- I-type ALU arm of `get_opid`, mod.rs:950-964. -/
def opidOpImm (dbg : Bool) (w f3 : U32) : Option RdUpdate :=
  if f3 = 0b000#32 then some .ADDI
  else if f3 = 0b010#32 then some .SLTI
  else if f3 = 0b011#32 then some .SLTIU
  else if f3 = 0b100#32 then some .XORI
  else if f3 = 0b110#32 then some .ORI
  else if f3 = 0b111#32 then some .ANDI
  else if f3 = 0b001#32 then some .SLLI
  else if f3 = 0b101#32 then
    (getFunct7 dbg w).bind fun f7 =>
      if f7 = 0b0000000#32 then some .SRLI
      else if f7 = 0b0100000#32 then some .SRAI
      else none
  else none

/-- Load arm of `get_opid`, mod.rs:965-972. -/
def opidLoad (f3 : U32) : Option RdUpdate :=
  if f3 = 0b000#32 then some .LB
  else if f3 = 0b001#32 then some .LH
  else if f3 = 0b010#32 then some .LW
  else if f3 = 0b100#32 then some .LBU
  else if f3 = 0b101#32 then some .LHU
  else none

/-- Store arm of `get_opid`, mod.rs:977-982. -/
def opidStore (f3 : U32) : Option RamUpdate :=
  if f3 = 0b000#32 then some .SB
  else if f3 = 0b001#32 then some .SH
  else if f3 = 0b010#32 then some .SW
  else none

/-- Branch arm of `get_opid`, mod.rs:983-991. -/
def opidBranch (f3 : U32) : Option PcUpdate :=
  if f3 = 0b000#32 then some .BEQ
  else if f3 = 0b001#32 then some .BNE
  else if f3 = 0b100#32 then some .BLT
  else if f3 = 0b101#32 then some .BGE
  else if f3 = 0b110#32 then some .BLTU
  else if f3 = 0b111#32 then some .BGEU
  else none

/-- `get_opid`, mod.rs:917-1000. -/
def getOpid (dbg : Bool) (w : U32) : Option (RdUpdate × RamUpdate × PcUpdate) :=
  (getType w).bind fun t =>
    match t with
    | .R => (getFunct7 dbg w).bind fun f7 => (getFunct3 dbg w).bind fun f3 =>
        (opidR f7 f3).map fun r => (r, .NONE, .NONE)
    | .I => (getFunct3 dbg w).bind fun f3 =>
        let op := getOpcode w
        if op = 0b0010011#32 then (opidOpImm dbg w f3).map fun r => (r, .NONE, .NONE)
        else if op = 0b0000011#32 then (opidLoad f3).map fun r => (r, .NONE, .NONE)
        else if op = 0b1100111#32 then some (.JALR, .NONE, .JALR)
        else none
    | .S => (getFunct3 dbg w).bind fun f3 => (opidStore f3).map fun m => (.NONE, m, .NONE)
    | .B => (getFunct3 dbg w).bind fun f3 => (opidBranch f3).map fun p => (.NONE, .NONE, p)
    | .U =>
        let op := getOpcode w
        if op = 0b0110111#32 then some (.LUI, .NONE, .NONE)
        else if op = 0b0010111#32 then some (.AUIPC, .NONE, .NONE)
        else none
    | .J => some (.JAL, .NONE, .JAL)
    | .NONE => some (.NONE, .NONE, .NONE)

/-! ### The parser -/

/-- `InstructionsParser`, mod.rs:494-498. -/
structure Parser where
  imm : List I64
  instructions : List I64
  raw : List U32

/-- `InstructionsParser::new`, mod.rs:501-507. -/
def Parser.new : Parser := ⟨[], [], []⟩

/-- The packed word of mod.rs:514-519. -/
def packInstr (rs2 rs1 rd rdw memw pcw : U32) : I64 :=
  (rs2.setWidth 64 <<< 26) ||| (rs1.setWidth 64 <<< 21) ||| (rd.setWidth 64 <<< 16)
    ||| (rdw.setWidth 64 <<< 10) ||| (memw.setWidth 64 <<< 5) ||| pcw.setWidth 64

/-- `InstructionsParser::add`, mod.rs:509-522. -/
def Parser.add (dbg : Bool) (p : Parser) (w : U32) : Option Parser :=
  (getRegisters dbg w).bind fun (rs2, rs1, rd) =>
  (getOpid dbg w).bind fun (rdw, memw, pcw) =>
  (getImm dbg w).map fun imm =>
    { imm := p.imm ++ [imm.setWidth 64]
      instructions := p.instructions ++ [packInstr rs2 rs1 rd rdw.id memw.id pcw.id]
      raw := p.raw ++ [w] }

/-- Repeated `add`. -/
def Parser.addAll (dbg : Bool) (p : Parser) : List U32 → Option Parser
  | [] => some p
  | w :: ws => (p.add dbg w).bind fun q => q.addAll dbg ws

/-- `InstructionsParser::get_raw`, mod.rs:529-531 (index panic = `none`). -/
def Parser.getRaw (p : Parser) (i : Nat) : Option U32 := p.raw[i]?

/-- One entry as returned by `get`: `(imm, rs2, rs1, rd, rd_w, mem_w, pc_w)`. -/
structure Entry where
  imm : I64
  rs2 : I64
  rs1 : I64
  rd : I64
  rdw : I64
  memw : I64
  pcw : I64
  deriving DecidableEq, Repr

/-- `InstructionsParser::get`, mod.rs:533-545.  `>>` on `i64` is arithmetic. -/
def Parser.get (p : Parser) (i : Nat) : Option Entry :=
  match p.imm[i]?, p.instructions[i]? with
  | some imm, some data => some
      { imm := imm
        rs2 := (data.sshiftRight 26) &&& 0x1F#64
        rs1 := (data.sshiftRight 21) &&& 0x1F#64
        rd := (data.sshiftRight 16) &&& 0x1F#64
        rdw := (data.sshiftRight 10) &&& 0x3F#64
        memw := (data.sshiftRight 5) &&& 0x1F#64
        pcw := data &&& 0x1F#64 }
  | _, _ => none

end Verif.Model
