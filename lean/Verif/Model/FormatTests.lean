import Verif.Model.Instr
/-
  Model of the unit tests inside fhevm/src/instructions/{b,i,j,r,s,u}_type.rs, with the two
  assertions of the parser they use.  `none` = the test panics.  The constants that the helpers
  `test_instruction` bind with `let` (immediate, register numbers) are parameters here; the list
  `formatTests` has the values of the source.
-/
namespace Verif.Model

/-- `assert_size`, mod.rs:524-527. -/
def Parser.assertSize (p : Parser) (size : Nat) : Option Unit :=
  if p.imm.length = size ∧ p.instructions.length = size then some () else none

/-- `assert_instruction`, mod.rs:547-598. -/
def Parser.assertInstruction (p : Parser) (i : Nat) (want : Entry) : Option Unit :=
  (p.get i).bind fun have_ =>
  if i < p.imm.length ∧ have_.imm = want.imm ∧ have_.rs2 = want.rs2 ∧ have_.rs1 = want.rs1 ∧
      have_.rd = want.rd ∧ have_.rdw = want.rdw ∧ have_.memw = want.memw ∧ have_.pcw = want.pcw
  then some () else none

/-- The expected entry: every argument cast to `i64` (`u32` values are extended by zeros). -/
def wantEntry (imm rs2 rs1 rd : U32) (op : RdUpdate × RamUpdate × PcUpdate) : Entry :=
  { imm := imm.setWidth 64, rs2 := rs2.setWidth 64, rs1 := rs1.setWidth 64, rd := rd.setWidth 64
    rdw := op.1.id.setWidth 64, memw := op.2.1.id.setWidth 64, pcw := op.2.2.id.setWidth 64 }

/-- The end common to the helpers: a new parser, `add`, `assert_size(1)`, `assert_instruction(0, ..)`
(e.g. b_type.rs:118-130). -/
def checkWord (dbg : Bool) (w : U32) (want : Entry) : Option Unit :=
  (Parser.new.add dbg w).bind fun m =>
  (m.assertSize 1).bind fun _ => m.assertInstruction 0 want

abbrev OpIds := RdUpdate × RamUpdate × PcUpdate

/-- `test_instruction`, b_type.rs:108-131. -/
def testB (dbg : Bool) (imm rs2 rs1 funct3 opcode : U32) (op : OpIds) : Option Unit :=
  (setImm dbg opcode imm).bind fun w => (setFunct3 dbg w funct3).bind fun w =>
  (setRs2 dbg w rs2).bind fun w => (setRs1 dbg w rs1).bind fun w =>
  (sext imm 12).bind fun v => checkWord dbg w (wantEntry v rs2 rs1 0#32 op)

/-- `test_instruction`, i_type.rs:170-196. -/
def testI (dbg : Bool) (imm rs1 rd funct3 opcode : U32) (op : OpIds) : Option Unit :=
  (setImm dbg opcode imm).bind fun w => (setFunct3 dbg w funct3).bind fun w =>
  (setRs1 dbg w rs1).bind fun w => (setRd dbg w rd).bind fun w =>
  (sext imm 11).bind fun v => checkWord dbg w (wantEntry v 0#32 rs1 rd op)

/-- `test_instruction_shamt`, i_type.rs:200-225. -/
def testShamt (dbg : Bool) (imm rs1 rd funct3 : U32) (op : OpIds) : Option Unit :=
  (setImm dbg 0b0010011#32 imm).bind fun w => (setFunct3 dbg w funct3).bind fun w =>
  (setRs1 dbg w rs1).bind fun w => (setRd dbg w rd).bind fun w =>
  checkWord dbg w (wantEntry (imm &&& 0x1F#32) 0#32 rs1 rd op)

/-- `test_instruction`, j_type.rs:58-79. -/
def testJ (dbg : Bool) (imm rd opcode : U32) (op : OpIds) : Option Unit :=
  (setImm dbg opcode imm).bind fun w => (setRd dbg w rd).bind fun w =>
  (sext imm 20).bind fun v => checkWord dbg w (wantEntry v 0#32 0#32 rd op)

/-- `test_instruction`, r_type.rs:191-222. -/
def testR (dbg : Bool) (rs2 rs1 rd funct7 funct3 opcode : U32) (op : OpIds) : Option Unit :=
  (setFunct3 dbg opcode funct3).bind fun w => (setFunct7 dbg w funct7).bind fun w =>
  (setRs2 dbg w rs2).bind fun w => (setRs1 dbg w rs1).bind fun w => (setRd dbg w rd).bind fun w =>
  checkWord dbg w (wantEntry 0#32 rs2 rs1 rd op)

/-- `test_instruction`, s_type.rs:69-93. -/
def testS (dbg : Bool) (imm rs2 rs1 funct3 opcode : U32) (op : OpIds) : Option Unit :=
  (setImm dbg opcode imm).bind fun w => (setFunct3 dbg w funct3).bind fun w =>
  (setRs2 dbg w rs2).bind fun w => (setRs1 dbg w rs1).bind fun w =>
  (sext imm 11).bind fun v => checkWord dbg w (wantEntry v rs2 rs1 0#32 op)

/-- `test_instruction`, u_type.rs:52-73. -/
def testU (dbg : Bool) (imm rd opcode : U32) (op : OpIds) : Option Unit :=
  (setImm dbg opcode imm).bind fun w => (setRd dbg w rd).bind fun w =>
  checkWord dbg w (wantEntry imm 0#32 0#32 rd op)

/-- Operation ids of an instruction that writes only `rd`. -/
def onlyRd (o : RdUpdate) : OpIds := (o, .NONE, .NONE)

/-- The tests that call the helpers, in the order of the files: b_type.rs:51-102, i_type.rs:33-166,
j_type.rs:47-52, r_type.rs:8-186, s_type.rs:39-63, u_type.rs:31-45. -/
def formatTests (dbg : Bool) : List (Option Unit) :=
  let br f3 (p : PcUpdate) := testB dbg (0xABC#32 <<< 1) 0b11011#32 0b10011#32 f3 0b1100011#32 (.NONE, .NONE, p)
  let it f3 opcode op := testI dbg 0xABC#32 0b10011#32 0b01011#32 f3 opcode op
  let sh imm f3 o := testShamt dbg imm 0b10011#32 0b01011#32 f3 (onlyRd o)
  let rt f7 f3 o := testR dbg 0b11011#32 0b10011#32 0b01011#32 f7 f3 0b0110011#32 (onlyRd o)
  let st f3 (m : RamUpdate) := testS dbg 0xABC#32 0b11011#32 0b10011#32 f3 0b0100011#32 (.NONE, m, .NONE)
  let ut opcode o := testU dbg 0xABCDE#32 0b01011#32 opcode (onlyRd o)
  [ br 0b000#32 .BEQ, br 0b101#32 .BGE, br 0b111#32 .BGEU, br 0b100#32 .BLT, br 0b110#32 .BLTU,
    br 0b001#32 .BNE,
    it 0b000#32 0b0010011#32 (onlyRd .ADDI), it 0b010#32 0b0010011#32 (onlyRd .SLTI),
    it 0b011#32 0b0010011#32 (onlyRd .SLTIU), it 0b100#32 0b0010011#32 (onlyRd .XORI),
    it 0b110#32 0b0010011#32 (onlyRd .ORI), it 0b111#32 0b0010011#32 (onlyRd .ANDI),
    sh 0b000000011111#32 0b001#32 .SLLI, sh 0b000000011111#32 0b101#32 .SRLI,
    sh 0b010000011111#32 0b101#32 .SRAI,
    it 0b000#32 0b1100111#32 (.JALR, .NONE, .JALR),
    it 0b000#32 0b0000011#32 (onlyRd .LB), it 0b001#32 0b0000011#32 (onlyRd .LH),
    it 0b010#32 0b0000011#32 (onlyRd .LW), it 0b100#32 0b0000011#32 (onlyRd .LBU),
    it 0b101#32 0b0000011#32 (onlyRd .LHU),
    testJ dbg (0xABCDE#32 <<< 1) 0b01011#32 0b1101111#32 (.JAL, .NONE, .JAL),
    rt 0#32 0#32 .ADD, rt 0#32 0b111#32 .AND, rt 0#32 0b110#32 .OR, rt 0#32 0b001#32 .SLL,
    rt 0#32 0b010#32 .SLT, rt 0#32 0b011#32 .SLTU, rt 0b0100000#32 0b101#32 .SRA,
    rt 0#32 0b101#32 .SRL, rt 0b0100000#32 0#32 .SUB, rt 0#32 0b100#32 .XOR,
    rt 1#32 0b000#32 .MUL, rt 1#32 0b001#32 .MULH, rt 1#32 0b010#32 .MULHSU,
    rt 1#32 0b011#32 .MULHU, rt 1#32 0b100#32 .DIV, rt 1#32 0b101#32 .DIVU,
    rt 1#32 0b110#32 .REM, rt 1#32 0b111#32 .REMU,
    st 0b000#32 .SB, st 0b001#32 .SH, st 0b010#32 .SW,
    ut 0b0110111#32 .LUI, ut 0b0010111#32 .AUIPC ]

/-- One `imm_encoding` test, over the range `lo..hi` of bit positions; `want` is the value compared
with. -/
def immEncoding (set : U32 → U32 → U32) (get : U32 → U32) (want : U32 → Option U32) (lo hi : Nat) :
    Bool :=
  (List.range' lo (hi - lo)).all fun i => want (1#32 <<< i) = some (get (set 0#32 (1#32 <<< i)))

/-- b_type.rs:41-48, i_type.rs:23-30, j_type.rs:37-44, s_type.rs:29-36, u_type.rs:21-28. -/
def immEncodings (getB getI getJ getS getU : U32 → U32) : List Bool :=
  [ immEncoding BType.setImmediate getB (sext · 12) 1 13,
    immEncoding IType.setImmediate getI (sext · 11) 0 12,
    immEncoding JType.setImmediate getJ (sext · 20) 1 21,
    immEncoding SType.setImmediate getS (sext · 11) 0 12,
    immEncoding UType.setImmediate getU some 0 20 ]

end Verif.Model
