import Verif.Model.Interp
import Verif.Model.Library
/-
  The unit tests of the crate, fhevm/src/tests/{memory,ram_offset,pc_update,interpreters}.rs, and the
  helper `PCU`, fhevm/src/pc_update.rs:102-205.

  A test is a computation with result `some ()` if it returns and `none` if it panics (a failed
  assertion, an index out of range, an overflow).  Left out: key generation, scratch space, printing
  and the assertions on the noise (`noise < -16.0`, tests/memory.rs).  Random words are parameters.
-/
namespace Verif.Model

/-- `assert_eq!`. -/
def assertEq (a b : BitVec 32) : Option Unit := if a = b then some () else none

/-- The encryptions a test makes under its secret key: `prep k` is the `k`-th
`FheUintPrepared::encrypt_sk`, `rand k` the randomness of the `k`-th `FheUint::encrypt_sk`. -/
structure TestKey (F : Fhe) where
  prep : Nat → BitVec 32 → F.B.Prep
  prep_sim : ∀ k w, F.Prepares (prep k w) w
  rand : Nat → F.RandU

variable {F : Fhe}

/-- `test_fhe_ram`, tests/memory.rs:25-243, for given contents, index and word to write.
In the test `size = 1024`, `data[i] = i`, `idx = 512`. -/
def testFheRam (E : TestKey F) (rand : Nat → Nat → F.C.Rand) (size : Nat) (data : List (BitVec 32))
    (idx value : BitVec 32) : Option Unit :=
  (Memory.alloc F.B 32 size).bind fun ram =>
  (ram.encrypt F.C rand data).bind fun ram =>
  let addr := E.prep 0 idx
  (ram.readStateless 1 addr 0).bind fun res =>
  (data[idx.toNat]?).bind fun d =>
  (assertEq d (F.decU res)).bind fun _ =>
  (ram.readStatefull 1 addr 0).bind fun x =>
  (assertEq d (F.decU x.2)).bind fun _ =>
  let ctWrite := F.encU (E.rand 0) value
  ((data.set idx.toNat value)[idx.toNat]?).bind fun d =>
  (x.1.readStatefullRev 1 ctWrite addr 0).bind fun ram =>
  (ram.readStateless 1 addr 0).bind fun res =>
  (assertEq d (F.decU res)).bind fun _ =>
  (ram.decrypt F.C (List.replicate size 0#32)).bind fun dec =>
  (dec[idx.toNat]?).bind fun y => assertEq y (F.decU res)

/-- `test_ram_offset`, tests/ram_offset.rs:35-138, for given words; in the test `0x40fe0` and `0x1c`. -/
def testRamOffset (E : TestKey F) (rs1 imm : BitVec 32) : Option Unit :=
  (ramOffset F.B (E.prep 0 rs1) (E.prep 1 imm)).bind fun ram =>
    assertEq (rs1 + imm - (1#32 <<< 18)) (F.decU ram)

/-! ### The program counter -/

/-- `PCU`, pc_update.rs:102-112. -/
structure Pcu where
  op : PcUpdate
  rs1 : BitVec 32
  rs2 : BitVec 32
  pc : BitVec 32
  imm : BitVec 32
  deriving DecidableEq, Repr

/-- `set_rs2_equal_rs1`, pc_update.rs:161-164. -/
def Pcu.equal (p : Pcu) : Option Pcu := some { p with rs2 := p.rs1 }

/-- `self.rs1 += 1` of pc_update.rs:167-169, 184-186: panics on overflow if overflow is checked. -/
def Pcu.bump (chk : Bool) (p : Pcu) : Option Pcu :=
  if p.rs1 = p.rs2 then
    if chk && p.rs1 == 0xFFFFFFFF#32 then none else some { p with rs1 := p.rs1 + 1#32 }
  else some p

/-- `set_rs1_lt_rs2`, pc_update.rs:166-174. -/
def Pcu.lt (chk : Bool) (p : Pcu) : Option Pcu :=
  (p.bump chk).map fun p =>
    { p with rs2 := if p.rs1.ule p.rs2 then p.rs2 else p.rs1
             rs1 := if p.rs2.ule p.rs1 then p.rs2 else p.rs1 }

/-- `set_rs1_gte_rs2`, pc_update.rs:176-181. -/
def Pcu.gte (p : Pcu) : Option Pcu :=
  some { p with rs2 := if p.rs1.ule p.rs2 then p.rs1 else p.rs2
                rs1 := if p.rs2.ule p.rs1 then p.rs1 else p.rs2 }

/-- `set_rs1_lt_rs2_signed`, pc_update.rs:183-191. -/
def Pcu.ltSigned (chk : Bool) (p : Pcu) : Option Pcu :=
  (p.bump chk).map fun p =>
    { p with rs2 := if p.rs1.sle p.rs2 then p.rs2 else p.rs1
             rs1 := if p.rs2.sle p.rs1 then p.rs2 else p.rs1 }

/-- `set_rs1_gte_rs2_signed`, pc_update.rs:193-198. -/
def Pcu.gteSigned (p : Pcu) : Option Pcu :=
  some { p with rs2 := if p.rs1.sle p.rs2 then p.rs1 else p.rs2
                rs1 := if p.rs2.sle p.rs1 then p.rs1 else p.rs2 }

/-- `expected_update`, pc_update.rs:200-204. -/
def Pcu.expected (p : Pcu) : Option (BitVec 32) :=
  (sext p.imm 19).map fun imm => p.op.evalPlain imm p.rs1 p.rs2 p.pc

/-- `PCU::OP.u_pc(..).u_imm(..).u_rs1(..).u_rs2(..)`, pc_update.rs:128-159: four words drawn in this
order, the immediate cut to 20 bits (pc_update.rs:156). -/
def Pcu.drawn (draw : Nat → BitVec 32) (k : Nat) (op : PcUpdate) : Pcu :=
  { op := op, pc := draw (4 * k), imm := draw (4 * k + 1) &&& ((1#32 <<< 20) - 1#32)
    rs1 := draw (4 * k + 2), rs2 := draw (4 * k + 3) }

/-- The fifteen cases, tests/pc_update.rs:105-193. -/
def pcuCases (chk : Bool) (draw : Nat → BitVec 32) : List (Option Pcu) :=
  [ (Pcu.drawn draw 0 .BEQ).equal
  , (Pcu.drawn draw 1 .BEQ).lt chk
  , (Pcu.drawn draw 2 .BNE).lt chk
  , (Pcu.drawn draw 3 .BNE).equal
  , (Pcu.drawn draw 4 .BLTU).lt chk
  , (Pcu.drawn draw 5 .BLTU).gte
  , (Pcu.drawn draw 6 .BGEU).gte
  , (Pcu.drawn draw 7 .BGEU).lt chk
  , (Pcu.drawn draw 8 .BLT).ltSigned chk
  , (Pcu.drawn draw 9 .BLT).gteSigned
  , (Pcu.drawn draw 10 .BGE).gteSigned
  , (Pcu.drawn draw 11 .BGE).ltSigned chk
  , some (Pcu.drawn draw 12 .JAL)
  , some (Pcu.drawn draw 13 .JALR)
  , some (Pcu.drawn draw 14 .NONE) ]

/-- The body of the loop, tests/pc_update.rs:195-260. -/
def pcuCheck (E : TestKey F) (k : Nat) (p : Pcu) : Option Unit :=
  (updatePc F.B (E.prep (5 * k) p.rs1) (E.prep (5 * k + 1) p.rs2) (E.prep (5 * k + 3) p.pc)
    (E.prep (5 * k + 2) p.imm) (E.prep (5 * k + 4) p.op.id)).bind fun pc =>
  p.expected.bind fun want => assertEq want (F.decU pc)

/-- A list of checks, in order. -/
def checkAll : List (Option Unit) → Option Unit
  | [] => some ()
  | c :: cs => c.bind fun _ => checkAll cs

/-- `test_pc_update`, tests/pc_update.rs:35-261; the words come from `source_xa`. -/
def testPcUpdate (E : TestKey F) (chk : Bool) (draw : Nat → BitVec 32) : Option Unit :=
  (collect (pcuCases chk draw)).bind fun ps => checkAll (ps.mapIdx (pcuCheck E))

/-! ### The interpreter -/

/-- The start of the tests of tests/interpreters.rs: `Interpreter::new`, `instructions.add` for every
word, `instructions_encrypt_sk`.  Neither the RAM nor the registers are encrypted. -/
def testStart (rand : Nat → Nat → Nat → F.C.Rand) (dbg : Bool) (romSize ramSize : Nat)
    (ws : List U32) : Option (Parser × Interp F.B) :=
  (Interp.new F.B romSize ramSize).bind fun vm =>
  (Parser.new.addAll dbg ws).bind fun p =>
  (vm.encryptInstructions F.C rand dbg p).map fun vm => (p, vm)

/-- Comparison of the decrypted components with those of instruction `idx`,
tests/interpreters.rs:102-112, 139-184 and 428-437, 457-505. -/
def checkFetch (dbg : Bool) (p : Parser) (vm : Interp F.B) (idx : Nat) (pcP : F.B.Prep) :
    Option Unit :=
  (p.getRaw idx).bind fun w =>
  (getImm dbg w).bind fun imm =>
  (getRegisters dbg w).bind fun r =>
  (getOpid dbg w).bind fun o =>
  (vm.fetch pcP).bind fun f =>
  checkAll
    [ assertEq imm (F.decU f.imm)
    , assertEq r.2.1 (F.decU f.rs1)
    , assertEq r.1 (F.decU f.rs2)
    , assertEq r.2.2 (F.decU f.rd)
    , assertEq o.1.id (F.decU f.rdu)
    , assertEq o.2.1.id (F.decU f.mu)
    , assertEq o.2.2.id (F.decU f.pcu) ]

/-- `test_interpreter_init_one_instruction`, tests/interpreters.rs:36-185.  The index is encrypted into
`pc_fhe_uint` (lines 114-121), but `read_and_prepare_instruction_components` uses
`pc_fhe_uint_prepared`, left as allocated. -/
def testOneInstruction (E : TestKey F) (rand : Nat → Nat → Nat → F.C.Rand) (dbg : Bool)
    (romSize ramSize : Nat) (ws : List U32) (idx : Nat) : Option Unit :=
  (testStart rand dbg romSize ramSize ws).bind fun x =>
  let vm := { x.2 with pc := F.encU (E.rand 0) (BitVec.ofNat 32 idx) }
  checkFetch dbg x.1 vm idx vm.pcP

/-- `test_interpreter_init_many_instructions`, tests/interpreters.rs:347-507: every index in turn,
`idx << 2` encrypted into `pc_fhe_uint_prepared`. -/
def testManyInstructions (E : TestKey F) (rand : Nat → Nat → Nat → F.C.Rand) (dbg : Bool)
    (romSize ramSize : Nat) (ws : List U32) : Option Unit :=
  (testStart rand dbg romSize ramSize ws).bind fun x =>
  checkAll ((List.range ws.length).map fun idx =>
    let vm := { x.2 with pcP := E.prep idx (BitVec.ofNat 32 (idx <<< 2)) }
    checkFetch dbg x.1 vm idx vm.pcP)

/-- The words of tests/interpreters.rs:396-399. -/
def manyWords : List U32 :=
  [258455#32, 33653139#32, 512279#32, 4286644499#32, 66579#32, 10507363#32, 3221229683#32, 8388847#32,
   3221229683#32, 791#32, 8585319#32, 259383#32]

/-- One operation of the loop in tests/interpreters.rs:311-339. -/
def opCheck (E : TestKey F) (imm rs1 rs2 pc ram : BitVec 32) (op : RdUpdate) : Option Unit :=
  (RdUpdate.evalEnc F.B op (E.prep 0 rs1) (E.prep 1 rs2) (E.prep 2 imm) (E.prep 3 pc)
    (F.encU (E.rand 0) ram)).bind fun res =>
  (op.evalPlain imm rs1 rs2 pc ram).bind fun want => assertEq (F.decU res) want

/-- `test_interpreter_init_one_op`, tests/interpreters.rs:192-340.  The fetch of lines 258-265, from an
interpreter without a program, has no effect on the rest; it must only not panic.  The result
`res` is reused for all operations; `NONE`, which leaves it as it is, comes first. -/
def testOneOp (E : TestKey F) (romSize ramSize : Nat) (imm rs1 rs2 pc ram : BitVec 32) : Option Unit :=
  (Interp.new F.B romSize ramSize).bind fun vm =>
  (vm.fetch vm.pcP).bind fun _ =>
  checkAll (rdUpdateRv32iOpList.map (opCheck E imm rs1 rs2 pc ram))

/-- `test_interpreter_cycle_single_instruction_noop`, tests/interpreters.rs:514-620, for any program,
number of threads and expected program counter; in the test two words `0x73`, 16 threads and 4. -/
def testCycle (E : TestKey F) (rand : Nat → Nat → Nat → F.C.Rand) (dbg : Bool)
    (romSize ramSize threads : Nat) (ws : List U32) (want : BitVec 32) : Option Unit :=
  (testStart rand dbg romSize ramSize ws).bind fun x =>
  let vm := { x.2 with pc := F.encU (E.rand 0) 0#32, threads := threads }
  vm.step.bind fun vm => assertEq (F.decU vm.pc) want

end Verif.Model
