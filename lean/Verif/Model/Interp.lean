import Verif.Model.Library
/-
  Model of the encrypted interpreter: fhevm/src/interpreter.rs, prepare.rs, rd_update.rs,
  ram_update.rs, ram_offset.rs, pc_update.rs, generic over the homomorphic library.
  `none` = the Rust panics.  Not modelled here: timing measurements, scratch
  space (Model/Scratch), noise (Model/Noise).
-/
namespace Verif.Model

variable (B : Backend)

/-! ### Preparation of several words at once -/

/-- `bit_counts_running_sums`, prepare.rs:80-85. -/
def runningSums (acc : Nat) : List Nat → List Nat
  | [] => [acc]
  | c :: cs => acc :: runningSums (acc + c) cs

/-- The loop `while bit_counts_running_sums[cnt + 1] <= i { cnt += 1 }`, prepare.rs:102-105. -/
def searchCnt : (sums : List Nat) → (i : Nat) → Nat
  | _ :: s :: rest, i => if s ≤ i then searchCnt (s :: rest) i + 1 else 0
  | _, _ => 0

/-- The prepared bit with index `i` among all the bits, prepare.rs:102-116. -/
def multiBit (bits : List B.Uint) (sums : List Nat) (i : Nat) : Option B.GBit :=
  (bits[searchCnt sums i]?).map fun u => B.bootstrap u (i - sums.getD (searchCnt sums i) 0)

/-- The result words: each takes its bits from the combined list, the remaining bits up to 32 are
zeroed (prepare.rs:66-73, 122-126). -/
def splitWords : List Nat → List B.GBit → List B.Prep
  | [], _ => []
  | c :: cs, l => B.ofBits (l.take c ++ List.replicate (32 - c) B.gzero) :: splitWords cs (l.drop c)

/-- `prepare_multiple_fheuint`, prepare.rs:41-127.  `get_bits(0, count)` needs `count ≤ 32`. -/
def prepareMultiple (threads : Nat) (bits : List B.Uint) (counts : List Nat) : Option (List B.Prep) :=
  if counts.all (fun c => decide (c ≤ 32)) then
    (parallel threads (fun i _ => multiBit B bits (runningSums 0 counts) i)
      (List.replicate counts.sum none)).bind fun l =>
        (collect l).map (splitWords B counts)
  else none

/-! ### Operations -/

/-- All output bits of a family of circuits, packed into a word:
`execute_bdd_circuit_multi_thread` then `pack` (pc_update.rs:58-67, ram_offset.rs:43-53 and the
poulpy macro used in rd_update.rs:20-44). -/
def evalCircuits (cs : List BitCircuit) (bit : Nat → B.GBit) : Option B.Uint :=
  (collect (cs.map fun c => B.bdd c bit)).map B.pack

/-- `FheUintHelper::get_bit`, pc_update.rs:82-99, ram_offset.rs:68-83. -/
def helperGBit : (offsets : List Nat) → (data : List B.Prep) → Nat → B.GBit
  | o :: os, d :: ds, bit =>
    match os with
    | o' :: _ => if o' ≤ bit then helperGBit os ds bit else B.gbit d (bit - o)
    | [] => B.gbit d (bit - o)
  | _, _, _ => B.gzero

/-- Input convention of the two-word circuits, see `twoWords`. -/
def twoPreps (a b : B.Prep) (bit : Nat) : B.GBit :=
  if bit < 32 then B.gbit a bit else B.gbit b (bit - 32)

/-- `ram_offset`, ram_offset.rs:17-54. -/
def ramOffset (rs1 imm : B.Prep) : Option B.Uint :=
  evalCircuits B Circuits.RamOffset.circuits (helperGBit B [0, 32] [rs1, imm])

/-- `update_pc`, pc_update.rs:20-68. -/
def updatePc (rs1 rs2 pc imm opid : B.Prep) : Option B.Uint :=
  evalCircuits B Circuits.PcUpdate.circuits
    (helperGBit B [0, 4, 36, 68, 100] [opid, rs1, rs2, pc, imm])

/-- `RD_UPDATE::eval_enc`, rd_update.rs:79-165; the destination starts as an encryption of 0
(interpreter.rs:1141-1142). -/
def RdUpdate.evalEnc (o : RdUpdate) (rs1 rs2 imm pc : B.Prep) (ram : B.Uint) : Option B.Uint :=
  match o with
  | .NONE => some B.uzero
  | .AUIPC => evalCircuits B Circuits.Auipc.circuits (twoPreps B pc imm)
  | .JAL => evalCircuits B Circuits.Jalr.circuits (twoPreps B pc pc)
  | .JALR => evalCircuits B Circuits.Jalr.circuits (twoPreps B pc pc)
  | .LUI => evalCircuits B Circuits.Lui.circuits (twoPreps B imm imm)
  | .ADD => some (B.bin .add rs1 rs2)
  | .SUB => some (B.bin .sub rs1 rs2)
  | .SLL => some (B.bin .sll rs1 rs2)
  | .SLT => some (B.bin .slt rs1 rs2)
  | .SLTU => some (B.bin .sltu rs1 rs2)
  | .XOR => some (B.bin .xor rs1 rs2)
  | .SRL => some (B.bin .srl rs1 rs2)
  | .SRA => some (B.bin .sra rs1 rs2)
  | .OR => some (B.bin .or rs1 rs2)
  | .ADDI => some (B.bin .add rs1 imm)
  | .AND => some (B.bin .and rs1 rs2)
  | .SLTIU => some (B.bin .sltu rs1 imm)
  | .XORI => some (B.bin .xor rs1 imm)
  | .ORI => some (B.bin .or rs1 imm)
  | .ANDI => some (B.bin .and rs1 imm)
  | .SLLI => some (B.bin .sll rs1 imm)
  | .SRLI => some (B.bin .srl rs1 imm)
  | .SRAI => some (B.bin .sra rs1 imm)
  | .SLTI => some (B.bin .slt rs1 imm)
  | .LB => some (B.zeroByte (B.zeroByte (B.zeroByte ram 1) 2) 3)
  | .LBU => some (B.zeroByte (B.zeroByte (B.zeroByte ram 1) 2) 3)
  | .LH => some (B.sextByte (B.zeroByte (B.zeroByte ram 2) 3) 1)
  | .LHU => some (B.zeroByte (B.zeroByte ram 2) 3)
  | .LW => some ram
  | .MUL | .MULH | .MULHSU | .MULHU | .DIV | .DIVU | .REM | .REMU => none

/-- `RAM_UPDATE::eval_enc`, ram_update.rs:48-113. -/
def RamUpdate.evalEnc (o : RamUpdate) (rs2 loaded : B.Uint) (offset : B.Prep) : B.Uint :=
  match o with
  | .NONE => loaded
  | .SW => rs2
  | .SB => B.select ((List.range 4).map fun i => (i, B.spliceU8 i 0 loaded rs2)) offset 0 2
  | .SH => B.select ((List.range 2).map fun i => (i <<< 1, B.spliceU16 i 0 loaded rs2)) offset 0 2

/-! ### State -/

/-- The fields of `Interpreter`, interpreter.rs:41-108, that persist between cycles.  The other
fields (`imm_val_fhe_uint` etc.) are overwritten in every cycle before they are read; they are the
components of `Trace`.  `instruction_set` is always RV32I (set in `new_internal`, never changed). -/
structure Interp where
  cycle : BitVec 32
  threads : Nat
  romSize : Nat
  ramSize : Nat
  romBits : Nat
  ramBits : Nat
  immRom : Memory B
  rs1Rom : Memory B
  rs2Rom : Memory B
  rdRom : Memory B
  rduRom : Memory B
  muRom : Memory B
  pcuRom : Memory B
  registers : Memory B
  ram : Memory B
  pc : B.Uint
  pcP : B.Prep

/-- `Interpreter::new_internal`, interpreter.rs:129-249. -/
def Interp.new (romSize ramSize : Nat) : Option (Interp B) :=
  (Memory.alloc B 32 romSize).bind fun rom =>
  (Memory.alloc B 32 32).bind fun regs =>
  (Memory.alloc B 32 ramSize).map fun ram =>
    { cycle := 0#32, threads := 1, romSize := romSize, ramSize := ramSize
      romBits := bitsFor romSize, ramBits := bitsFor ramSize
      immRom := rom, rs1Rom := rom, rs2Rom := rom, rdRom := rom, rduRom := rom, muRom := rom
      pcuRom := rom, registers := regs, ram := ram, pc := B.uzero, pcP := B.pzero }

/-- The components of one instruction as stored in the program memories. -/
structure Decoded where
  imm : BitVec 32
  rs1 : BitVec 32
  rs2 : BitVec 32
  rd : BitVec 32
  rdu : BitVec 32
  mu : BitVec 32
  pcu : BitVec 32
  deriving DecidableEq, Repr

/-- The contents of unused program memory. -/
def Decoded.zero : Decoded := ⟨0#32, 0#32, 0#32, 0#32, 0#32, 0#32, 0#32⟩

/-- One iteration of the loops of interpreter.rs:290-300 and debug.rs:65-75. -/
def decodeWord (dbg : Bool) (w : U32) : Option Decoded :=
  (getImm dbg w).bind fun imm =>
  (getRegisters dbg w).bind fun r =>
  (getOpid dbg w).map fun o =>
    { imm := imm, rs1 := r.2.1, rs2 := r.1, rd := r.2.2
      rdu := o.1.id, mu := o.2.1.id, pcu := o.2.2.id }

/-- The raw words of a parser decoded in order, `get_raw(i)` for `i < instructions.len()`. -/
def decodeProgram (dbg : Bool) (p : Parser) : Option (List Decoded) :=
  collect ((List.range p.instructions.length).map fun i => (p.getRaw i).bind (decodeWord dbg))

variable {B}

/-- `instructions_encrypt_sk`, interpreter.rs:263-359 (without the debug mirror): each column, padded
with zeros to the size of the program memory, is encrypted.  Indexing panics if the program is
longer than the memory.  `rand c` is the randomness used for column `c`. -/
def Interp.encryptInstructions (C : Cipher B) (rand : Nat → Nat → Nat → C.Rand) (dbg : Bool)
    (vm : Interp B) (p : Parser) : Option (Interp B) :=
  if vm.romSize < p.instructions.length then none
  else
    (decodeProgram dbg p).bind fun ds =>
    let column := fun (f : Decoded → BitVec 32) =>
      (List.range vm.romSize).map fun i => (ds[i]?).elim 0#32 f
    (vm.rs1Rom.encrypt C (rand 0) (column Decoded.rs1)).bind fun rs1 =>
    (vm.rs2Rom.encrypt C (rand 1) (column Decoded.rs2)).bind fun rs2 =>
    (vm.rdRom.encrypt C (rand 2) (column Decoded.rd)).bind fun rd =>
    (vm.immRom.encrypt C (rand 3) (column Decoded.imm)).bind fun imm =>
    (vm.rduRom.encrypt C (rand 4) (column Decoded.rdu)).bind fun rdu =>
    (vm.muRom.encrypt C (rand 5) (column Decoded.mu)).bind fun mu =>
    (vm.pcuRom.encrypt C (rand 6) (column Decoded.pcu)).map fun pcu =>
      { vm with immRom := imm, rs1Rom := rs1, rs2Rom := rs2, rdRom := rd, rduRom := rdu
                muRom := mu, pcuRom := pcu }

/-- `init_registers`, interpreter.rs:361-376. -/
def Interp.initRegisters (C : Cipher B) (rand : Nat → Nat → C.Rand) (vm : Interp B)
    (data : List (BitVec 32)) : Option (Interp B) :=
  (vm.registers.encrypt C rand data).map fun m => { vm with registers := m }

/-- `ram_encrypt_sk`, interpreter.rs:378-399 (without the debug mirror). -/
def Interp.encryptRam (C : Cipher B) (rand : Nat → Nat → C.Rand) (vm : Interp B)
    (data : List (BitVec 32)) : Option (Interp B) :=
  if data.length ≤ vm.ram.size then
    (vm.ram.encrypt C rand data).map fun m => { vm with ram := m }
  else none

/-- The steps of `Phantom::encrypted_vm` that build the interpreter, compiler/src/interpreter.rs:363-395:
allocation, encryption of the program, encryption of the RAM, number of threads.  The registers are
left as allocated. -/
def Interp.load (C : Cipher B) (rand : Nat → Nat → Nat → C.Rand) (dbg : Bool)
    (romSize ramSize threads : Nat) (p : Parser) (data : List (BitVec 32)) : Option (Interp B) :=
  (Interp.new B romSize ramSize).bind fun vm =>
  (vm.encryptInstructions C rand dbg p).bind fun vm =>
  (vm.encryptRam C (rand 7) data).map fun vm => { vm with threads := threads }

/-- `ram_decrypt`, interpreter.rs:401-416. -/
def Interp.decryptRam (C : Cipher B) (vm : Interp B) (out : List (BitVec 32)) :
    Option (List (BitVec 32)) :=
  if out.length = vm.ram.size then vm.ram.decrypt C out else none

/-! ### One cycle -/

variable (B) in
/-- Instruction components and their prepared forms. -/
structure Fetch where
  pcP : B.Prep
  imm : B.Uint
  rdu : B.Uint
  mu : B.Uint
  pcu : B.Uint
  rs1 : B.Uint
  rs2 : B.Uint
  rd : B.Uint
  rduP : B.Prep
  muP : B.Prep
  pcuP : B.Prep
  immP : B.Prep
  rs1P : B.Prep
  rs2P : B.Prep
  rdP : B.Prep

/-- `read_and_prepare_instruction_components`, interpreter.rs:629-775. -/
def Interp.fetch (vm : Interp B) (pcP : B.Prep) : Option (Fetch B) :=
  (vm.immRom.readStateless vm.threads pcP 2).bind fun imm =>
  (vm.rduRom.readStateless vm.threads pcP 2).bind fun rdu =>
  (vm.muRom.readStateless vm.threads pcP 2).bind fun mu =>
  (vm.pcuRom.readStateless vm.threads pcP 2).bind fun pcu =>
  (vm.rs1Rom.readStateless vm.threads pcP 2).bind fun rs1 =>
  (vm.rs2Rom.readStateless vm.threads pcP 2).bind fun rs2 =>
  (vm.rdRom.readStateless vm.threads pcP 2).bind fun rd =>
  (prepareMultiple B vm.threads [rdu, mu, pcu, imm, rs1, rs2, rd]
    [bitsFor rdUpdateRv32iOpList.length, bitsFor ramUpdateOpList.length, 4, 32, 5, 5, 5]).map
    fun ps =>
      { pcP := pcP, imm := imm, rdu := rdu, mu := mu, pcu := pcu, rs1 := rs1, rs2 := rs2, rd := rd
        rduP := ps.getD 0 B.pzero, muP := ps.getD 1 B.pzero, pcuP := ps.getD 2 B.pzero
        immP := ps.getD 3 B.pzero, rs1P := ps.getD 4 B.pzero, rs2P := ps.getD 5 B.pzero
        rdP := ps.getD 6 B.pzero }

variable (B) in
/-- Values of the source registers. -/
structure Sources where
  rs1 : B.Uint
  rs2 : B.Uint
  rs1P : B.Prep
  rs2P : B.Prep

/-- `read_and_prepare_registers`, interpreter.rs:891-958. -/
def Interp.readRegisters (vm : Interp B) (f : Fetch B) : Option (Sources B) :=
  (vm.registers.readStateless vm.threads f.rs1P 0).bind fun rs1 =>
  (vm.registers.readStateless vm.threads f.rs2P 0).bind fun rs2 =>
  (prepareMultiple B vm.threads [rs1, rs2] [32, 32]).map fun ps =>
    { rs1 := rs1, rs2 := rs2, rs1P := ps.getD 0 B.pzero, rs2P := ps.getD 1 B.pzero }

variable (B) in
/-- RAM address and loaded word, RAM after the first phase. -/
structure RamRead where
  addr : B.Uint
  addrP : B.Prep
  val : B.Uint
  ram : Memory B

/-- `read_ram`, interpreter.rs:986-1055; the arguments of `ram_offset` are exchanged. -/
def Interp.readRam (vm : Interp B) (f : Fetch B) (s : Sources B) : Option (RamRead B) :=
  (ramOffset B f.immP s.rs1P).bind fun addr =>
  let addrP := B.prepareCustom addr 0 (vm.ramBits + 2)
  (vm.ram.readStatefull vm.threads addrP 2).map fun x =>
    { addr := addr, addrP := addrP, val := x.2, ram := x.1 }

variable (B) in
/-- The refresh of a word: prepared on all its bits, then `identity` (interpreter.rs:1168-1185,
1315-1332). -/
def refresh (u : B.Uint) : B.Uint := B.identity (B.prepareCustom u 0 32)

variable (B) in
/-- The map filled in interpreter.rs:1140-1147. -/
def rdMap (ops : List RdUpdate) (rs1 rs2 imm pc : B.Prep) (ram : B.Uint) :
    Option (List (Nat × B.Uint)) :=
  collect (ops.map fun op =>
    (RdUpdate.evalEnc B op rs1 rs2 imm pc ram).map fun u => (op.id.toNat, u))

/-- `update_registers`, interpreter.rs:1092-1200: the value written and the registers afterwards. -/
def Interp.updateRegisters (vm : Interp B) (ops : List RdUpdate) (f : Fetch B) (s : Sources B)
    (ramVal : B.Uint) : Option (B.Uint × Memory B) :=
  (rdMap B ops s.rs1P s.rs2P f.immP f.pcP ramVal).bind fun m =>
  let rd := refresh B (B.select m f.rduP 0 (bitsFor ops.length))
  (vm.registers.write vm.threads rd f.rdP 0).bind fun regs =>
  (regs.zero vm.threads 0).map fun regs => (rd, regs)

/-- `update_ram`, interpreter.rs:1243-1345: the value stored and the RAM afterwards. -/
def Interp.updateRam (vm : Interp B) (f : Fetch B) (s : Sources B) (q : RamRead B) :
    Option (B.Uint × Memory B) :=
  let m := ramUpdateOpList.map fun op =>
    (op.id.toNat, RamUpdate.evalEnc B op s.rs2 q.val q.addrP)
  let val := refresh B (B.select m f.muP 0 (bitsFor ramUpdateOpList.length))
  (q.ram.readStatefullRev vm.threads val q.addrP 2).map fun ram => (val, ram)

variable (B) in
/-- Everything computed in one cycle. -/
structure Trace where
  f : Fetch B
  s : Sources B
  q : RamRead B
  rdVal : B.Uint
  registers : Memory B
  ramVal : B.Uint
  ram : Memory B
  pc : B.Uint

/-- `cycle_internal`, interpreter.rs:487-627, without the debug mirror. -/
def Interp.trace (vm : Interp B) : Option (Trace B) :=
  let pcP := if vm.cycle ≠ 0#32 then B.prepareCustom vm.pc 0 (vm.romBits + 2) else vm.pcP
  (vm.fetch pcP).bind fun f =>
  (vm.readRegisters f).bind fun s =>
  (vm.readRam f s).bind fun q =>
  (vm.updateRegisters rdUpdateRv32iOpList f s q.val).bind fun rd =>
  (vm.updateRam f s q).bind fun st =>
  (updatePc B s.rs1P s.rs2P f.pcP f.immP f.pcuP).map fun pc =>
    { f := f, s := s, q := q, rdVal := rd.1, registers := rd.2, ramVal := st.1, ram := st.2
      pc := pc }

/-- State after the cycle; `self.cycle += 1` wraps (release build). -/
def Interp.next (vm : Interp B) (t : Trace B) : Interp B :=
  { vm with registers := t.registers, ram := t.ram, pc := t.pc, pcP := t.f.pcP
            cycle := vm.cycle + 1#32 }

/-- `Interpreter::cycle`, interpreter.rs:418-450. -/
def Interp.step (vm : Interp B) : Option (Interp B) := vm.trace.map vm.next

/-- `n` cycles. -/
def Interp.run : Nat → Interp B → Option (Interp B)
  | 0, vm => some vm
  | n + 1, vm => vm.step.bind (Interp.run n)

end Verif.Model
