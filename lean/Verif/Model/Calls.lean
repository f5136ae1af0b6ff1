import Verif.Model.Interp
/-
  The library calls of a cycle, in the order in which they are made: the functions of fhevm/src/memory.rs,
  prepare.rs, rd_update.rs, ram_update.rs, pc_update.rs, ram_offset.rs and interpreter.rs once more, each with a
  record of the calls it makes.

  A call is recorded with the parameters that are not ciphertexts (numbers of bits, of ciphertexts, offsets).  What
  the threads of a `thread::scope` do is recorded per thread, since their calls interleave in any order.
  Simplifications: copies and allocations are not recorded; `get_bit_lwe`, `execute_to_constant` and `prepare`
  (prepare.rs:106-116) are one call, as in `Backend`; a word circuit followed by `pack` is two.
-/
namespace Verif.Model

/-- A call of the library, with its public parameters. -/
inductive Call where
  | add | sub | trace | normalize
  | rotate (k : Int)
  | blindRotate (sign : Bool) (rsh mask lsh : Nat)
  /-- `n`: number of ciphertexts given -/
  | retrieve (n offset : Nat)
  | retrieval (n offset bits : Nat)
  | retrievalRev (n offset bits : Nat)
  | pack (n : Nat)
  | getBit (i : Nat)
  | zeroBit
  | bootstrap (i : Nat)
  | prepareCustom (start count : Nat)
  | bin (op : BinOp)
  | bdd (circuits : List BitCircuit)
  | identity
  | select (keys : List Nat) (start bits : Nat)
  | zeroByte (i : Nat)
  | sextByte (i : Nat)
  | spliceU8 (dst src : Nat)
  | spliceU16 (dst src : Nat)

/-- What happens in the thread that runs the cycle: a call, or a `thread::scope` with the calls of each thread in it. -/
inductive Event where
  | call (c : Call)
  | threads (ts : List (List Call))

/-- Code that makes calls and cannot panic. -/
structure Calling (α : Type) where
  val : α
  log : List Call

instance : Monad Calling where
  pure a := ⟨a, []⟩
  bind m f := ⟨(f m.val).val, m.log ++ (f m.val).log⟩

/-- One call and its result. -/
def Calling.call {α : Type} (c : Call) (a : α) : Calling α := ⟨a, [c]⟩

/-- Code that makes calls, starts threads and may panic. -/
structure Running (α : Type) where
  result : Option (α × List Event)

instance : Monad Running where
  pure a := ⟨some (a, [])⟩
  bind m f := ⟨m.result.bind fun x => (f x.1).result.map fun y => (y.1, x.2 ++ y.2)⟩

/-- A panic. -/
def Running.panic {α : Type} : Running α := ⟨none⟩

/-- Code that makes no call. -/
def Running.work {α : Type} (o : Option α) : Running α := ⟨o.map fun a => (a, [])⟩

/-- Calls made outside of the threads. -/
def Running.calls {α : Type} (m : Calling α) : Running α := ⟨some (m.val, m.log.map .call)⟩

/-- A call that may panic. -/
def Running.tryCall {α : Type} (c : Call) (o : Option α) : Running α := ⟨o.map fun a => (a, [.call c])⟩

/-! ### Threads -/

/-- The loop of one thread over its chunk: the task of index `i` updates element `i`. -/
def chunkCalls {α : Type} (f : Nat → α → Calling α) : List Nat → List α → Calling (List α)
  | [], xs => pure xs
  | i :: is, xs => do
    let xs ← match xs[i]? with
      | some x => (do let x ← f i x; pure (xs.set i x) : Calling (List α))
      | none => pure xs
    chunkCalls f is xs

/-- The threads, one after the other (they work on disjoint chunks). -/
def threadCalls {α : Type} (f : Nat → α → Calling α) : List (List Nat) → List α → List α × List (List Call)
  | [], xs => (xs, [])
  | c :: cs, xs =>
    let r := chunkCalls f c xs
    let rs := threadCalls f cs r.val
    (rs.1, r.log :: rs.2)

/-- `thread::scope` with `chunks_mut(len.div_ceil(threads))`, see `parallel`. -/
def parallelCalls {α : Type} (threads : Nat) (f : Nat → α → Calling α) (xs : List α) : Running (List α) :=
  if threads = 0 then .panic
  else
    let cs := divCeil xs.length threads
    if cs = 0 then .panic
    else
      let r := threadCalls f ((List.range (min threads (divCeil xs.length cs))).map (threadChunk xs.length cs)) xs
      ⟨some (r.1, [.threads r.2])⟩

variable {B : Backend}

/-! ### memory.rs -/

/-- An operation on `data[0]`. -/
def headCalls (data : List B.Glwe) (f : B.Glwe → Calling B.Glwe) : Calling (List B.Glwe) :=
  match data with
  | [] => pure []
  | d :: ds => do let d ← f d; pure (d :: ds)

namespace BitArray

/-- `BitArray::retrieve_stateless`, memory.rs:552-583. -/
def retrieveStatelessCalls (b : BitArray B) (addr : B.Prep) (offset : Nat) : Calling B.Glwe := do
  let x ← .call (.retrieve b.data.length (offset + B.logN)) (B.retrieve b.data addr (offset + B.logN))
  .call (.blindRotate false offset (min B.logN b.bitSize) 0)
    (B.blindRotate x addr false offset (min B.logN b.bitSize) 0)

/-- The forward phase shared by `retrieve_statefull` and `write`, memory.rs:619-636, 762-779. -/
def forwardCalls (b : BitArray B) (addr : B.Prep) (offset : Nat) : Calling (List B.Glwe) := do
  let data ←
    if b.bitSize > B.logN then
      .call (.retrieval b.data.length (offset + B.logN) (b.bitSize - B.logN))
        (B.retrieval b.data addr (offset + B.logN) (b.bitSize - B.logN))
    else pure b.data
  headCalls data fun d => .call (.blindRotate false offset (min B.logN b.bitSize) 0)
    (B.blindRotate d addr false offset (min B.logN b.bitSize) 0)

/-- The overwriting and backward phase shared by `retrieve_statefull_rev` and `write`, memory.rs:691-717,
781-808. -/
def backwardCalls (b : BitArray B) (w : B.Glwe) (addr : B.Prep) (offset : Nat) : Calling (List B.Glwe) := do
  let data ← headCalls b.data fun d => do
    let t ← .call .trace (B.trace d)
    let d ← .call .sub (B.sub d t)
    let d ← .call .add (B.add d w)
    let d ← .call .normalize (B.normalize d)
    .call (.blindRotate true offset (min B.logN b.bitSize) 0)
      (B.blindRotate d addr true offset (min B.logN b.bitSize) 0)
  if b.bitSize > B.logN then
    .call (.retrievalRev data.length (offset + B.logN) (b.bitSize - B.logN))
      (B.retrievalRev data addr (offset + B.logN) (b.bitSize - B.logN))
  else pure data

/-- `BitArray::write`, memory.rs:740-809. -/
def writeCalls (b : BitArray B) (w : B.Glwe) (addr : B.Prep) (offset : Nat) : Calling (BitArray B) := do
  let data ← b.forwardCalls addr offset
  let data ← ({ b with data := data } : BitArray B).backwardCalls w addr offset
  pure { b with data := data }

/-- Body of the loop of `Memory::zero`, memory.rs:181-187. -/
def zeroAtCalls (b : BitArray B) (poly idx : Nat) : Calling (BitArray B) :=
  match b.data[poly]? with
  | none => pure b
  | some a => do
    let a ← .call (.rotate (-(idx : Int))) (B.rotate (-(idx : Int)) a)
    let t ← .call .trace (B.trace a)
    let a ← .call .sub (B.sub a t)
    let a ← .call (.rotate idx) (B.rotate idx a)
    pure { b with data := b.data.set poly a }

end BitArray

namespace Memory

/-- `Memory::read_stateless`, memory.rs:193-245. -/
def readStatelessCalls (m : Memory B) (threads : Nat) (addr : B.Prep) (offset : Nat) : Running B.Uint :=
  if m.bits.isEmpty then .panic
  else if m.state then .panic
  else do
    let l ← parallelCalls threads (fun _ (p : BitArray B × Option B.Glwe) => do
      let x ← p.1.retrieveStatelessCalls addr offset
      pure (p.1, some x)) m.withTmp
    let rs ← .work (collect (l.map Prod.snd))
    .calls (.call (.pack rs.length) (B.pack rs))

/-- `Memory::read_statefull`, memory.rs:247-306. -/
def readStatefullCalls (m : Memory B) (threads : Nat) (addr : B.Prep) (offset : Nat) :
    Running (Memory B × B.Uint) :=
  if m.bits.isEmpty then .panic
  else if m.state then .panic
  else do
    let l ← parallelCalls threads (fun _ (p : BitArray B × Option B.Glwe) => do
      let data ← p.1.forwardCalls addr offset
      pure ({ p.1 with data := data }, data[0]?)) m.withTmp
    let rs ← .work (collect (l.map Prod.snd))
    let u ← .calls (.call (.pack rs.length) (B.pack rs))
    pure ({ m with bits := l.map Prod.fst, state := true }, u)

/-- `Memory::read_statefull_rev`, memory.rs:308-371. -/
def readStatefullRevCalls (m : Memory B) (threads : Nat) (w : B.Uint) (addr : B.Prep) (offset : Nat) :
    Running (Memory B) :=
  if m.state = false then .panic
  else do
    let bits ← parallelCalls threads (fun i (b : BitArray B) => do
      let x ← .call (.getBit i) (B.getBit w i)
      let data ← b.backwardCalls x addr offset
      pure { b with data := data }) m.bits
    pure { m with bits := bits, state := false }

/-- `Memory::write`, memory.rs:373-433. -/
def writeCalls (m : Memory B) (threads : Nat) (w : B.Uint) (addr : B.Prep) (offset : Nat) : Running (Memory B) :=
  if m.state then .panic
  else do
    let bits ← parallelCalls threads (fun i (b : BitArray B) => do
      let x ← .call (.getBit i) (B.getBit w i)
      b.writeCalls x addr offset) m.bits
    pure { m with bits := bits }

/-- `Memory::zero`, memory.rs:140-191. -/
def zeroCalls (m : Memory B) (threads : Nat) (addr : Nat) : Running (Memory B) :=
  let poly := addr / 2 ^ B.logN
  let idx := poly % 2 ^ B.logN
  if m.bits.any fun b => b.data.length ≤ poly then .panic
  else do
    let bits ← parallelCalls threads (fun _ (b : BitArray B) => b.zeroAtCalls poly idx) m.bits
    pure { m with bits := bits }

end Memory

/-! ### prepare.rs -/

variable (B) in
/-- The body of the inner loop of `prepare_multiple_fheuint`, prepare.rs:101-117; indexing panics (recorded as
`none`) never happen on the calls made, see `multiBit`. -/
def multiBitCalls (bits : List B.Uint) (sums : List Nat) (i : Nat) : Calling (Option B.GBit) :=
  match bits[searchCnt sums i]? with
  | none => pure none
  | some u => do
    let x ← .call (.bootstrap (i - sums.getD (searchCnt sums i) 0))
      (B.bootstrap u (i - sums.getD (searchCnt sums i) 0))
    pure (some x)

variable (B) in
/-- `prepare_multiple_fheuint`, prepare.rs:41-127: the threads, then the remaining bits zeroed (lines 122-126). -/
def prepareMultipleCalls (threads : Nat) (bits : List B.Uint) (counts : List Nat) : Running (List B.Prep) :=
  if counts.all (fun c => decide (c ≤ 32)) then do
    let l ← parallelCalls threads (fun i (_ : Option B.GBit) => multiBitCalls B bits (runningSums 0 counts) i)
      (List.replicate counts.sum none)
    let l ← .work (collect l)
    .calls ⟨splitWords B counts l, List.replicate (counts.map fun c => 32 - c).sum .zeroBit⟩
  else .panic

/-! ### Operations -/

variable (B) in
/-- `execute_bdd_circuit_multi_thread` then `pack`, see `evalCircuits`. -/
def evalCircuitsCalls (cs : List BitCircuit) (bit : Nat → B.GBit) : Running B.Uint := do
  let l ← .tryCall (.bdd cs) (collect (cs.map fun c => B.bdd c bit))
  .calls (.call (.pack l.length) (B.pack l))

variable (B) in
/-- `ram_offset`, ram_offset.rs:17-54. -/
def ramOffsetCalls (rs1 imm : B.Prep) : Running B.Uint :=
  evalCircuitsCalls B Circuits.RamOffset.circuits (helperGBit B [0, 32] [rs1, imm])

variable (B) in
/-- `update_pc`, pc_update.rs:20-68. -/
def updatePcCalls (rs1 rs2 pc imm opid : B.Prep) : Running B.Uint :=
  evalCircuitsCalls B Circuits.PcUpdate.circuits (helperGBit B [0, 4, 36, 68, 100] [opid, rs1, rs2, pc, imm])

variable (B) in
/-- A two-operand word circuit of the library. -/
def binCalls (op : BinOp) (p q : B.Prep) : Running B.Uint := .calls (.call (.bin op) (B.bin op p q))

variable (B) in
/-- `zero_byte` on the given bytes in turn. -/
def zeroBytes : List Nat → B.Uint → Calling B.Uint
  | [], u => pure u
  | i :: is, u => do
    let u ← .call (.zeroByte i) (B.zeroByte u i)
    zeroBytes is u

variable (B) in
/-- `RD_UPDATE::eval_enc`, rd_update.rs:79-165. -/
def RdUpdate.evalCalls (o : RdUpdate) (rs1 rs2 imm pc : B.Prep) (ram : B.Uint) : Running B.Uint :=
  match o with
  | .NONE => pure B.uzero
  | .AUIPC => evalCircuitsCalls B Circuits.Auipc.circuits (twoPreps B pc imm)
  | .JAL => evalCircuitsCalls B Circuits.Jalr.circuits (twoPreps B pc pc)
  | .JALR => evalCircuitsCalls B Circuits.Jalr.circuits (twoPreps B pc pc)
  | .LUI => evalCircuitsCalls B Circuits.Lui.circuits (twoPreps B imm imm)
  | .ADD => binCalls B .add rs1 rs2
  | .SUB => binCalls B .sub rs1 rs2
  | .SLL => binCalls B .sll rs1 rs2
  | .SLT => binCalls B .slt rs1 rs2
  | .SLTU => binCalls B .sltu rs1 rs2
  | .XOR => binCalls B .xor rs1 rs2
  | .SRL => binCalls B .srl rs1 rs2
  | .SRA => binCalls B .sra rs1 rs2
  | .OR => binCalls B .or rs1 rs2
  | .ADDI => binCalls B .add rs1 imm
  | .AND => binCalls B .and rs1 rs2
  | .SLTIU => binCalls B .sltu rs1 imm
  | .XORI => binCalls B .xor rs1 imm
  | .ORI => binCalls B .or rs1 imm
  | .ANDI => binCalls B .and rs1 imm
  | .SLLI => binCalls B .sll rs1 imm
  | .SRLI => binCalls B .srl rs1 imm
  | .SRAI => binCalls B .sra rs1 imm
  | .SLTI => binCalls B .slt rs1 imm
  | .LB => .calls (zeroBytes B [1, 2, 3] ram)
  | .LBU => .calls (zeroBytes B [1, 2, 3] ram)
  | .LH => do
    let u ← .calls (zeroBytes B [2, 3] ram)
    .calls (.call (.sextByte 1) (B.sextByte u 1))
  | .LHU => .calls (zeroBytes B [2, 3] ram)
  | .LW => pure ram
  | .MUL | .MULH | .MULHSU | .MULHU | .DIV | .DIVU | .REM | .REMU => .panic

variable (B) in
/-- The map filled in interpreter.rs:1140-1147. -/
def rdMapCalls (rs1 rs2 imm pc : B.Prep) (ram : B.Uint) : List RdUpdate → Running (List (Nat × B.Uint))
  | [] => pure []
  | op :: ops => do
    let u ← RdUpdate.evalCalls B op rs1 rs2 imm pc ram
    let m ← rdMapCalls rs1 rs2 imm pc ram ops
    pure ((op.id.toNat, u) :: m)

variable (B) in
/-- `glwe_blind_selection`. -/
def selectCalls (m : List (Nat × B.Uint)) (p : B.Prep) (start bits : Nat) : Calling B.Uint :=
  .call (.select (m.map (·.1)) start bits) (B.select m p start bits)

variable (B) in
/-- The values spliced for `sb`, ram_update.rs:86-91. -/
def spliceCalls8 (loaded rs2 : B.Uint) : List Nat → Calling (List (Nat × B.Uint))
  | [] => pure []
  | i :: is => do
    let u ← .call (.spliceU8 i 0) (B.spliceU8 i 0 loaded rs2)
    let m ← spliceCalls8 loaded rs2 is
    pure ((i, u) :: m)

variable (B) in
/-- The values spliced for `sh`, ram_update.rs:100-105. -/
def spliceCalls16 (loaded rs2 : B.Uint) : List Nat → Calling (List (Nat × B.Uint))
  | [] => pure []
  | i :: is => do
    let u ← .call (.spliceU16 i 0) (B.spliceU16 i 0 loaded rs2)
    let m ← spliceCalls16 loaded rs2 is
    pure ((i <<< 1, u) :: m)

variable (B) in
/-- `RAM_UPDATE::eval_enc`, ram_update.rs:48-113. -/
def RamUpdate.evalCalls (o : RamUpdate) (rs2 loaded : B.Uint) (offset : B.Prep) : Calling B.Uint :=
  match o with
  | .NONE => pure loaded
  | .SW => pure rs2
  | .SB => do
    let m ← spliceCalls8 B loaded rs2 (List.range 4)
    selectCalls B m offset 0 2
  | .SH => do
    let m ← spliceCalls16 B loaded rs2 (List.range 2)
    selectCalls B m offset 0 2

variable (B) in
/-- The map filled in interpreter.rs:1280-1294. -/
def ramMapCalls (rs2 loaded : B.Uint) (offset : B.Prep) : List RamUpdate → Calling (List (Nat × B.Uint))
  | [] => pure []
  | op :: ops => do
    let u ← RamUpdate.evalCalls B op rs2 loaded offset
    let m ← ramMapCalls rs2 loaded offset ops
    pure ((op.id.toNat, u) :: m)

variable (B) in
/-- The refresh of a word (interpreter.rs:1168-1185, 1315-1332). -/
def refreshCalls (u : B.Uint) : Calling B.Uint := do
  let p ← .call (.prepareCustom 0 32) (B.prepareCustom u 0 32)
  .call .identity (B.identity p)

/-! ### The cycle -/

/-- `read_and_prepare_instruction_components`, interpreter.rs:629-775. -/
def Interp.fetchCalls (vm : Interp B) (pcP : B.Prep) : Running (Fetch B) := do
  let imm ← vm.immRom.readStatelessCalls vm.threads pcP 2
  let rdu ← vm.rduRom.readStatelessCalls vm.threads pcP 2
  let mu ← vm.muRom.readStatelessCalls vm.threads pcP 2
  let pcu ← vm.pcuRom.readStatelessCalls vm.threads pcP 2
  let rs1 ← vm.rs1Rom.readStatelessCalls vm.threads pcP 2
  let rs2 ← vm.rs2Rom.readStatelessCalls vm.threads pcP 2
  let rd ← vm.rdRom.readStatelessCalls vm.threads pcP 2
  let ps ← prepareMultipleCalls B vm.threads [rdu, mu, pcu, imm, rs1, rs2, rd]
    [bitsFor rdUpdateRv32iOpList.length, bitsFor ramUpdateOpList.length, 4, 32, 5, 5, 5]
  pure
    { pcP := pcP, imm := imm, rdu := rdu, mu := mu, pcu := pcu, rs1 := rs1, rs2 := rs2, rd := rd
      rduP := ps.getD 0 B.pzero, muP := ps.getD 1 B.pzero, pcuP := ps.getD 2 B.pzero
      immP := ps.getD 3 B.pzero, rs1P := ps.getD 4 B.pzero, rs2P := ps.getD 5 B.pzero
      rdP := ps.getD 6 B.pzero }

/-- `read_and_prepare_registers`, interpreter.rs:891-958. -/
def Interp.readRegistersCalls (vm : Interp B) (f : Fetch B) : Running (Sources B) := do
  let rs1 ← vm.registers.readStatelessCalls vm.threads f.rs1P 0
  let rs2 ← vm.registers.readStatelessCalls vm.threads f.rs2P 0
  let ps ← prepareMultipleCalls B vm.threads [rs1, rs2] [32, 32]
  pure { rs1 := rs1, rs2 := rs2, rs1P := ps.getD 0 B.pzero, rs2P := ps.getD 1 B.pzero }

/-- `read_ram`, interpreter.rs:986-1055. -/
def Interp.readRamCalls (vm : Interp B) (f : Fetch B) (s : Sources B) : Running (RamRead B) := do
  let addr ← ramOffsetCalls B f.immP s.rs1P
  let addrP ← .calls (.call (.prepareCustom 0 (vm.ramBits + 2)) (B.prepareCustom addr 0 (vm.ramBits + 2)))
  let x ← vm.ram.readStatefullCalls vm.threads addrP 2
  pure { addr := addr, addrP := addrP, val := x.2, ram := x.1 }

/-- `update_registers`, interpreter.rs:1092-1200. -/
def Interp.updateRegistersCalls (vm : Interp B) (ops : List RdUpdate) (f : Fetch B) (s : Sources B)
    (ramVal : B.Uint) : Running (B.Uint × Memory B) := do
  let m ← rdMapCalls B s.rs1P s.rs2P f.immP f.pcP ramVal ops
  let sel ← .calls (selectCalls B m f.rduP 0 (bitsFor ops.length))
  let rd ← .calls (refreshCalls B sel)
  let regs ← vm.registers.writeCalls vm.threads rd f.rdP 0
  let regs ← regs.zeroCalls vm.threads 0
  pure (rd, regs)

/-- `update_ram`, interpreter.rs:1243-1345. -/
def Interp.updateRamCalls (vm : Interp B) (f : Fetch B) (s : Sources B) (q : RamRead B) :
    Running (B.Uint × Memory B) := do
  let m ← .calls (ramMapCalls B s.rs2 q.val q.addrP ramUpdateOpList)
  let sel ← .calls (selectCalls B m f.muP 0 (bitsFor ramUpdateOpList.length))
  let val ← .calls (refreshCalls B sel)
  let ram ← q.ram.readStatefullRevCalls vm.threads val q.addrP 2
  pure (val, ram)

/-- `cycle_internal`, interpreter.rs:487-627, without the debug mirror. -/
def Interp.traceCalls (vm : Interp B) : Running (Trace B) := do
  let pcP ←
    if vm.cycle ≠ 0#32 then
      .calls (.call (.prepareCustom 0 (vm.romBits + 2)) (B.prepareCustom vm.pc 0 (vm.romBits + 2)))
    else pure vm.pcP
  let f ← vm.fetchCalls pcP
  let s ← vm.readRegistersCalls f
  let q ← vm.readRamCalls f s
  let rd ← vm.updateRegistersCalls rdUpdateRv32iOpList f s q.val
  let st ← vm.updateRamCalls f s q
  let pc ← updatePcCalls B s.rs1P s.rs2P f.pcP f.immP f.pcuP
  pure
    { f := f, s := s, q := q, rdVal := rd.1, registers := rd.2, ramVal := st.1, ram := st.2
      pc := pc }

/-- `n` cycles. -/
def Interp.runCalls : Nat → Interp B → Running (Interp B)
  | 0, vm => pure vm
  | n + 1, vm => do
    let t ← vm.traceCalls
    Interp.runCalls n (vm.next t)

end Verif.Model
