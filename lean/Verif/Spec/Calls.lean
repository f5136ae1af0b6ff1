import Verif.Model.Calls
/-
  The library calls of a cycle, written down from the public sizes alone.
-/
namespace Verif.Spec
open Model

/-- Public sizes: ring degree `2 ^ logN`, ciphertexts per bit and address bits of the two memories, threads. -/
structure Sizes where
  logN : Nat
  romCts : Nat
  romBits : Nat
  ramCts : Nat
  ramBits : Nat
  threads : Nat

/-- A memory of 32 columns of `cts` ciphertexts with `bits` address bits, not inside a two-phase access. -/
structure IsMemory {B : Backend} (m : Memory B) (cts bits : Nat) : Prop where
  width : m.bits.length = 32
  columns : ∀ b ∈ m.bits, b.data.length = cts ∧ b.bitSize = bits
  pos : 0 < cts
  idle : m.state = false

/-- An interpreter has these sizes (the 32 registers have 5 address bits). -/
structure HasSizes {B : Backend} (vm : Interp B) (z : Sizes) : Prop where
  logN : B.logN = z.logN
  threads : vm.threads = z.threads
  threads_pos : 0 < z.threads
  romBits : vm.romBits = z.romBits
  ramBits : vm.ramBits = z.ramBits
  rom : ∀ m ∈ [vm.immRom, vm.rs1Rom, vm.rs2Rom, vm.rdRom, vm.rduRom, vm.muRom, vm.pcuRom], IsMemory m z.romCts z.romBits
  registers : ∃ cts, IsMemory vm.registers cts 5 ∧ cts = (32 + 2 ^ z.logN - 1) / 2 ^ z.logN
  ram : IsMemory vm.ram z.ramCts z.ramBits

/-- Tasks shared out: with `n` tasks and `t` threads, each thread in turn takes the next `⌈n / t⌉` tasks. -/
def share (t : Nat) (tasks : List (List Call)) : Event :=
  let size := (tasks.length + t - 1) / t
  .threads ((List.range ((tasks.length + size - 1) / size)).map fun k => ((tasks.drop (k * size)).take size).flatten)

/-- A stateless read of one word: each bit is retrieved among the ciphertexts of its column and rotated. -/
def readCalls (logN threads cts bits offset : Nat) : List Event :=
  [share threads (List.replicate 32
      [.retrieve cts (offset + logN), .blindRotate false offset (min logN bits) 0]),
   .call (.pack 32)]

/-- Moving the addressed cell of a column to the front. -/
def toFront (logN cts bits offset : Nat) : List Call :=
  (if logN < bits then [.retrieval cts (offset + logN) (bits - logN)] else []) ++
    [.blindRotate false offset (min logN bits) 0]

/-- Replacing the cell in front, and moving back. -/
def putBack (logN cts bits offset : Nat) : List Call :=
  [.trace, .sub, .add, .normalize, .blindRotate true offset (min logN bits) 0] ++
    (if logN < bits then [.retrievalRev cts (offset + logN) (bits - logN)] else [])

/-- Bits prepared for several words, shared out over the threads; the other bits of each word are set to zero. -/
def prepareCalls (threads : Nat) (counts : List Nat) : List Event :=
  share threads ((counts.flatMap List.range).map fun i => [.bootstrap i]) ::
    List.replicate (counts.map (32 - ·)).sum (.call .zeroBit)

/-- A generated circuit and the packing of its 32 output bits. -/
def circuitCalls (cs : List BitCircuit) : List Event := [.call (.bdd cs), .call (.pack 32)]

/-- The calls for the candidate results of each register operation, in the order of the list of operations. -/
def rdCalls : RdUpdate → List Event
  | .AUIPC => circuitCalls Circuits.Auipc.circuits
  | .JAL | .JALR => circuitCalls Circuits.Jalr.circuits
  | .LUI => circuitCalls Circuits.Lui.circuits
  | .ADD | .ADDI => [.call (.bin .add)]
  | .SUB => [.call (.bin .sub)]
  | .SLL | .SLLI => [.call (.bin .sll)]
  | .SLT | .SLTI => [.call (.bin .slt)]
  | .SLTU | .SLTIU => [.call (.bin .sltu)]
  | .XOR | .XORI => [.call (.bin .xor)]
  | .SRL | .SRLI => [.call (.bin .srl)]
  | .SRA | .SRAI => [.call (.bin .sra)]
  | .OR | .ORI => [.call (.bin .or)]
  | .AND | .ANDI => [.call (.bin .and)]
  | .LB | .LBU => [.call (.zeroByte 1), .call (.zeroByte 2), .call (.zeroByte 3)]
  | .LH => [.call (.zeroByte 2), .call (.zeroByte 3), .call (.sextByte 1)]
  | .LHU => [.call (.zeroByte 2), .call (.zeroByte 3)]
  | _ => []

/-- The register operations of RV32I in the order in which they are evaluated. -/
def rdOrder : List RdUpdate :=
  [.NONE, .LUI, .AUIPC] ++ [.ADDI, .SLTI, .SLTIU, .XORI, .ORI, .ANDI, .SLLI, .SRLI, .SRAI] ++
  [.ADD, .SUB, .SLL, .SLT, .SLTU, .XOR, .SRL, .SRA, .OR, .AND] ++ [.LB, .LBU, .LH, .LHU, .LW] ++ [.JAL, .JALR]

/-- A word selected and refreshed. -/
def selectRefresh (keys : List Nat) (bits : Nat) : List Event :=
  [.call (.select keys 0 bits), .call (.prepareCustom 0 32), .call .identity]

/-- The calls of one cycle; the first one does not prepare the program counter. -/
def cycleCalls (z : Sizes) (first : Bool) : List Event :=
  let regCts := (32 + 2 ^ z.logN - 1) / 2 ^ z.logN
  (if first then [] else [.call (.prepareCustom 0 (z.romBits + 2))]) ++
  (List.replicate 7 (readCalls z.logN z.threads z.romCts z.romBits 2)).flatten ++
  prepareCalls z.threads [5, 2, 4, 32, 5, 5, 5] ++
  (List.replicate 2 (readCalls z.logN z.threads regCts 5 0)).flatten ++
  prepareCalls z.threads [32, 32] ++
  circuitCalls Circuits.RamOffset.circuits ++ [.call (.prepareCustom 0 (z.ramBits + 2))] ++
  [share z.threads (List.replicate 32 (toFront z.logN z.ramCts z.ramBits 2)), .call (.pack 32)] ++
  rdOrder.flatMap rdCalls ++ selectRefresh (List.range 29) 5 ++
  [share z.threads ((List.range 32).map fun i => .getBit i :: toFront z.logN regCts 5 0 ++ putBack z.logN regCts 5 0),
   share z.threads (List.replicate 32 [.rotate 0, .trace, .sub, .rotate 0])] ++
  ((List.range 4).map fun i => .call (.spliceU8 i 0)) ++ [.call (.select [0, 1, 2, 3] 0 2)] ++
  ((List.range 2).map fun i => .call (.spliceU16 i 0)) ++ [.call (.select [0, 2] 0 2)] ++
  selectRefresh (List.range 4) 2 ++
  [share z.threads ((List.range 32).map fun i => .getBit i :: putBack z.logN z.ramCts z.ramBits 2)] ++
  circuitCalls Circuits.PcUpdate.circuits

/-- The calls of `n` cycles from the start.  The counter of cycles has 32 bits. -/
def cyclesCalls (z : Sizes) (start n : Nat) : List Event :=
  (List.range n).flatMap fun i => cycleCalls z ((start + i) % 2 ^ 32 = 0)

/-! ### Counting -/

/-- A count over everything that happens. -/
def total (w : Call → Nat) (es : List Event) : Nat :=
  (es.map fun
    | .call c => w c
    | .threads ts => (ts.map fun t => (t.map w).sum).sum).sum

/-- A count along the longest path: of the threads of a scope, the one with the most. -/
def longest (w : Call → Nat) (es : List Event) : Nat :=
  (es.map fun
    | .call c => w c
    | .threads ts => (ts.map fun t => (t.map w).sum).foldr max 0).sum

/-- Bits bootstrapped by a call. -/
def bootstraps : Call → Nat
  | .bootstrap _ => 1
  | .prepareCustom _ count => count
  | _ => 0

/-- Evaluations of a generated circuit. -/
def isCircuit : Call → Nat
  | .bdd _ => 1
  | _ => 0

/-- Evaluations of one of the library's circuits on words. -/
def isWordOp : Call → Nat
  | .bin _ => 1
  | _ => 0

end Verif.Spec
