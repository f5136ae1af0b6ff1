import Verif.Model.Instr
import Verif.Model.Circuits.Lui
import Verif.Model.Circuits.Jalr
import Verif.Model.Circuits.Auipc
import Verif.Model.Circuits.RamOffset
import Verif.Model.Circuits.PcUpdate
/-
  The operations of the VM that evaluate generated circuits, on plaintext words.
  `s0`, `s1` are the stale contents of the evaluator's two buffers for each output bit.
  Not modelled: encryption, noise, threads (each output bit is evaluated independently).
-/
namespace Verif.Model

/-- All output bits in order; `none` = the evaluator panics on one of them.
`execute_bdd_circuit_multi_thread`, called in fhevm/src/pc_update.rs:59-65, ram_offset.rs:44-50 and
by the poulpy macros used in rd_update.rs:20-44. -/
def runAll (bit : Nat → Bool) (s0 s1 : Nat → Nat → Bool) : Nat → List BitCircuit → Option (List Bool)
  | _, [] => some []
  | i, c :: cs =>
    match c.run bit (s0 i) (s1 i), runAll bit s0 s1 (i + 1) cs with
    | some b, some bs => some (b :: bs)
    | _, _ => none

/-- `res.pack(module, out_bits, ..)`: bit `i` of the result is output `i`
(pc_update.rs:67, ram_offset.rs:53). -/
def packBits : List Bool → U32
  | [] => 0#32
  | b :: bs => (packBits bs <<< 1) ||| (BitVec.ofBool b).setWidth 32

def circuitWord (cs : List BitCircuit) (bit : Nat → Bool) (s0 s1 : Nat → Nat → Bool) : Option U32 :=
  (runAll bit s0 s1 0 cs).map packBits

/-- `FheUintHelper::get_bit`, pc_update.rs:82-99 and ram_offset.rs:68-83: the last segment whose
start is not above `bit` holds the bit. -/
def helperBit : (offsets : List Nat) → (data : List U32) → Nat → Bool
  | o :: os, d :: ds, bit =>
    match os with
    | o' :: _ => if o' ≤ bit then helperBit os ds bit else d.getLsbD (bit - o)
    | [] => d.getLsbD (bit - o)
  | _, _, _ => false

/-- Input convention of the two-word circuits (`impl_bdd_2w_to_1w_trait!` of poulpy, used in
rd_update.rs:20-44): bits 0-31 are the first operand, 32-63 the second. -/
def twoWords (a b : U32) (bit : Nat) : Bool :=
  if bit < 32 then a.getLsbD bit else b.getLsbD (bit - 32)

variable (s0 s1 : Nat → Nat → Bool)

/-- `res.lui(a, b)`, rd_update.rs:38-44. -/
def luiOp (a b : U32) : Option U32 := circuitWord Circuits.Lui.circuits (twoWords a b) s0 s1
/-- `res.jalr(a, b)`, rd_update.rs:29-36. -/
def jalrOp (a b : U32) : Option U32 := circuitWord Circuits.Jalr.circuits (twoWords a b) s0 s1
/-- `res.auipc(a, b)`, rd_update.rs:20-27. -/
def auipcOp (a b : U32) : Option U32 := circuitWord Circuits.Auipc.circuits (twoWords a b) s0 s1

/-- `ram_offset`, ram_offset.rs:17-54 with the helper's offsets 69-72. -/
def ramOffsetOp (rs1 imm : U32) : Option U32 :=
  circuitWord Circuits.RamOffset.circuits (helperBit [0, 32] [rs1, imm]) s0 s1

/-- `update_pc`, pc_update.rs:20-68 with the helper's offsets 83-89. -/
def updatePcOp (rs1 rs2 pc imm opid : U32) : Option U32 :=
  circuitWord Circuits.PcUpdate.circuits (helperBit [0, 4, 36, 68, 100] [opid, rs1, rs2, pc, imm])
    s0 s1

end Verif.Model
