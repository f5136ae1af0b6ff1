import Verif.Model.Backend
import Verif.Model.Threads
/-
  Model of fhevm/src/memory.rs, generic over the homomorphic library.
  `none` = the Rust panics.  Scratch-space size assertions are not modelled (scratch is assumed
  large enough).
-/
namespace Verif.Model

/-- `usize::BITS - (size - 1).leading_zeros()` (memory.rs:39, 453; interpreter.rs:180-181): the
number of significant bits of `size - 1`. -/
def bitsFor (size : Nat) : Nat :=
  if size - 1 = 0 then 0 else Nat.log2 (size - 1) + 1

variable (B : Backend)

/-- `BitArray`, memory.rs:436-440; `retriever` holds only working storage. -/
structure BitArray where
  data : List B.Glwe
  bitSize : Nat

/-- `Memory`, memory.rs:22-27. -/
structure Memory where
  bits : List (BitArray B)
  size : Nat
  bitSize : Nat
  state : Bool

variable {B}

/-- `Memory::size`, memory.rs:44-46. -/
def Memory.getSize (m : Memory B) : Nat := m.size

/-- `BitArray::alloc`, memory.rs:443-455 (for `size = 0` see `Memory.alloc`). -/
def BitArray.alloc (B : Backend) (size : Nat) : BitArray B where
  data := List.replicate (divCeil size (2 ^ B.logN)) B.glweZero
  bitSize := bitsFor size

/-- `Memory::alloc`, memory.rs:30-42; `none`: `size - 1` underflows.  Simplification: in a build without
overflow checks the subtraction wraps, and a memory with no ciphertexts and 64 address bits is made; memories
without cells (a program without instructions) are not modelled further. -/
def Memory.alloc (B : Backend) (wordSize size : Nat) : Option (Memory B) :=
  if size = 0 then none
  else some { bits := List.replicate wordSize (BitArray.alloc B size), size := size,
              bitSize := bitsFor size, state := false }

/-! ### Encryption and decryption -/

/-- A plaintext polynomial: coefficients at precision 2 (`TorusPrecision(2)`, memory.rs:480, 502),
i.e. modulo 4. -/
abbrev Coeffs (n : Nat) := Fin n → BitVec 2

/-- Secret-key encryption and decryption of one polynomial; `Rand` is the randomness consumed. -/
structure Cipher (B : Backend) where
  Rand : Type
  enc : Rand → Coeffs (2 ^ B.logN) → B.Glwe
  dec : B.Glwe → Coeffs (2 ^ B.logN)

/-- `y.bit(i)` as a coefficient. -/
def bitCoeff (y : BitVec 32) (i : Nat) : BitVec 2 := if y.getLsbD i then 1#2 else 0#2

/-- `BitArray::encrypt_sk`, memory.rs:457-483: `data.chunks(n)` zipped with the ciphertexts, every
chunk padded with zeros. -/
def BitArray.encrypt (C : Cipher B) (rand : Nat → C.Rand) (b : BitArray B) (bits : List (BitVec 2)) :
    BitArray B :=
  { b with data := b.data.mapIdx fun j ct =>
      if j < divCeil bits.length (2 ^ B.logN) then
        C.enc (rand j) fun k => (bits[j * 2 ^ B.logN + k.val]?).getD 0#2
      else ct }

/-- The `bits` buffer of `Memory::encrypt_sk`: `size` zeros, overwritten by bit `i` of the data as
far as both go. -/
def bitBuffer (size : Nat) (data : List (BitVec 32)) (i : Nat) : List (BitVec 2) :=
  (List.range size).map fun a =>
    (data[a]?).elim 0#2 fun y => bitCoeff y i

/-- `Memory::encrypt_sk`, memory.rs:48-75. -/
def Memory.encrypt (C : Cipher B) (rand : Nat → Nat → C.Rand) (m : Memory B)
    (data : List (BitVec 32)) : Option (Memory B) :=
  if m.bits.length = 0 then none
  else if data.length / m.bits.length ≤ m.size then
    some { m with bits := m.bits.mapIdx fun i b => b.encrypt C (rand i) (bitBuffer m.size data i) }
  else none

/-- `BitArray::decrypt`, memory.rs:486-507: coefficient `a` of the array (0 beyond its end). -/
def BitArray.decrypt (C : Cipher B) (b : BitArray B) (a : Nat) : BitVec 2 :=
  (b.data[a / 2 ^ B.logN]?).elim 0#2 fun ct =>
    C.dec ct ⟨a % 2 ^ B.logN, Nat.mod_lt _ (Nat.two_pow_pos _)⟩

/-- The update of one output word by bit `i`, memory.rs:101-105. -/
def setBit (y : BitVec 32) (i : Nat) (x : BitVec 2) : BitVec 32 :=
  if x = 1#2 then y ||| (1#32 <<< i) else y &&& ~~~(1#32 <<< i)

/-- `Memory::decrypt`, memory.rs:78-108; `out` is the caller's buffer. -/
def Memory.decrypt (C : Cipher B) (m : Memory B) (out : List (BitVec 32)) :
    Option (List (BitVec 32)) :=
  if m.bits.length = 0 then none
  else if out.length / m.bits.length ≤ m.size then
    some (out.mapIdx fun a y =>
      if a < m.size then
        (List.range m.bits.length).foldl (fun y i =>
          (m.bits[i]?).elim y fun b => setBit y i (b.decrypt C a)) y
      else y)
  else none

namespace BitArray

/-- `BitArray::retrieve_stateless`, memory.rs:552-583. -/
def retrieveStateless (b : BitArray B) (addr : B.Prep) (offset : Nat) : B.Glwe :=
  B.blindRotate (B.retrieve b.data addr (offset + B.logN)) addr false offset
    (min B.logN b.bitSize) 0

/-- The forward phase shared by `retrieve_statefull` and `write`, memory.rs:619-636, 762-779. -/
def forward (b : BitArray B) (addr : B.Prep) (offset : Nat) : List B.Glwe :=
  let data :=
    if b.bitSize > B.logN then
      B.retrieval b.data addr (offset + B.logN) (b.bitSize - B.logN)
    else b.data
  data.modify 0 fun d => B.blindRotate d addr false offset (min B.logN b.bitSize) 0

/-- The overwriting and backward phase shared by `retrieve_statefull_rev` and `write`,
memory.rs:691-717, 781-808. -/
def backward (b : BitArray B) (w : B.Glwe) (addr : B.Prep) (offset : Nat) : List B.Glwe :=
  let data := b.data.modify 0 fun d => B.sub d (B.trace d)
  let data := data.modify 0 fun d => B.normalize (B.add d w)
  let data := data.modify 0 fun d => B.blindRotate d addr true offset (min B.logN b.bitSize) 0
  if b.bitSize > B.logN then
    B.retrievalRev data addr (offset + B.logN) (b.bitSize - B.logN)
  else data

/-- `BitArray::write`, memory.rs:740-809. -/
def write (b : BitArray B) (w : B.Glwe) (addr : B.Prep) (offset : Nat) : BitArray B :=
  let b1 : BitArray B := { b with data := b.forward addr offset }
  { b with data := b1.backward w addr offset }

/-- `BitArray::retrieve_statefull`, memory.rs:606-638: the array afterwards and a copy of
`data[0]`. -/
def retrieveStatefull (b : BitArray B) (addr : B.Prep) (offset : Nat) : BitArray B × Option B.Glwe :=
  let data := b.forward addr offset
  ({ b with data := data }, data[0]?)

/-- `BitArray::retrieve_statefull_rev`, memory.rs:669-718. -/
def retrieveStatefullRev (b : BitArray B) (w : B.Glwe) (addr : B.Prep) (offset : Nat) : BitArray B :=
  { b with data := b.backward w addr offset }

/-- Body of the loop of `Memory::zero`, memory.rs:181-187. -/
def zeroAt (b : BitArray B) (poly idx : Nat) : BitArray B :=
  { b with data := b.data.modify poly fun a =>
      let a := B.rotate (-(idx : Int)) a
      let a := B.sub a (B.trace a)
      B.rotate idx a }

end BitArray

/-- Collects results; `none` if one of them was never produced. -/
def collect {α : Type} : List (Option α) → Option (List α)
  | [] => some []
  | none :: _ => none
  | some a :: xs => (collect xs).map (a :: ·)

namespace Memory

/-- The `tmp_res` slices start with no result; every task stores one.  (The Rust starts from stale
scratch contents; a result that is never stored is modelled as a failure.) -/
def withTmp (m : Memory B) : List (BitArray B × Option B.Glwe) := m.bits.map fun b => (b, none)

/-- `Memory::read_stateless`, memory.rs:193-245. -/
def readStateless (m : Memory B) (threads : Nat) (addr : B.Prep) (offset : Nat) : Option B.Uint :=
  if m.bits.isEmpty then none
  else if m.state then none
  else
    (parallel threads (fun _ p => (p.1, some (p.1.retrieveStateless addr offset))) m.withTmp).bind
      fun l => (collect (l.map Prod.snd)).map B.pack

/-- `Memory::read_statefull`, memory.rs:247-306. -/
def readStatefull (m : Memory B) (threads : Nat) (addr : B.Prep) (offset : Nat) :
    Option (Memory B × B.Uint) :=
  if m.bits.isEmpty then none
  else if m.state then none
  else
    (parallel threads (fun _ p => p.1.retrieveStatefull addr offset) m.withTmp).bind
      fun l => (collect (l.map Prod.snd)).map
        fun rs => ({ m with bits := l.map Prod.fst, state := true }, B.pack rs)

/-- `Memory::read_statefull_rev`, memory.rs:308-371.  The task of bit `chunk_size * idx + i` takes
that bit of `w`. -/
def readStatefullRev (m : Memory B) (threads : Nat) (w : B.Uint) (addr : B.Prep) (offset : Nat) :
    Option (Memory B) :=
  if m.state = false then none
  else
    (parallel threads (fun i b => b.retrieveStatefullRev (B.getBit w i) addr offset) m.bits).map
      fun bits => { m with bits := bits, state := false }

/-- `Memory::write`, memory.rs:373-433. -/
def write (m : Memory B) (threads : Nat) (w : B.Uint) (addr : B.Prep) (offset : Nat) :
    Option (Memory B) :=
  if m.state then none
  else
    (parallel threads (fun i b => b.write (B.getBit w i) addr offset) m.bits).map
      fun bits => { m with bits := bits }

/-- `Memory::zero`, memory.rs:140-191.  Indexing `data[poly]` out of range panics (all bit arrays
have the same length). -/
def zero (m : Memory B) (threads : Nat) (addr : Nat) : Option (Memory B) :=
  let poly := addr / 2 ^ B.logN
  let idx := poly % 2 ^ B.logN
  if m.bits.any fun b => b.data.length ≤ poly then none
  else
    (parallel threads (fun _ b => b.zeroAt poly idx) m.bits).map
      fun bits => { m with bits := bits }

end Memory
end Verif.Model
