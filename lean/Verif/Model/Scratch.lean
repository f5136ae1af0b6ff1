/-
  Scratch space of the memory operations, fhevm/src/memory.rs, and of the preparation of words,
  fhevm/src/prepare.rs.  A Rust caller reserves a number of
  bytes per thread (`*_tmp_bytes`), asserts that the scratch holds that many for every thread, splits
  it, and every thread then works inside its own piece; a `take_*` or a library call that needs more
  bytes than its piece still has panics.
  The sizes the library reports are arbitrary numbers here (`Sizes`).  A library call is assumed to
  need exactly the bytes reported by the library's own `*_tmp_bytes` function.
  Not modelled: alignment of the pieces (sizes are assumed to be rounded by the library).
-/
namespace Verif.Model.Scratch

/-- How a piece of code uses a scratch: `call n` is a library call that needs `n` bytes and gives
them back; `take n b` reserves `n` bytes while `b` runs on the rest. -/
inductive Use where
  | skip
  | call (n : Nat)
  | take (n : Nat) (body : Use)
  | seq (a b : Use)
  deriving DecidableEq

/-- Runs the code with `avail` bytes of scratch: `false` = panic. -/
def Use.runs (avail : Nat) : Use → Bool
  | skip => true
  | call n => decide (n ≤ avail)
  | take n b => decide (n ≤ avail) && b.runs (avail - n)
  | seq a b => a.runs avail && b.runs avail

/-- Sizes reported by the library for the ciphertexts and keys at hand. -/
structure Sizes where
  /-- `GLWEBlindRetriever::retrieve_tmp_bytes` -/
  retrieve : Nat
  /-- `glwe_blind_rotation_tmp_bytes` -/
  rotation : Nat
  /-- `glwe_blind_retrieval_tmp_bytes` (both directions) -/
  retrieval : Nat
  /-- `glwe_trace_tmp_bytes` -/
  trace : Nat
  /-- `glwe_normalize_tmp_bytes` -/
  normalize : Nat
  /-- `glwe_rotate_tmp_bytes` -/
  rotate : Nat
  /-- `GLWE::bytes_of_from_infos` of a memory ciphertext -/
  glwe : Nat
  /-- `GLWE::bytes_of_from_infos` of a word ciphertext (`FheUint`) -/
  word : Nat
  /-- what `FheUint::get_bit_glwe` needs -/
  getBit : Nat
  /-- what `FheUint::pack` needs -/
  pack : Nat
  deriving DecidableEq

/-- `cond` is the test `bit_size > module.log_n()`. -/
def whenUse (cond : Bool) (u : Use) : Use := if cond then u else .skip

/-- memory.rs:156-162: `rotate.max(trace) + bytes_of(glwe)`. -/
def zeroBytes (s : Sizes) : Nat := max s.rotate s.trace + s.glwe

/-- Work of a thread of `zero` on one bit array, memory.rs:179-187. -/
def zeroUse (s : Sizes) : Use :=
  .take s.glwe (.seq (.call s.rotate) (.seq (.call s.trace) (.call s.rotate)))

/-- `retrieve_stateless_tmp_bytes`, memory.rs:542-550. -/
def statelessBytes (s : Sizes) : Nat := max s.retrieve s.rotation

/-- `retrieve_stateless`, memory.rs:552-583. -/
def statelessUse (s : Sizes) : Use := .seq (.call s.retrieve) (.call s.rotation)

/-- `retrieve_statefull_tmp_bytes`, memory.rs:585-604. -/
def statefulBytes (bitSize logN : Nat) (s : Sizes) : Nat :=
  max s.retrieval (if bitSize > logN then s.rotation else 0)

/-- `retrieve_statefull`, memory.rs:606-638. -/
def statefulUse (bitSize logN : Nat) (s : Sizes) : Use :=
  .seq (whenUse (bitSize > logN) (.call s.retrieval)) (.call s.rotation)

/-- `retrieve_statefull_rev_tmp_bytes`, memory.rs:640-667; `write_tmp_bytes`, memory.rs:720-738, is
the same. -/
def revBytes (bitSize logN : Nat) (s : Sizes) : Nat :=
  max (max (s.trace + max s.glwe s.normalize) s.retrieval) (if bitSize > logN then s.rotation else 0)

/-- `retrieve_statefull_rev`, memory.rs:669-718. -/
def revUse (bitSize logN : Nat) (s : Sizes) : Use :=
  .seq (.take s.glwe (.call s.trace)) <|
  .seq (.call s.normalize) <|
  .seq (.call s.rotation) <|
  whenUse (bitSize > logN) (.call s.retrieval)

/-- `BitArray::write`, memory.rs:740-809. -/
def writeUse (bitSize logN : Nat) (s : Sizes) : Use :=
  .seq (whenUse (bitSize > logN) (.call s.retrieval)) <|
  .seq (.call s.rotation) <|
  .seq (.take s.glwe (.call s.trace)) <|
  .seq (.call s.normalize) <|
  .seq (.call s.rotation) <|
  whenUse (bitSize > logN) (.call s.retrieval)

/-- A thread's loop body of `read_statefull_rev` and `write`, memory.rs:360-365 and 425-429: one bit
of the word is extracted into reserved space, then the bit array is rewritten. -/
def withBit (s : Sizes) (u : Use) : Use := .take s.word (.seq (.call s.getBit) u)

/-- The threaded part common to the five operations (memory.rs:164-190, 220-242, 279-301, 342-368,
407-432): the assertion, the split into one piece per thread, `div_ceil(threads)` (panics on 0) and
`chunks_mut` (panics on 0), then every bit array is processed inside the piece of its thread.  All
bit arrays do the same work, so a non-empty memory panics iff one array does. -/
def onThreads (avail threads bytes width : Nat) (u : Use) : Bool :=
  decide (threads * bytes ≤ avail) && decide (0 < threads) && decide (0 < width) && u.runs bytes

/-- `zero`, memory.rs:140-191. -/
def zero (avail threads width : Nat) (s : Sizes) : Bool :=
  onThreads avail threads (zeroBytes s) width (zeroUse s)

/-- Both reads, memory.rs:193-245 and 247-306: `width` word ciphertexts are reserved, the threads
work on the rest, and `pack` runs on all of the rest (the pieces have been given back). -/
def readWith (avail threads bytes width : Nat) (s : Sizes) (u : Use) : Bool :=
  decide (width * s.word ≤ avail) && onThreads (avail - width * s.word) threads bytes width u &&
    (Use.call s.pack).runs (avail - width * s.word)

/-- `read_stateless`, memory.rs:193-245. -/
def readStateless (avail threads width : Nat) (s : Sizes) : Bool :=
  readWith avail threads (statelessBytes s) width s (statelessUse s)

/-- `read_statefull`, memory.rs:247-306. -/
def readStateful (avail threads width bitSize logN : Nat) (s : Sizes) : Bool :=
  readWith avail threads (statefulBytes bitSize logN s) width s (statefulUse bitSize logN s)

/-- `read_statefull_rev`, memory.rs:308-371. -/
def readStatefulRev (avail threads width bitSize logN : Nat) (s : Sizes) : Bool :=
  onThreads avail threads (revBytes bitSize logN s + s.word) width
    (withBit s (revUse bitSize logN s))

/-- `write`, memory.rs:373-433. -/
def write (avail threads width bitSize logN : Nat) (s : Sizes) : Bool :=
  onThreads avail threads (revBytes bitSize logN s + s.word) width
    (withBit s (writeUse bitSize logN s))

/-- Scratch of `EncryptedVM::execute`, compiler/src/interpreter.rs:122-123: `(1 << 24) * threads`. -/
def executeScratch (threads : Nat) : Nat := 2 ^ 24 * threads

/-- Scratch of tests/cycle.rs:127, 227 and benches/cycle.rs:154, whatever the number of threads. -/
def fixedScratch : Nat := 2 ^ 28

/-- Sizes reported by the library for the preparation of a bit. -/
structure PrepSizes where
  /-- `fhe_uint_prepare_tmp_bytes` -/
  prepare : Nat
  /-- a GGSW ciphertext -/
  ggsw : Nat
  /-- an LWE ciphertext -/
  lwe : Nat
  /-- what `get_bit_lwe` needs -/
  getBit : Nat
  /-- what the circuit bootstrapping (`execute_to_constant`) needs -/
  bootstrap : Nat
  /-- what `GGSWPrepared::prepare` needs -/
  ggswPrepare : Nat
  deriving DecidableEq

/-- Work of a thread on one bit, prepare.rs:99-117: two temporaries, then three calls. -/
def prepareUse (s : PrepSizes) : Use :=
  .take s.ggsw (.take s.lwe (.seq (.call s.getBit) (.seq (.call s.bootstrap) (.call s.ggswPrepare))))

/-- `prepare_multiple_fheuint`, prepare.rs:41-127, on `bits` bits in all: the assertion, `div_ceil(threads)`,
`combined_res[0]` and `chunks_mut` (which panic on zero bits), the split, and one piece per thread. -/
def prepare (avail threads bits : Nat) (s : PrepSizes) : Bool :=
  onThreads avail threads s.prepare bits (prepareUse s)

end Verif.Model.Scratch
