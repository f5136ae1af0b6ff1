import Verif.Model.Bdd
/-
  The homomorphic library (poulpy), seen from the VM: abstract types and the operations the VM calls.

  The VM's code is modelled generically over this interface.  Three kinds of instances are used:
  the plaintext one (`Model/Plain.lean`, the contract assumed of the library), arbitrary ones related
  to it (refinement), and the term one (obliviousness).

  Not modelled: key material (fixed), serialisation, timing measurements.  Noise: Model/Noise, scratch space
  in memory.rs: Model/Scratch.
-/
namespace Verif.Model

/-- Two-operand word circuits of the library used in fhevm/src/rd_update.rs:111-133. -/
inductive BinOp | add | sub | sll | srl | sra | slt | sltu | and | or | xor
  deriving DecidableEq, Repr

structure Backend where
  /-- `GLWE` -/
  Glwe : Type
  /-- `FheUint<_, u32>` -/
  Uint : Type
  /-- `FheUintPrepared<_, u32, BE>` -/
  Prep : Type
  /-- `GGSWPrepared`, one prepared bit -/
  GBit : Type
  /-- `module.log_n()` -/
  logN : Nat
  /-- `GLWE::alloc_from_infos`: encryption of the zero polynomial (memory.rs:449) -/
  glweZero : Glwe
  /-- `glwe_add_inplace` (memory.rs:697, 787) -/
  add : Glwe → Glwe → Glwe
  /-- `glwe_sub_inplace` (memory.rs:185, 694, 784) -/
  sub : Glwe → Glwe → Glwe
  /-- `glwe_rotate_inplace(k, a)` (memory.rs:183, 186) -/
  rotate : Int → Glwe → Glwe
  /-- `glwe_trace(res, 0, a)` (memory.rs:184, 693, 783) -/
  trace : Glwe → Glwe
  /-- `glwe_normalize_inplace` (memory.rs:698, 788) -/
  normalize : Glwe → Glwe
  /-- `glwe_blind_rotation_inplace(a, address, sign, rsh, mask, lsh)` (memory.rs:574-582, 628-636,
  700-708, 771-779, 790-798) -/
  blindRotate : Glwe → Prep → Bool → (rsh mask lsh : Nat) → Glwe
  /-- `GLWEBlindRetriever::retrieve(data, address, offset)` (memory.rs:565-572) -/
  retrieve : List Glwe → Prep → Nat → Glwe
  /-- `glwe_blind_retrieval_statefull(data, address, offset, bits)` (memory.rs:620-626, 763-769) -/
  retrieval : List Glwe → Prep → (offset bits : Nat) → List Glwe
  /-- `glwe_blind_retrieval_statefull_rev` (memory.rs:710-716, 801-807) -/
  retrievalRev : List Glwe → Prep → (offset bits : Nat) → List Glwe
  /-- `FheUint::alloc_from_infos`: encryption of zero -/
  uzero : Uint
  /-- `FheUint::pack` of one GLWE per bit, from bit 0 (memory.rs:244, 303, pc_update.rs:67) -/
  pack : List Glwe → Uint
  /-- `FheUint::get_bit_glwe(i)` (memory.rs:362, 427) -/
  getBit : Uint → Nat → Glwe
  /-- `FheUintPrepared::alloc_from_infos`: encryption of zero -/
  pzero : Prep
  /-- `get_bit(i)` of a prepared word -/
  gbit : Prep → Nat → GBit
  /-- `GGSWPrepared::zero` (prepare.rs:124) -/
  gzero : GBit
  /-- `get_bit_lwe`, `execute_to_constant` and `prepare`: one bit of a word prepared
  (prepare.rs:106-116) -/
  bootstrap : Uint → Nat → GBit
  /-- a prepared word from its prepared bits -/
  ofBits : List GBit → Prep
  /-- `prepare_custom_multi_thread(u, start, count)` (interpreter.rs:539-547, 1032-1040, 1169-1177,
  1316-1324) -/
  prepareCustom : Uint → (start count : Nat) → Prep
  /-- the library's word circuits (rd_update.rs:115-133) -/
  bin : BinOp → Prep → Prep → Uint
  /-- one output bit of `execute_bdd_circuit_multi_thread`; `none`: the evaluator panics -/
  bdd : BitCircuit → (Nat → GBit) → Option Glwe
  /-- `identity_multi_thread` (interpreter.rs:1178-1184, 1325-1331) -/
  identity : Prep → Uint
  /-- `glwe_blind_selection(res, map, selector, start, bits)` (interpreter.rs:1158-1165, 1305-1312,
  ram_update.rs:96, 110); the hash map is an association list with distinct keys -/
  select : List (Nat × Uint) → Prep → (start bits : Nat) → Uint
  /-- `zero_byte(i)` (rd_update.rs:134-157) -/
  zeroByte : Uint → Nat → Uint
  /-- `sext(i)`: sign extension from byte `i` (rd_update.rs:151) -/
  sextByte : Uint → Nat → Uint
  /-- `splice_u8(dst, src, a, b)`: `a` with byte `dst` replaced by byte `src` of `b`
  (ram_update.rs:89) -/
  spliceU8 : (dst src : Nat) → Uint → Uint → Uint
  /-- `splice_u16` (ram_update.rs:103) -/
  spliceU16 : (dst src : Nat) → Uint → Uint → Uint

end Verif.Model
