import Verif.Model.Loader
/-
  The set-up of the encrypted VM with its sources of randomness made explicit,
  compiler/src/interpreter.rs:349-410.  `Model/Loader` takes the randomness of every ciphertext as
  given; here it is drawn from sources made from seeds, in the order of the code.
-/
namespace Verif.Model
variable (B : Backend)

/-- What the set-up uses of the library.  `Src` is the state of a `Source` (poulpy_hal), a pseudo
random generator that is determined by its seed; drawing from it returns the state afterwards. -/
structure Keyed where
  Src : Type
  /-- `Source::new` -/
  source : List (BitVec 8) → Src
  Sk : Type
  SkLwe : Type
  Evk : Type
  /-- `GLWESecret::fill_ternary_prob` and `GLWESecretPrepared::prepare` -/
  genGlwe : Src → Sk × Src
  /-- `LWESecret::fill_binary_block` -/
  genLwe : Src → SkLwe × Src
  /-- `GLWE::encrypt_sk`: the mask is drawn from the first source, the error from the second. -/
  enc : Sk → Coeffs (2 ^ B.logN) → Src × Src → B.Glwe × (Src × Src)
  /-- `GLWE::decrypt` -/
  dec : Sk → B.Glwe → Coeffs (2 ^ B.logN)
  /-- `VMKeys::encrypt_sk` and `VMKeysPrepared::prepare` -/
  evalKeys : SkLwe → Sk → Src × Src → Evk × (Src × Src)

variable {B} (K : Keyed B)

/-- Polynomial `j` of a bit array, as in `BitArray.encrypt`. -/
def chunkCoeffs (bits : List (BitVec 2)) (j : Nat) : Coeffs (2 ^ B.logN) :=
  fun k => (bits[j * 2 ^ B.logN + k.val]?).getD 0#2

/-- The loop of `BitArray::encrypt_sk`, memory.rs:474-482, from ciphertext `j` on: it ends with the
data or with the ciphertexts, whichever is shorter. -/
def Keyed.encryptPolys (sk : K.Sk) (bits : List (BitVec 2)) :
    Nat → List B.Glwe → K.Src × K.Src → List B.Glwe × (K.Src × K.Src)
  | _, [], s => ([], s)
  | j, ct :: cts, s =>
    if j < divCeil bits.length (2 ^ B.logN) then
      let r := K.enc sk (chunkCoeffs bits j) s
      let t := Keyed.encryptPolys sk bits (j + 1) cts r.2
      (r.1 :: t.1, t.2)
    else (ct :: cts, s)

/-- The loop of `Memory::encrypt_sk`, memory.rs:69-74, from bit `i` on. -/
def Keyed.encryptBits (sk : K.Sk) (size : Nat) (data : List (BitVec 32)) :
    Nat → List (BitArray B) → K.Src × K.Src → List (BitArray B) × (K.Src × K.Src)
  | _, [], s => ([], s)
  | i, b :: bs, s =>
    let r := K.encryptPolys sk (bitBuffer size data i) 0 b.data s
    let t := Keyed.encryptBits sk size data (i + 1) bs r.2
    ({ b with data := r.1 } :: t.1, t.2)

/-- `Memory::encrypt_sk`, memory.rs:48-75. -/
def Keyed.encryptMemory (sk : K.Sk) (m : Memory B) (data : List (BitVec 32)) (s : K.Src × K.Src) :
    Option (Memory B × (K.Src × K.Src)) :=
  if m.bits.length = 0 then none
  else if data.length / m.bits.length ≤ m.size then
    let r := K.encryptBits sk m.size data 0 m.bits s
    some ({ m with bits := r.1 }, r.2)
  else none

/-- `instructions_encrypt_sk`, fhevm/src/interpreter.rs:263-359. -/
def Keyed.encryptInstructions (sk : K.Sk) (dbg : Bool) (vm : Interp B) (p : Parser)
    (s : K.Src × K.Src) : Option (Interp B × (K.Src × K.Src)) :=
  if vm.romSize < p.instructions.length then none
  else
    (decodeProgram dbg p).bind fun ds =>
    let column := fun (f : Decoded → BitVec 32) =>
      (List.range vm.romSize).map fun i => (ds[i]?).elim 0#32 f
    (K.encryptMemory sk vm.rs1Rom (column Decoded.rs1) s).bind fun rs1 =>
    (K.encryptMemory sk vm.rs2Rom (column Decoded.rs2) rs1.2).bind fun rs2 =>
    (K.encryptMemory sk vm.rdRom (column Decoded.rd) rs2.2).bind fun rd =>
    (K.encryptMemory sk vm.immRom (column Decoded.imm) rd.2).bind fun imm =>
    (K.encryptMemory sk vm.rduRom (column Decoded.rdu) imm.2).bind fun rdu =>
    (K.encryptMemory sk vm.muRom (column Decoded.mu) rdu.2).bind fun mu =>
    (K.encryptMemory sk vm.pcuRom (column Decoded.pcu) mu.2).map fun pcu =>
      ({ vm with immRom := imm.1, rs1Rom := rs1.1, rs2Rom := rs2.1, rdRom := rd.1, rduRom := rdu.1
                 muRom := mu.1, pcuRom := pcu.1 }, pcu.2)

/-- `ram_encrypt_sk`, fhevm/src/interpreter.rs:378-399. -/
def Keyed.encryptRam (sk : K.Sk) (vm : Interp B) (data : List (BitVec 32)) (s : K.Src × K.Src) :
    Option (Interp B × (K.Src × K.Src)) :=
  if data.length ≤ vm.ram.size then
    (K.encryptMemory sk vm.ram data s).map fun r => ({ vm with ram := r.1 }, r.2)
  else none

/-- The seed of all three sources, compiler/src/interpreter.rs:351-353. -/
def setupSeed : List (BitVec 8) := List.replicate 32 0#8

/-- The secret keys of the set-up, compiler/src/interpreter.rs:357-361. -/
def Keyed.secrets : K.Sk × K.SkLwe :=
  let g := K.genGlwe (K.source setupSeed)
  (g.1, (K.genLwe g.2).1)

/-- Result of the set-up: the interpreter with its ciphertexts, the evaluation keys, the secret key. -/
structure Keyed.Setup where
  interp : Interp B
  evk : K.Evk
  sk : K.Sk

/-- The cryptographic part of `Phantom::encrypted_vm`, compiler/src/interpreter.rs:349-398: secret
keys, encryption of the program, evaluation keys, encryption of the RAM. -/
def Keyed.setup (dbg : Bool) (romSize ramSize threads : Nat) (p : Parser) (data : List (BitVec 32)) :
    Option K.Setup :=
  let xa := K.source setupSeed
  let xe := K.source setupSeed
  let sk := K.secrets
  (Interp.new B romSize ramSize).bind fun vm =>
  (K.encryptInstructions sk.1 dbg vm p (xa, xe)).bind fun r =>
  let k := K.evalKeys sk.2 sk.1 r.2
  (K.encryptRam sk.1 r.1 data k.2).map fun q =>
    { interp := { q.1 with threads := threads }, evk := k.1, sk := sk.1 }

end Verif.Model
