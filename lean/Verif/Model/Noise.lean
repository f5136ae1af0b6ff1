import Verif.Model.Interp
/-
  The homomorphic library with noise.  `Fhe` (Model/Library) assumes that no operation ever fails; here
  every ciphertext carries noise, linear operations add it up, key switching and external products add a
  constant of their own, and only bootstrapping (`bootstrap`, `prepareCustom`), whose results have constant
  noise, and decryption need the noise of their input to be below a threshold.

  A ciphertext of a polynomial has a phase: what remains after the secret key has been applied, modulo
  `q = 4 * delta`, the message in multiples of `delta` plus noise.  Noise is measured in units of the last
  place.  `normalize`, `pack`, ... are assumed correct up to the noise constants in `Costs`; nothing is
  assumed about how large these constants are.

  Simplification: bounds are worst-case bounds, not variances; the noise of a prepared word (GGSW) is part of
  the constants of the operations that consume it.
-/
namespace Verif.Model

/-- Noise added by the operations of the library. -/
structure Costs where
  /-- fresh encryption -/
  fresh : Nat
  /-- `glwe_trace` -/
  trace : Nat
  /-- `glwe_normalize_inplace` -/
  normalize : Nat
  /-- `glwe_blind_rotation_inplace` -/
  rotation : Nat
  /-- `GLWEBlindRetriever::retrieve` -/
  retrieve : Nat
  /-- `glwe_blind_retrieval_statefull` and its inverse -/
  retrieval : Nat
  /-- `FheUint::pack` -/
  pack : Nat
  /-- `get_bit_glwe` -/
  getBit : Nat
  /-- result of a word circuit of the library -/
  bin : Nat
  /-- one output bit of a generated circuit -/
  bdd : Nat
  /-- `identity` -/
  identity : Nat
  /-- `glwe_blind_selection` -/
  select : Nat
  /-- `zero_byte`, `sext`, `splice_u8`, `splice_u16` -/
  byte : Nat
  deriving DecidableEq

/-- A library together with what its ciphertexts mean. -/
structure NoisyOps where
  B : Backend
  lib : Lib (2 ^ B.logN)
  c : Costs
  /-- the message is in multiples of `delta`; phases are taken modulo `4 * delta` -/
  delta : Int
  /-- noise up to which bootstrapping and decryption are correct -/
  limit : Nat
  phase : B.Glwe → Fin (2 ^ B.logN) → Int
  /-- `U ν u w`: the word ciphertext `u` encrypts `w` with noise at most `ν` -/
  U : Nat → B.Uint → BitVec 32 → Prop
  /-- prepared words and bits -/
  P : B.Prep → BitVec 32 → Prop
  Bt : B.GBit → Bool → Prop

/-- The ciphertext `a` encrypts `p` with noise at most `ν`. -/
def NoisyOps.G (N : NoisyOps) (ν : Nat) (a : N.B.Glwe) (p : Coeffs (2 ^ N.B.logN)) : Prop :=
  ∀ i, ∃ e z : Int,
    e.natAbs ≤ ν ∧ N.phase a i = N.delta * (p i).toNat + e + 4 * N.delta * z

/-- A library whose operations are correct up to noise. -/
structure Noisy extends NoisyOps where
  -- linear operations: exact on phases
  phase_zero : ∀ i, ∃ z : Int, phase B.glweZero i = 4 * delta * z
  phase_add : ∀ a b i, ∃ z : Int, phase (B.add a b) i = phase a i + phase b i + 4 * delta * z
  phase_sub : ∀ a b i, ∃ z : Int, phase (B.sub a b) i = phase a i - phase b i + 4 * delta * z
  -- the trace keeps the constant coefficient of the phase and removes the others
  phase_trace : ∀ a i, ∃ e z : Int, e.natAbs ≤ c.trace ∧
    phase (B.trace a) i = (if i.val = 0 then phase a i else 0) + e + 4 * delta * z
  rotate : ∀ {ν a p} k, toNoisyOps.G ν a p → toNoisyOps.G ν (B.rotate k a) (polyRotate k p)
  normalize : ∀ {ν a p}, toNoisyOps.G ν a p → toNoisyOps.G (ν + c.normalize) (B.normalize a) p
  blindRotate : ∀ {ν a p x w} sign rsh mask lsh, toNoisyOps.G ν a p → P x w →
    toNoisyOps.G (ν + c.rotation) (B.blindRotate a x sign rsh mask lsh)
      ((plain B.logN lib).blindRotate p w sign rsh mask lsh)
  retrieve : ∀ {ν l l' x w} offset, LRel (toNoisyOps.G ν) l l' → P x w →
    toNoisyOps.G (ν + c.retrieve) (B.retrieve l x offset) ((plain B.logN lib).retrieve l' w offset)
  retrieval : ∀ {ν l l' x w} offset bits, LRel (toNoisyOps.G ν) l l' → P x w →
    LRel (toNoisyOps.G (ν + c.retrieval)) (B.retrieval l x offset bits)
      ((plain B.logN lib).retrieval l' w offset bits)
  retrievalRev : ∀ {ν l l' x w} offset bits, LRel (toNoisyOps.G ν) l l' → P x w →
    LRel (toNoisyOps.G (ν + c.retrieval)) (B.retrievalRev l x offset bits)
      ((plain B.logN lib).retrievalRev l' w offset bits)
  -- words
  U_mono : ∀ {ν μ u w}, ν ≤ μ → U ν u w → U μ u w
  uzero : U 0 B.uzero 0#32
  pack : ∀ {ν l l'}, ν ≤ limit → LRel (toNoisyOps.G ν) l l' →
    U (ν + c.pack) (B.pack l) ((plain B.logN lib).pack l')
  getBit : ∀ {ν u w} i, U ν u w →
    toNoisyOps.G (ν + c.getBit) (B.getBit u i) (constPoly (bitCoeff w i))
  select : ∀ {ν m m' x w} start bits, LRel (fun a a' => a.1 = a'.1 ∧ U ν a.2 a'.2) m m' → P x w →
    U (ν + c.select) (B.select m x start bits) ((plain B.logN lib).select m' w start bits)
  zeroByte : ∀ {ν u w} i, U ν u w → U (ν + c.byte) (B.zeroByte u i) ((plain B.logN lib).zeroByte w i)
  sextByte : ∀ {ν u w} i, U ν u w → U (ν + c.byte) (B.sextByte u i) (sextFromByte w i)
  spliceU8 : ∀ {ν u w v x} dst src, U ν u w → U ν v x →
    U (ν + c.byte) (B.spliceU8 dst src u v) (spliceByte dst src w x)
  spliceU16 : ∀ {ν u w v x} dst src, U ν u w → U ν v x →
    U (ν + c.byte) (B.spliceU16 dst src u v) (spliceHalf dst src w x)
  -- bootstrapping: needs small noise, its results are usable whatever that noise was
  bootstrap : ∀ {ν u w} i, ν ≤ limit → U ν u w → Bt (B.bootstrap u i) (w.getLsbD i)
  prepareCustom : ∀ {ν u w} start count, ν ≤ limit → U ν u w →
    P (B.prepareCustom u start count) ((plain B.logN lib).prepareCustom w start count)
  pzero : P B.pzero 0#32
  gbit : ∀ {x w} i, P x w → Bt (B.gbit x i) (w.getLsbD i)
  gzero : Bt B.gzero false
  ofBits : ∀ {l l'}, LRel Bt l l' → P (B.ofBits l) ((plain B.logN lib).ofBits l')
  -- operations on prepared words: the noise of the result does not depend on history
  bin : ∀ {x w y v} op, P x w → P y v → U c.bin (B.bin op x y) (op.eval w v)
  bdd : ∀ k ∈ generatedCircuits, ∀ {f f'}, (∀ i, Bt (f i) (f' i)) →
    ORel (toNoisyOps.G c.bdd) (B.bdd k f) ((plain B.logN lib).bdd k f')
  identity : ∀ {x w}, P x w → U c.identity (B.identity x) w
  -- secret-key operations
  C : Cipher B
  enc : ∀ r p, toNoisyOps.G c.fresh (C.enc r p) p
  dec : ∀ {ν a p}, ν ≤ limit → toNoisyOps.G ν a p → C.dec a = p
  decU : B.Uint → BitVec 32
  decU_ok : ∀ {ν u w}, ν ≤ limit → U ν u w → decU u = w

end Verif.Model
