import Verif.Model.Plain
import Verif.Model.CircuitOps
/-
  What is assumed of the homomorphic library: its ciphertexts stand in a relation with plaintexts
  which every operation preserves ("the operations are correct and the noise never grows too
  large"), fresh encryptions are related to what they encrypt, and decryption returns the plaintext.
-/
namespace Verif.Model

/-- Relation lifted to optional results: both absent, or both present and related. -/
def ORel {α β : Type} (R : α → β → Prop) : Option α → Option β → Prop
  | none, none => True
  | some a, some b => R a b
  | _, _ => False

/-- Relation lifted to lists: same length, related elementwise. -/
def LRel {α β : Type} (R : α → β → Prop) (l : List α) (l' : List β) : Prop :=
  ∀ i : Nat, ORel R l[i]? l'[i]?

/-- All circuits generated in fhevm/src/codegen. -/
def generatedCircuits : List BitCircuit :=
  Circuits.Lui.circuits ++ Circuits.Jalr.circuits ++ Circuits.Auipc.circuits ++
    Circuits.RamOffset.circuits ++ Circuits.PcUpdate.circuits

/-- A relation between two libraries preserved by every operation. -/
structure Sim (B B' : Backend) where
  G : B.Glwe → B'.Glwe → Prop
  U : B.Uint → B'.Uint → Prop
  P : B.Prep → B'.Prep → Prop
  Bt : B.GBit → B'.GBit → Prop
  logN : B.logN = B'.logN
  glweZero : G B.glweZero B'.glweZero
  add : ∀ {a a' b b'}, G a a' → G b b' → G (B.add a b) (B'.add a' b')
  sub : ∀ {a a' b b'}, G a a' → G b b' → G (B.sub a b) (B'.sub a' b')
  rotate : ∀ k {a a'}, G a a' → G (B.rotate k a) (B'.rotate k a')
  trace : ∀ {a a'}, G a a' → G (B.trace a) (B'.trace a')
  normalize : ∀ {a a'}, G a a' → G (B.normalize a) (B'.normalize a')
  blindRotate : ∀ {a a' p p'} sign rsh mask lsh, G a a' → P p p' →
    G (B.blindRotate a p sign rsh mask lsh) (B'.blindRotate a' p' sign rsh mask lsh)
  retrieve : ∀ {l l' p p'} offset, LRel G l l' → P p p' →
    G (B.retrieve l p offset) (B'.retrieve l' p' offset)
  retrieval : ∀ {l l' p p'} offset bits, LRel G l l' → P p p' →
    LRel G (B.retrieval l p offset bits) (B'.retrieval l' p' offset bits)
  retrievalRev : ∀ {l l' p p'} offset bits, LRel G l l' → P p p' →
    LRel G (B.retrievalRev l p offset bits) (B'.retrievalRev l' p' offset bits)
  uzero : U B.uzero B'.uzero
  pack : ∀ {l l'}, LRel G l l' → U (B.pack l) (B'.pack l')
  getBit : ∀ {u u'} i, U u u' → G (B.getBit u i) (B'.getBit u' i)
  pzero : P B.pzero B'.pzero
  gbit : ∀ {p p'} i, P p p' → Bt (B.gbit p i) (B'.gbit p' i)
  gzero : Bt B.gzero B'.gzero
  bootstrap : ∀ {u u'} i, U u u' → Bt (B.bootstrap u i) (B'.bootstrap u' i)
  ofBits : ∀ {l l'}, LRel Bt l l' → P (B.ofBits l) (B'.ofBits l')
  prepareCustom : ∀ {u u'} start count, U u u' →
    P (B.prepareCustom u start count) (B'.prepareCustom u' start count)
  bin : ∀ {p p' q q'} op, P p p' → P q q' → U (B.bin op p q) (B'.bin op p' q')
  bdd : ∀ c ∈ generatedCircuits, ∀ {f f'}, (∀ i, Bt (f i) (f' i)) → ORel G (B.bdd c f) (B'.bdd c f')
  identity : ∀ {p p'}, P p p' → U (B.identity p) (B'.identity p')
  select : ∀ {m m' p p'} start bits, LRel (fun x x' => x.1 = x'.1 ∧ U x.2 x'.2) m m' → P p p' →
    U (B.select m p start bits) (B'.select m' p' start bits)
  zeroByte : ∀ {u u'} i, U u u' → U (B.zeroByte u i) (B'.zeroByte u' i)
  sextByte : ∀ {u u'} i, U u u' → U (B.sextByte u i) (B'.sextByte u' i)
  spliceU8 : ∀ {u u' v v'} dst src, U u u' → U v v' →
    U (B.spliceU8 dst src u v) (B'.spliceU8 dst src u' v')
  spliceU16 : ∀ {u u' v v'} dst src, U u u' → U v v' →
    U (B.spliceU16 dst src u v) (B'.spliceU16 dst src u' v')

/-- A homomorphic library with correct operations, together with its secret-key encryption and
decryption. -/
structure Fhe where
  B : Backend
  lib : Lib (2 ^ B.logN)
  sim : Sim B (plain B.logN lib)
  /-- encryption of polynomials (memory contents) -/
  C : Cipher B
  enc_sim : ∀ r p, sim.G (C.enc r p) p
  dec_sim : ∀ ct p, sim.G ct p → C.dec ct = p
  /-- encryption and decryption of words -/
  RandU : Type
  encU : RandU → BitVec 32 → B.Uint
  encU_sim : ∀ r w, sim.U (encU r w) w
  decU : B.Uint → BitVec 32
  decU_sim : ∀ u w, sim.U u w → decU u = w
  /-- decryption of prepared words -/
  decP : B.Prep → BitVec 32
  decP_sim : ∀ p w, sim.P p w → decP p = w

/-- `p` is a correct prepared encryption of `w`. -/
def Fhe.Prepares (F : Fhe) (p : F.B.Prep) (w : BitVec 32) : Prop := F.sim.P p w
/-- `u` is a correct encryption of `w`. -/
def Fhe.Encrypts (F : Fhe) (u : F.B.Uint) (w : BitVec 32) : Prop := F.sim.U u w

end Verif.Model
