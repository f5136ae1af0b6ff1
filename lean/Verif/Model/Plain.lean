import Verif.Model.Memory
/-
  The plaintext instance of the homomorphic library: the contract assumed of poulpy, operation by
  operation, on plaintext values.  What the VM must not rely on is left arbitrary (`Lib`).
-/
namespace Verif.Model

/-- Network of conditional swaps behind the stateful retrieval: some rearrangement of the list that
brings element `idx` to the front, and its inverse. -/
structure Net (α : Type) where
  fwd : (bits idx : Nat) → List α → List α
  rev : (bits idx : Nat) → List α → List α
  length_fwd : ∀ bits idx l, (fwd bits idx l).length = l.length
  front : ∀ bits idx l, idx < l.length → idx < 2 ^ bits → (fwd bits idx l)[0]? = l[idx]?
  back : ∀ bits idx l v, idx < l.length → idx < 2 ^ bits →
    rev bits idx ((fwd bits idx l).set 0 v) = l.set idx v

/-- Unspecified aspects of the library. -/
structure Lib (n : Nat) where
  net : Net (Coeffs n)
  /-- result of the retriever on an index beyond the data -/
  oob : List (Coeffs n) → Nat → Coeffs n
  /-- how a packed coefficient is interpreted as a bit -/
  bitOf : BitVec 2 → Bool
  bitOf_zero : bitOf 0#2 = false
  bitOf_one : bitOf 1#2 = true
  /-- previous contents of the circuit evaluator's buffers -/
  stale0 : Nat → Bool
  stale1 : Nat → Bool

/-- Coefficient at any integer exponent, modulo `X^n + 1`. -/
def ext {n : Nat} (p : Coeffs n) (z : Int) : BitVec 2 :=
  if h : (z % (2 * n)).toNat < n then p ⟨(z % (2 * n)).toNat, h⟩
  else if h' : (z % (2 * n)).toNat - n < n then -(p ⟨(z % (2 * n)).toNat - n, h'⟩)
  else 0#2

/-- Multiplication by `X^k` in the negacyclic ring. -/
def polyRotate {n : Nat} (k : Int) (p : Coeffs n) : Coeffs n := fun i => ext p ((i.val : Int) - k)

/-- The polynomial with constant coefficient `c`. -/
def constPoly {n : Nat} (c : BitVec 2) : Coeffs n := fun i => if i.val = 0 then c else 0#2

def coeff0 {n : Nat} (p : Coeffs n) : BitVec 2 := if h : 0 < n then p ⟨0, h⟩ else 0#2

def BinOp.eval : BinOp → BitVec 32 → BitVec 32 → BitVec 32
  | .add, x, y => x + y
  | .sub, x, y => x - y
  | .sll, x, y => x <<< (y.toNat % 32)
  | .srl, x, y => x >>> (y.toNat % 32)
  | .sra, x, y => x.sshiftRight (y.toNat % 32)
  | .slt, x, y => if x.slt y then 1#32 else 0#32
  | .sltu, x, y => if x.ult y then 1#32 else 0#32
  | .and, x, y => x &&& y
  | .or, x, y => x ||| y
  | .xor, x, y => x ^^^ y

/-- Word with bit `i` equal to `f i` for `i < count`, 0 above. -/
def wordOf (f : Nat → Bool) : (count : Nat) → BitVec 32
  | 0 => 0#32
  | c + 1 => wordOf f c ||| ((BitVec.ofBool (f c)).setWidth 32 <<< c)

/-- Byte `i` of a word. -/
def byteAt (x : BitVec 32) (i : Nat) : BitVec 32 := (x >>> (8 * i)) &&& 0xFF#32

def spliceByte (dst src : Nat) (a b : BitVec 32) : BitVec 32 :=
  (a &&& ~~~(0xFF#32 <<< (8 * dst))) ||| (byteAt b src <<< (8 * dst))

def spliceHalf (dst src : Nat) (a b : BitVec 32) : BitVec 32 :=
  (a &&& ~~~(0xFFFF#32 <<< (16 * dst))) ||| (((b >>> (16 * src)) &&& 0xFFFF#32) <<< (16 * dst))

/-- Sign extension from the top bit of byte `i`. -/
def sextFromByte (x : BitVec 32) (i : Nat) : BitVec 32 :=
  if x.getLsbD (8 * i + 7) then x ||| ~~~(wordOf (fun _ => true) (8 * i + 8))
  else x &&& wordOf (fun _ => true) (8 * i + 8)

def lookupKey (m : List (Nat × BitVec 32)) (k : Nat) : BitVec 32 :=
  match m.find? fun p => p.1 == k with
  | some p => p.2
  | none => 0#32

variable (logN : Nat)

/-- The plaintext library. -/
@[reducible] def plain (L : Lib (2 ^ logN)) : Backend where
  Glwe := Coeffs (2 ^ logN)
  Uint := BitVec 32
  Prep := BitVec 32
  GBit := Bool
  logN := logN
  glweZero := fun _ => 0#2
  add p q := fun i => p i + q i
  sub p q := fun i => p i - q i
  rotate := polyRotate
  trace p := constPoly (coeff0 p)
  normalize p := p
  blindRotate p addr sign rsh mask lsh :=
    let k : Nat := addr.toNat / 2 ^ rsh % 2 ^ mask * 2 ^ lsh
    polyRotate (if sign then (k : Int) else -(k : Int)) p
  retrieve data addr offset :=
    (data[addr.toNat / 2 ^ offset]?).getD (L.oob data (addr.toNat / 2 ^ offset))
  retrieval data addr offset bits := L.net.fwd bits (addr.toNat / 2 ^ offset % 2 ^ bits) data
  retrievalRev data addr offset bits := L.net.rev bits (addr.toNat / 2 ^ offset % 2 ^ bits) data
  uzero := 0#32
  pack l := wordOf (fun i => (l[i]?).elim false fun p => L.bitOf (coeff0 p)) 32
  getBit u i := constPoly (bitCoeff u i)
  pzero := 0#32
  gbit p i := p.getLsbD i
  gzero := false
  bootstrap u i := u.getLsbD i
  ofBits l := wordOf (fun i => (l[i]?).getD false) 32
  prepareCustom u start count :=
    wordOf (fun i => if start ≤ i ∧ i < start + count then u.getLsbD i else false) 32
  bin := BinOp.eval
  bdd c bit := (c.run bit L.stale0 L.stale1).map fun b => constPoly (if b then 1#2 else 0#2)
  identity p := p
  select m sel start bits := lookupKey m (sel.toNat / 2 ^ start % 2 ^ bits)
  zeroByte u i := u &&& ~~~(0xFF#32 <<< (8 * i))
  sextByte := sextFromByte
  spliceU8 := spliceByte
  spliceU16 := spliceHalf

/-- Encryption is the identity on plaintexts. -/
@[reducible] def plainCipher (L : Lib (2 ^ logN)) : Cipher (plain logN L) where
  Rand := Unit
  enc _ p := p
  dec p := p

end Verif.Model
