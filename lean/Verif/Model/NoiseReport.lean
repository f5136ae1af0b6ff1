import Verif.Model.Memory
/-
  What the debug mode reports as noise of a memory, fhevm/src/memory.rs:110-138 and 510-540, printed by
  `cycle_debug` (fhevm/src/interpreter.rs:1225-1237, 1363-1373).

  The library's `GLWE::noise` decrypts, subtracts the given plaintext and returns statistics of the
  coefficients; `.max()` is the largest absolute value.  A coefficient is an integer modulo `4 * delta`
  (messages have precision 2), represented between `-2 * delta` and `2 * delta`.

  Simplifications: the value before `log2` (which is monotone); the initial `f64::MIN` is 0.
-/
namespace Verif.Model

/-- Largest element. -/
def largest : List Nat → Nat
  | [] => 0
  | x :: xs => max x (largest xs)

/-- A coefficient that should be `x`, modulo `4 * delta`: its distance. -/
def coeffNoise (delta : Nat) (c x : Int) : Nat := (Int.bmod (c - x) (4 * delta)).natAbs

/-- `ct.noise(module, &mut pt, sk, scratch).max()`, memory.rs:533-534, for the plaintext encoded from `buf`
by `encode_vec_i64(&data_i64, TorusPrecision(2))`. -/
def glweNoise {n : Nat} (delta : Nat) (phase : Fin n → Int) (buf : Fin n → Int) : Nat :=
  largest ((List.finRange n).map fun k => coeffNoise delta (phase k) (delta * buf k))

/-- memory.rs:528-530: the buffer is overwritten as far as the chunk goes (and not cleared before). -/
def fillBuffer {n : Nat} (buf : Fin n → Int) (chunk : List (BitVec 2)) : Fin n → Int := fun k =>
  match chunk[k.val]? with
  | some x => x.toNat
  | none => buf k

/-- `data.chunks(n)`. -/
def chunksOf {α : Type} (n : Nat) (l : List α) : List (List α) :=
  (List.range (divCeil l.length n)).map fun j => (l.drop (j * n)).take n

/-- The loop of `BitArray::noise`, memory.rs:527-537. -/
def noiseLoop {n : Nat} {G : Type} (delta : Nat) (phase : G → Fin n → Int) :
    (Fin n → Int) → List (List (BitVec 2)) → List G → Nat → Nat
  | buf, c :: cs, ct :: cts, m =>
    let buf := fillBuffer buf c
    noiseLoop delta phase buf cs cts (max m (glweNoise delta (phase ct) buf))
  | _, _, _, m => m

variable {B : Backend}

/-- `BitArray::noise`, memory.rs:510-540.  `stale` is what the scratch slice `data_i64` holds when it is
taken. -/
def BitArray.noise (delta : Nat) (phase : B.Glwe → Fin (2 ^ B.logN) → Int) (stale : Fin (2 ^ B.logN) → Int)
    (b : BitArray B) (bits : List (BitVec 2)) : Nat :=
  noiseLoop delta phase stale (chunksOf (2 ^ B.logN) bits) b.data 0

/-- `Memory::noise`, memory.rs:110-138. -/
def Memory.noise (delta : Nat) (phase : B.Glwe → Fin (2 ^ B.logN) → Int)
    (stale : Nat → Fin (2 ^ B.logN) → Int) (m : Memory B) (data : List (BitVec 32)) : Option (List Nat) :=
  if m.bits.length = 0 then none
  else if data.length / m.bits.length ≤ m.size then
    some (m.bits.mapIdx fun i b => b.noise delta phase (stale i) (bitBuffer m.size data i))
  else none

end Verif.Model
