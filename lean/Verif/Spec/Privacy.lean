import Verif.Model.Interp
import Mathlib.Algebra.BigOperators.Field
import Mathlib.Algebra.Field.Rat
import Mathlib.Data.Fintype.BigOperators
/-
  Privacy of a set-up: what an observer of the ciphertexts can find out, as chances.  Randomness is drawn uniformly
  from a finite type.  A test is a function to the rational numbers; a yes-or-no test, possibly with coin tosses of
  its own, is one with values between 0 and 1, its value being its chance to say yes.
-/
namespace Verif.Spec
open Model

/-- The mean over a finite type. -/
def mean {R : Type} [Fintype R] (f : R → ℚ) : ℚ := (∑ r, f r) / Fintype.card R

/-- The ciphertexts of a set-up: seven program memories with `a` ciphertexts per bit and a RAM with `b`, of 32 bits
each. -/
abbrev Place (a b : Nat) := (Fin 7 × Fin 32 × Fin a) ⊕ (Fin 32 × Fin b)

/-- Randomness for the places, as the functions the model uses. -/
def spread {a b : Nat} {R : Type} (r0 : R) (w : Place a b → R) (c i j : Nat) : R :=
  if h : c < 7 ∧ i < 32 ∧ j < a then w (.inl (⟨c, h.1⟩, ⟨i, h.2.1⟩, ⟨j, h.2.2⟩))
  else if h : c = 7 ∧ i < 32 ∧ j < b then w (.inr (⟨i, h.2.1⟩, ⟨j, h.2.2⟩))
  else r0

/-- The places in some order. -/
noncomputable def order (a b : Nat) : Place a b ≃ Fin (Fintype.card (Place a b)) := Fintype.equivFin _

/-- The chance of a test on a set-up in which place `i` holds an encryption of `m i`. -/
def chance {ι R M G : Type} [Fintype ι] [DecidableEq ι] [Fintype R] (enc : R → M → G) (m : ι → M) (D : (ι → G) → ℚ) : ℚ :=
  mean fun w : ι → R => D fun i => enc (w i) (m i)

/-- From a test on all ciphertexts, a test on the one at `i`: the places before it get encryptions of `m'`, those after it
encryptions of `m`.  Whoever can encrypt can run it. -/
def only {ι R M G : Type} [Fintype ι] [DecidableEq ι] [Fintype R] {q : Nat} (e : ι ≃ Fin q) (enc : R → M → G) (m m' : ι → M)
    (D : (ι → G) → ℚ) (i : ι) (c : G) : ℚ :=
  mean fun w : ι → R => D fun j => if e j < e i then enc (w j) (m' j) else if j = i then c else enc (w j) (m j)

/-- How much a test on one ciphertext tells an encryption of `x` from one of `y`. -/
def gain {R M G : Type} [Fintype R] (enc : R → M → G) (x y : M) (T : G → ℚ) : ℚ :=
  mean (fun r => T (enc r x)) - mean (fun r => T (enc r y))

/-- The columns of a program in the order in which they are encrypted. -/
def column : Fin 7 → Decoded → BitVec 32
  | 0 => Decoded.rs1
  | 1 => Decoded.rs2
  | 2 => Decoded.rd
  | 3 => Decoded.imm
  | 4 => Decoded.rdu
  | 5 => Decoded.mu
  | 6 => Decoded.pcu

/-- Bit `i` of the words `j * n` to `j * n + n - 1` of a memory. -/
def slice (n size : Nat) (words : Nat → BitVec 32) (i j : Nat) : Coeffs n := fun k =>
  if j * n + k < size ∧ (words (j * n + k)).getLsbD i then 1#2 else 0#2

/-- What is encrypted at each place. -/
def content (n romSize ramSize : Nat) {a b : Nat} (ds : List Decoded) (data : List (BitVec 32)) : Place a b → Coeffs n
  | .inl (c, i, j) => slice n romSize (fun x => (ds[x]?).elim 0#32 (column c)) i j
  | .inr (i, j) => slice n ramSize (fun x => (data[x]?).getD 0#32) i j

/-- A memory made of given ciphertexts. -/
def memoryOf {B : Backend} (size : Nat) {a : Nat} (ct : Fin 32 → Fin a → B.Glwe) : Memory B where
  bits := List.ofFn fun i => { data := List.ofFn (ct i), bitSize := bitsFor size }
  size := size
  bitSize := bitsFor size
  state := false

/-- An interpreter made of given ciphertexts; everything else in it is public. -/
def assemble (B : Backend) (romSize ramSize threads : Nat) {a b : Nat} (ct : Place a b → B.Glwe) : Interp B :=
  let rom := fun c : Fin 7 => memoryOf romSize fun i j => ct (.inl (c, i, j))
  { cycle := 0#32, threads := threads, romSize := romSize, ramSize := ramSize
    romBits := bitsFor romSize, ramBits := bitsFor ramSize
    rs1Rom := rom 0, rs2Rom := rom 1, rdRom := rom 2, immRom := rom 3, rduRom := rom 4, muRom := rom 5, pcuRom := rom 6
    registers := memoryOf 32 fun (_ : Fin 32) (_ : Fin (divCeil 32 (2 ^ B.logN))) => B.glweZero
    ram := memoryOf ramSize fun i j => ct (.inr (i, j))
    pc := B.uzero, pcP := B.pzero }

end Verif.Spec
