import Verif.Model.Sources
import Mathlib.Logic.Function.Iterate
/-
  Vocabulary for C67: at which state of the sources each ciphertext of the set-up is encrypted.
-/
namespace Verif.Model
variable {B : Backend} (K : Keyed B)

/-- Secret-key encryption and decryption under one key, in the form used by the other theorems. -/
def Keyed.cipher (sk : K.Sk) : Cipher B where
  Rand := K.Src × K.Src
  enc := fun s p => (K.enc sk p s).1
  dec := K.dec sk

/-- Decryption undoes encryption. -/
def Keyed.Correct : Prop := ∀ sk p s, K.dec sk (K.enc sk p s).1 = p

/-- What an encryption draws from the sources does not depend on the message or the key. -/
def Keyed.Steady (step : K.Src × K.Src → K.Src × K.Src) : Prop := ∀ sk p s, (K.enc sk p s).2 = step s

/-- Number of ciphertexts per bit of a memory. -/
def polys (B : Backend) (size : Nat) : Nat := divCeil size (2 ^ B.logN)

/-- The state of the two sources at ciphertext `j` of bit `i` of memory `c`: 0 to 6 are the columns
of the program in the order rs1, rs2, rd, imm, rdu, mu, pcu, and 7 is the RAM.  The evaluation keys
are drawn between the program and the RAM. -/
def Keyed.drawn (step : K.Src × K.Src → K.Src × K.Src) (romSize ramSize c i j : Nat) : K.Src × K.Src :=
  let start := (K.source setupSeed, K.source setupSeed)
  if c < 7 then step^[(c * 32 + i) * polys B romSize + j] start
  else step^[i * polys B ramSize + j]
    (K.evalKeys K.secrets.2 K.secrets.1 (step^[7 * 32 * polys B romSize] start)).2

/-- Ciphertext `j` of bit `i` of memory `c` exists. -/
def Drawn (B : Backend) (romSize ramSize c i j : Nat) : Prop :=
  c < 8 ∧ i < 32 ∧ j < polys B (if c < 7 then romSize else ramSize)

/-- Earlier in the order of the set-up. -/
def Earlier (c i j c' i' j' : Nat) : Prop := c < c' ∨ c = c' ∧ (i < i' ∨ i = i' ∧ j < j')

/-- `pos` counts what has been drawn from a source: every encryption draws something from both
sources, and the generation of the evaluation keys never goes back. -/
structure Keyed.Counts (step : K.Src × K.Src → K.Src × K.Src) (pos : K.Src → Nat) : Prop where
  mask : ∀ s, pos s.1 < pos (step s).1
  error : ∀ s, pos s.2 < pos (step s).2
  keysMask : ∀ skl sk s, pos s.1 ≤ pos (K.evalKeys skl sk s).2.1
  keysError : ∀ skl sk s, pos s.2 ≤ pos (K.evalKeys skl sk s).2.2

/-- Decryption of the RAM with a key made from constants: nothing secret is used. -/
def Keyed.anyoneRam (ramSize : Nat) (vm : Interp B) : Option (List (BitVec 32)) :=
  vm.decryptRam (K.cipher (K.genGlwe (K.source (List.replicate 32 0#8))).1) (List.replicate ramSize 0#32)

/-- The same for one column of the program. -/
def Keyed.anyoneColumn (romSize : Nat) (m : Memory B) : Option (List (BitVec 32)) :=
  m.decrypt (K.cipher (K.genGlwe (K.source (List.replicate 32 0#8))).1) (List.replicate romSize 0#32)

end Verif.Model
