/-
  Vocabulary for noise measurements.
-/
namespace Verif.Spec

/-- Modulo `4 * delta`, `c` is at most `ν` away from `x`. -/
def Near (delta : Nat) (c x : Int) (ν : Nat) : Prop :=
  ∃ e z : Int, e.natAbs ≤ ν ∧ c = x + e + 4 * delta * z

/-- Bit `i` of word `a` (0 beyond the end). -/
def bitAt (data : List (BitVec 32)) (i a : Nat) : Nat := (((data[a]?).getD 0#32).getLsbD i).toNat

/-- What coefficient `k` of polynomial `j` is compared with by a report: the stored word as far as the memory
goes; beyond, the word at the same place of the previous polynomial; in the first one, the scratch. -/
def compared (n size : Nat) (data : List (BitVec 32)) (i : Nat) (stale : Nat → Int) (j k : Nat) : Int :=
  if j * n + k < size then bitAt data i (j * n + k)
  else if j = 0 then stale k
  else bitAt data i ((j - 1) * n + k)

end Verif.Spec
