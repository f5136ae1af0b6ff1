import Verif.Model.Alloc
/-
  What one expects of a heap allocator, over the natural numbers.
-/
namespace Verif.Spec
open Model

/-- `x` is the least multiple of `a` that is at least `p`. -/
def RoundedUp (p a x : Nat) : Prop := a ∣ x ∧ p ≤ x ∧ x < p + a

/-- Two blocks share no byte. -/
def Block.Disjoint (a b : Block) : Prop :=
  ∀ n : Nat, ¬ (a.ptr.toNat ≤ n ∧ n < a.ptr.toNat + a.size.toNat ∧
    b.ptr.toNat ≤ n ∧ n < b.ptr.toNat + b.size.toNat)

/-- The block is aligned as the request asks. -/
def Block.Aligned (b : Block) (align : GSize) : Prop := align.toNat ∣ b.ptr.toNat

/-- Every request of the list has a power of two as its alignment (guaranteed by `Layout`). -/
def ValidLayouts (cs : List HeapCall) : Prop :=
  ∀ c ∈ cs, ∀ size align sp, c = .alloc size align sp → ∃ k, align.toNat = 2 ^ k

/-- The requests of a list of calls. -/
def requests (cs : List HeapCall) : List (GSize × GSize × GSize) :=
  cs.filterMap fun | .alloc s a sp => some (s, a, sp) | .dealloc .. => none

end Verif.Spec
