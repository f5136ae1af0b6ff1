import Verif.Model.Symbols
import Verif.Spec.Select
/-
  What one expects of symbols.
-/
namespace Verif.Spec
open Model Model.Link

/-- Section `j` defines the symbol `n`. -/
def Defines (is : List SymSec) (j : Nat) (n : String) : Prop := ∃ t, is[j]? = some t ∧ n ∈ t.defs

/-- Section `k` mentions the symbol `n`. -/
def Mentions (is : List SymSec) (k : Nat) (n : String) : Prop := ∃ s, is[k]? = some s ∧ n ∈ s.refs

/-- No symbol has two definitions. -/
def OneDefinition (is : List SymSec) : Prop := (is.flatMap (·.defs)).Nodup

/-- The sections reached from those that must stay and from `_start`, by the names of symbols. -/
inductive Reached (is : List SymSec) : Nat → Prop
  | root {k : Nat} {s : SymSec} : is[k]? = some s → MustStay s.name ∨ "_start" ∈ s.defs → Reached is k
  | use {k j : Nat} {n : String} : Reached is k → Mentions is k n → Defines is j n → Reached is j

/-- The sections of a guest that consists of the runtime and a function with the attribute `#[entry]` (or without it), and of
whatever else. -/
def guestWith (rt : Nat) (f : FnItem) (arch : String) (mangle : String → String) (code : Piece) (refs : List String)
    (others : List SymSec) : List SymSec :=
  runtimeSecs rt ++ ⟨".text." ++ f.name, code, [symbolOf arch mangle f], refs⟩ :: others

end Verif.Spec
