/-
  Specification: a program built with and without the checks of the debug profile.
-/
namespace Verif.Spec

/-- `f true` is the program with the checks and `f false` the one without; no value is a panic.  Whatever the program with the checks
returns the other one returns too. -/
def Keeps {α : Type} (f : Bool → Option α) : Prop := ∀ a, f true = some a → f false = some a

end Verif.Spec
