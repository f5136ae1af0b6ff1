import Verif.Model.Keys
/-
  What one expects of a gadget decomposition.
-/
namespace Verif.Model

/-- The digits of a gadget fit in its precision. -/
def Gadget.Fits (g : Gadget) : Prop := 0 < g.dnum ∧ 0 < g.dsize ∧ g.dnum * g.dsize * g.base2k ≤ g.k

/-- The digits of a gadget cover an input of the given precision. -/
def Gadget.Covers (g : Gadget) (k : Nat) : Prop := k ≤ g.dnum * g.dsize * g.base2k

end Verif.Model
