import Verif.Spec.Env
/-
  Specification: what start-up code has to establish before the guest's entry point is called.
-/
namespace Verif.Spec

/-- Registers at the entry point: return address, stack pointer, global pointer and frame pointer set, all
others as before. -/
def bootRegs (ra gp sp : Word) (before : Reg → Word) (r : Reg) : Word :=
  if r = 1#5 then ra else if r = 2#5 ∨ r = 8#5 then sp else if r = 3#5 then gp else before r

/-- An instruction in the lowest kibibyte which accesses no memory, divides nothing and transfers control,
if at all, to a multiple of four. -/
def Instr.harmless (i : Instr) (s : Arch) : Prop :=
  i.access s = none ∧ (∀ t, i.jumpsTo s = some t → t.toNat % 4 = 0) ∧ s.pc.toNat < 1024 ∧
  (∀ o rd rs1 rs2, i ≠ .mul o rd rs1 rs2)

end Verif.Spec
