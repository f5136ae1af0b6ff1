import Verif.Spec.Isa
/-
  Specification: executions of the manual's machine with a separate program memory.
-/
namespace Verif.Spec

/-- Executing `n` instructions, fetched with `fetch`, leads from `s` to `s'`; each instruction is
executed in a situation allowed by `ok`. -/
inductive Runs (fetch : Word → Option Instr) (ok : Instr → Arch → Prop) : Nat → Arch → Arch → Prop
  | zero (s : Arch) : Runs fetch ok 0 s s
  | succ {n : Nat} {i : Instr} {s s' : Arch} (hf : fetch s.pc = some i) (hok : ok i s)
      (hr : Runs fetch ok n (exec i s) s') : Runs fetch ok (n + 1) s s'

theorem Runs.mono {fetch fetch' : Word → Option Instr} {ok ok' : Instr → Arch → Prop} {n : Nat} {s s' : Arch}
    (hf : ∀ pc i, fetch pc = some i → fetch' pc = some i)
    (ho : ∀ i s, ok i s → ok' i s) (h : Runs fetch ok n s s') : Runs fetch' ok' n s s' := by
  induction h with
  | zero s => exact .zero s
  | succ h1 h2 _ ih => exact .succ (hf _ _ h1) (ho _ _ h2) ih

end Verif.Spec
