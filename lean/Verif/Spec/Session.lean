import Verif.Spec.EveryTest
import Verif.Spec.Start
import Verif.Model.Session
/-
  Specification: calls on a machine one after the other.
-/
namespace Verif.Spec
open Model

/-- The state with the bytes `t` in the RAM from its byte `off`. -/
def Arch.withBytes (s : Arch) (off : Nat) (t : List Byte) : Arch :=
  { s with mem := fun a => if ramBase + off ≤ a.toNat ∧ a.toNat < ramBase + off + t.length then t.getD (a.toNat - (ramBase + off)) 0#8
                           else s.mem a }

/-- A tape of the right length replaces the input section and nothing else; `run` is one step and `execute` is `n` steps from where the
machine is; `output` returns the output section.  Sections are given by their first byte in the RAM and their size. -/
inductive Session (fetch : Word → Option Instr) (ok : Instr → Arch → Prop) (step : Instr → Arch → Arch) (n inOff inSize outOff outSize : Nat) :
    List VmCall → Arch → Arch → List (List Byte) → Prop
  | nil (s : Arch) : Session fetch ok step n inOff inSize outOff outSize [] s s []
  | tape {t : List Byte} {cs : List VmCall} {s s' : Arch} {o : List (List Byte)} (hl : t.length = inSize)
      (h : Session fetch ok step n inOff inSize outOff outSize cs (s.withBytes inOff t) s' o) :
      Session fetch ok step n inOff inSize outOff outSize (.tape t :: cs) s s' o
  | run {cs : List VmCall} {s u s' : Arch} {o : List (List Byte)} (hr : RunsIf fetch ok step 1 s u)
      (h : Session fetch ok step n inOff inSize outOff outSize cs u s' o) :
      Session fetch ok step n inOff inSize outOff outSize (.run :: cs) s s' o
  | execute {cs : List VmCall} {s u s' : Arch} {o : List (List Byte)} (hr : RunsIf fetch ok step n s u)
      (h : Session fetch ok step n inOff inSize outOff outSize cs u s' o) :
      Session fetch ok step n inOff inSize outOff outSize (.execute :: cs) s s' o
  | output {cs : List VmCall} {s s' : Arch} {o : List (List Byte)}
      (h : Session fetch ok step n inOff inSize outOff outSize cs s s' o) :
      Session fetch ok step n inOff inSize outOff outSize (.output :: cs) s s' (ramBytes s outOff outSize :: o)

/-- `x` once for every `output` among the calls. -/
def answers (x : List Byte) (cs : List VmCall) : List (List Byte) :=
  cs.filterMap fun c => match c with
    | .output => some x
    | _ => none

end Verif.Spec
