import Verif.Model.Select
import Verif.Spec.Layout
/-
  What one expects of the choice of sections.
-/
namespace Verif.Spec
open Model Model.Link

/-- `n` is `b`, or `b` followed by a dot and anything. -/
def Family (b n : String) : Prop := n = b ∨ ∃ t, n.toList = b.toList ++ '.' :: t

/-- The names a description of the linker script is for. -/
def Named (n : String) : Part → Prop
  | .init => n = ".init"
  | .initRust => n = ".init.rust"
  | .text => Family ".text" n
  | .inp => n = ".inpdata"
  | .out => n = ".outdata"
  | .srodata => Family ".srodata" n
  | .rodata => Family ".rodata" n
  | .sdata => Family ".sdata" n ∨ Family ".sdata2" n
  | .data => Family ".data" n
  | .bss => Family ".sbss" n ∨ Family ".bss" n
  | .got => Family ".got" n
  | .discard => Family ".comment" n ∨ Family ".debug" n ∨ Family ".eh_frame" n ∨ Family ".eh_frame_hdr" n ∨
      Family ".riscv.attributes" n

/-- Start-up code, the two tapes, and tables that must not be there. -/
def MustStay (n : String) : Prop :=
  n = ".init" ∨ n = ".init.rust" ∨ n = ".inpdata" ∨ n = ".outdata" ∨ Family ".got" n

/-- The sections reached from those that must stay and from the entry symbol. -/
inductive Needed (is : List InSec) : Nat → Prop
  | root {k : Nat} {s : InSec} : is[k]? = some s → MustStay s.name ∨ s.entry = true → Needed is k
  | ref {j k : Nat} {s : InSec} : Needed is j → is[j]? = some s → k ∈ s.refs → Needed is k

/-- Section `k` is in the program: with the collector only if it is needed. -/
def Stays (gc : Bool) (is : List InSec) (k : Nat) : Prop := gc = true → Needed is k

/-- The output section of a description. -/
def _root_.Verif.Model.Link.Layout.part (l : Layout) : Part → Option Sect
  | .init | .initRust | .text => some l.text
  | .inp => some l.inp
  | .out => some l.out
  | .srodata | .rodata => some l.rodata
  | .sdata | .data => some l.data
  | .bss => some l.bss
  | .got | .discard => none

/-- References go to sections of the input. -/
def InSecs.Closed (is : List InSec) : Prop := ∀ s ∈ is, ∀ k ∈ s.refs, k < is.length

end Verif.Spec
