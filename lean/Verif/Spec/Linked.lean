import Verif.Spec.Select
import Verif.Spec.Segments
import Verif.Spec.Start
import Verif.Spec.Boot
/-
  What one expects of a linked program as a whole: the bytes of the input sections at their addresses, and the state in which
  `_start_rust` is entered.
-/
namespace Verif.Spec
open Model Model.Link ElfFile

/-- The contents of the output section of a description. -/
def ElfFile.Contents.part (c : Contents) : Part → Option (List (BitVec 8))
  | .init | .initRust | .text => some c.text
  | .inp => some c.inp
  | .out => some c.out
  | .srodata | .rodata => some c.rodata
  | .sdata | .data => some c.data
  | .bss | .got | .discard => none

/-- The contents of the output sections have their sizes, and hold the bytes of the input sections (after relocation) at the
addresses of these.  What is in the gaps is left open. -/
def Holds (is : List InSec) (l : Layout) (pl : List (Nat × Nat)) (bytes : Nat → List (BitVec 8)) (c : Contents) : Prop :=
  c.Of l ∧ ∀ (k a : Nat) (s : InSec) (p : Part) (S : Sect) (d : List (BitVec 8)), (k, a) ∈ pl → is[k]? = some s → Named s.name p →
    l.part p = some S → c.part p = some d → ∀ i, i < s.piece.size → d[a - S.addr + i]? = (bytes k)[i]?

/-- The instruction whose machine word is in the program at an address: a multiple of four. -/
def FetchFrom (rom : List (BitVec 8)) (fetch : Word → Option Instr) : Prop :=
  ∀ pc i, fetch pc = some i ↔ pc.toNat % 4 = 0 ∧ i.plainBase ∧ InstrAt rom pc.toNat i

/-- The state in which `_start_rust` is entered: return address 32, stack pointer and frame pointer at the end of the RAM, the
global pointer where the layout has it, the other registers zero, the tape in its section and the rest of the memory as linked. -/
structure Entered (l : Layout) (c : Contents) (entry : Word) (tape : List (BitVec 8)) (s : Arch) : Prop where
  pc : s.pc = entry
  regs : ∀ r, s.x r = bootRegs 32#32 (BitVec.ofNat 32 l.gp) (BitVec.ofNat 32 l.stackStart) (fun _ => 0#32) r
  tape : ∀ i b, tape[i]? = some b → s.mem (BitVec.ofNat 32 (l.inp.addr + i)) = b
  rest : ∀ a : Word, ¬ l.inp.has a.toNat → s.mem a = imageOf l c a.toNat

end Verif.Spec
