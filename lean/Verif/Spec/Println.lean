import Verif.Model.Loader
import Verif.Spec.Isa
/-
  Guests that print.  `println` of the guest library (runtime/src/lib.rs:44-52) puts the address and the length of the text
  into a0 and a1 and executes ECALL.
-/
namespace Verif.Spec
open Model

/-- `ecall`. -/
def ecall : Word := 0x00000073#32

/-- `nop`, that is `addi x0, x0, 0`. -/
def nop : Word := encode (.opImm .addi 0#5 0#5 0#12)

/-- Opcode SYSTEM: ECALL, EBREAK, the CSR instructions and so `unimp`. -/
def isSystem (w : Word) : Prop := w.extractLsb' 0 7 = 0b1110011#7

instance (w : Word) : Decidable (isSystem w) := inferInstanceAs (Decidable (_ = _))

/-- A word with SYSTEM replaced by `nop`. -/
def silent (w : Word) : Word := if isSystem w then nop else w

/-- A loaded guest `q` is the loaded guest `p` with every system instruction of its code replaced by `nop`. -/
structure Silenced (p q : Phantom) : Prop where
  code : packWords q.bootRom.data = (packWords p.bootRom.data).map silent
  length : q.bootRom.data.length = p.bootRom.data.length
  romSize : q.bootRom.size = p.bootRom.size
  ram : q.bootRam = p.bootRam
  input : q.input = p.input
  output : q.output = p.output

end Verif.Spec
