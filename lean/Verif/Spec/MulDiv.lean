import Verif.Model.Loader
import Verif.Spec.Isa
/-
  Multiplications and divisions (RV32M) under encryption.
-/
namespace Verif.Spec
open Model

/-- What an encrypted cycle writes for a multiplication or division: the low five bits of its operation id, 29 to 36, are
those of no operation (29 to 31), NONE, LUI, AUIPC, ADDI and SLTI, here with immediate 0.  `x` is the value of rs1. -/
def encMulDiv (o : MulOp) (pc x : Word) : Word :=
  match o with
  | .mul | .mulh | .mulhsu | .mulhu | .div => 0#32
  | .divu => pc
  | .rem => x
  | .remu => if x.toInt < 0 then 1#32 else 0#32

/-- The RV32I instruction with that effect. -/
def softOf (o : MulOp) (rd rs1 : Reg) : Instr :=
  match o with
  | .mul | .mulh | .mulhsu | .mulhu | .div => .opImm .addi rd 0#5 0#12
  | .divu => .auipc rd 0#20
  | .rem => .opImm .addi rd rs1 0#12
  | .remu => .opImm .slti rd rs1 0#12

/-- A word of the M extension. -/
def isMulDiv (w : Word) : Prop := w.extractLsb' 0 7 = 0b0110011#7 ∧ w.extractLsb' 25 7 = 1#7

instance (w : Word) : Decidable (isMulDiv w) := inferInstanceAs (Decidable (_ ∧ _))

def mulOp (f3 : BitVec 3) : MulOp :=
  match f3.toNat with
  | 0 => .mul | 1 => .mulh | 2 => .mulhsu | 3 => .mulhu | 4 => .div | 5 => .divu | 6 => .rem | _ => .remu

/-- A word with a multiplication or division replaced. -/
def soft (w : Word) : Word :=
  if isMulDiv w then encode (softOf (mulOp (w.extractLsb' 12 3)) (w.extractLsb' 7 5) (w.extractLsb' 15 5)) else w

/-- A loaded guest `q` is the loaded guest `p` with every multiplication and division of its code replaced. -/
structure Softened (p q : Phantom) : Prop where
  code : packWords q.bootRom.data = (packWords p.bootRom.data).map soft
  length : q.bootRom.data.length = p.bootRom.data.length
  romSize : q.bootRom.size = p.bootRom.size
  ram : q.bootRam = p.bootRam
  input : q.input = p.input
  output : q.output = p.output

end Verif.Spec
