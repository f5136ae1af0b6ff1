import Verif.Spec.AllInstr
/-
  Specification: what a word of the program is executed as under encryption, whichever word it is.
-/
namespace Verif.Spec

/-- The instruction that is executed for a word: its own if it is one of RV32IM; SLLI whatever the upper seven bits; JALR whatever
`funct3`; and for every SYSTEM word the instruction that does nothing. -/
inductive ReadsAs : Word → Instr → Prop
  | own (i : Instr) : ReadsAs (encode i) i
  | slli (f7 : BitVec 7) (sh : BitVec 5) (rs1 rd : Reg) : ReadsAs (rType f7 sh rs1 0b001#3 rd 0b0010011#7) (.shImm .slli rd rs1 sh)
  | jalr (imm : BitVec 12) (rs1 : Reg) (f3 : BitVec 3) (rd : Reg) : ReadsAs (iType imm rs1 f3 rd 0b1100111#7) (.jalr rd rs1 imm)
  | system (w : Word) (h : w.extractLsb' 0 7 = 0b1110011#7) : ReadsAs w (.opImm .addi 0#5 0#5 0#12)

/-- The four bytes of a word, lowest first. -/
def CodeWord (rom : List Byte) (a : Nat) (w : Word) : Prop := ∀ j, j < 4 → rom[a + j]? = some (w.extractLsb' (8 * j) 8)

/-- What is executed at a program counter, which is taken modulo `2 ^ bits` and rounded down to a word. -/
def FetchWord (rom : List Byte) (bits : Nat) (fetch : Word → Option Instr) : Prop :=
  ∀ pc i, fetch pc = some i ↔ ∃ w, CodeWord rom (4 * (pc.toNat % 2 ^ bits / 4)) w ∧ ReadsAs w i

end Verif.Spec
