import Verif.Spec.Isa
/-
  Specification: what a word of the program is executed as by the test VM, whichever word it is, and runs of a machine that may stop.
-/
namespace Verif.Spec

/-- The instruction that the test VM executes for a word: its own if it is one of RV32IM; SLLI whatever the upper seven bits; of the
upper seven bits of the other shifts by a constant only the one that tells SRAI from SRLI; of those of the register instructions only
the lowest, which tells multiplications and divisions from the others, and the one that tells SUB from ADD and SRA from SRL. -/
inductive TestReads : Word → Instr → Prop
  | own (i : Instr) : TestReads (encode i) i
  | slli (f7 : BitVec 7) (sh : BitVec 5) (rs1 rd : Reg) : TestReads (rType f7 sh rs1 0b001#3 rd 0b0010011#7) (.shImm .slli rd rs1 sh)
  | srli (f7 : BitVec 7) (sh : BitVec 5) (rs1 rd : Reg) (h : f7.getLsbD 5 = false) :
      TestReads (rType f7 sh rs1 0b101#3 rd 0b0010011#7) (.shImm .srli rd rs1 sh)
  | srai (f7 : BitVec 7) (sh : BitVec 5) (rs1 rd : Reg) (h : f7.getLsbD 5 = true) :
      TestReads (rType f7 sh rs1 0b101#3 rd 0b0010011#7) (.shImm .srai rd rs1 sh)
  | mul (o : MulOp) (f7 : BitVec 7) (rs2 rs1 rd : Reg) (h : f7.getLsbD 0 = true) :
      TestReads (rType f7 rs2 rs1 o.funct3 rd 0b0110011#7) (.mul o rd rs1 rs2)
  | op (o : RegOp) (f7 : BitVec 7) (rs2 rs1 rd : Reg) (h : f7.getLsbD 0 = false) (h5 : f7.getLsbD 5 = o.funct7.getLsbD 5) :
      TestReads (rType f7 rs2 rs1 o.funct3 rd 0b0110011#7) (.op o rd rs1 rs2)
  | opAny (o : RegOp) (f7 : BitVec 7) (rs2 rs1 rd : Reg) (h : f7.getLsbD 0 = false)
      (ho : o = .sll ∨ o = .slt ∨ o = .sltu ∨ o = .xor ∨ o = .or ∨ o = .and) :
      TestReads (rType f7 rs2 rs1 o.funct3 rd 0b0110011#7) (.op o rd rs1 rs2)

/-- The four bytes of a word, lowest first, of a program that repeats with its length as period. -/
def TestWord (rom : List Byte) (a : Nat) (w : Word) : Prop := ∀ j, j < 4 → rom[(a + j) % rom.length]? = some (w.extractLsb' (8 * j) 8)

/-- What the test VM executes at a program counter: nothing if it is not a multiple of four. -/
def FetchTest (rom : List Byte) (fetch : Word → Option Instr) : Prop :=
  ∀ pc i, fetch pc = some i ↔ pc.toNat % 4 = 0 ∧ ∃ w, TestWord rom pc.toNat w ∧ TestReads w i

/-- `n` steps of a machine with effects `step` that is stopped by an instruction which is not `ok`. -/
inductive RunsIf (fetch : Word → Option Instr) (ok : Instr → Arch → Prop) (step : Instr → Arch → Arch) : Nat → Arch → Arch → Prop
  | zero (s : Arch) : RunsIf fetch ok step 0 s s
  | succ {n : Nat} {i : Instr} {s s' : Arch} (hf : fetch s.pc = some i) (hok : ok i s)
      (hr : RunsIf fetch ok step n (step i s) s') : RunsIf fetch ok step (n + 1) s s'

end Verif.Spec
