import Verif.Spec.Isa
/-
  Specification: what an instruction asks of its environment (memory access, jump target), and when
  it goes beyond what an execution environment like the test VM supports.
-/
namespace Verif.Spec

/-- Memory access of an instruction: address and number of bytes. -/
def Instr.access (i : Instr) (s : Arch) : Option (Word × Nat) :=
  match i with
  | .load o _ rs1 imm => some (s.x rs1 + immI imm, o.size)
  | .store o rs1 _ imm => some (s.x rs1 + immI imm, o.size)
  | _ => none

/-- Target of an instruction that transfers control; `none`: execution continues at the next word. -/
def Instr.jumpsTo (i : Instr) (s : Arch) : Option Word :=
  match i with
  | .jal _ imm => some (s.pc + immJ imm)
  | .jalr _ rs1 imm => some ((s.x rs1 + immI imm) &&& ~~~1#32)
  | .branch o rs1 rs2 imm => if o.taken (s.x rs1) (s.x rs2) then some (s.pc + immB imm) else none
  | _ => none

/-- The access lies in the window of `size` bytes at `base`. -/
def Instr.inWindow (i : Instr) (s : Arch) (base size : Nat) : Prop :=
  ∀ a n, i.access s = some (a, n) → base ≤ a.toNat ∧ a.toNat + n ≤ base + size

/-- The next instruction is the word after this one, but there is none. -/
def Instr.fallsOff (i : Instr) (s : Arch) : Prop := i.jumpsTo s = none ∧ 2 ^ 32 ≤ s.pc.toNat + 4

/-- A jump to an address which is not a multiple of four. -/
def Instr.badJump (i : Instr) (s : Arch) : Prop := ∃ t, i.jumpsTo s = some t ∧ t.toNat % 4 ≠ 0

/-- Quotient by zero or out of range. -/
def Instr.badDivision (i : Instr) (s : Arch) : Prop :=
  match i with
  | .mul .div _ rs1 rs2 => s.x rs2 = 0#32 ∨ (s.x rs1 = 0x80000000#32 ∧ s.x rs2 = 0xFFFFFFFF#32)
  | .mul .rem _ rs1 rs2 => s.x rs2 = 0#32 ∨ (s.x rs1 = 0x80000000#32 ∧ s.x rs2 = 0xFFFFFFFF#32)
  | .mul .divu _ _ rs2 => s.x rs2 = 0#32
  | .mul .remu _ _ rs2 => s.x rs2 = 0#32
  | _ => False

/-- Misaligned access, except for half-word stores within a word. -/
def Instr.badAlign (i : Instr) (s : Arch) : Prop :=
  match i with
  | .load o _ rs1 imm => (s.x rs1 + immI imm).toNat % o.size ≠ 0
  | .store .sh rs1 _ imm => (s.x rs1 + immI imm).toNat % 4 = 3
  | .store o rs1 _ imm => (s.x rs1 + immI imm).toNat % o.size ≠ 0
  | _ => False

/-- Access below the window. -/
def Instr.belowWindow (i : Instr) (s : Arch) (base : Nat) : Prop :=
  ∃ a n, i.access s = some (a, n) ∧ a.toNat < base

end Verif.Spec
