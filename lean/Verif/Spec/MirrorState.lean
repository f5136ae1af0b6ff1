import Verif.Spec.Env
import Verif.Model.Debug
/-
  How a state of the plaintext mirror (and so of the encrypted VM, through `Spec.cycle`) is read as a
  state of the manual's machine, and which instructions the interpreter supports.
-/
namespace Verif.Model
open Spec

/-- First address of the RAM of the interpreter. -/
def _root_.Verif.Spec.ramBase : Nat := 0x40000

/-- 32 registers and a RAM within the 32-bit address space. -/
structure Debug.WF (d : Debug) : Prop where
  regs : d.registers.length = 32
  pos : 0 < d.ram.length
  top : ramBase + 4 * d.ram.length ≤ 2 ^ 32

/-- `d` has the registers, program counter and RAM contents of `s`; a RAM word holds four bytes,
least significant first. -/
structure Debug.Shows (d : Debug) (s : Arch) : Prop where
  pcEq : d.pc = s.pc
  reg : ∀ r : Reg, d.registers[r.toNat]? = some (s.x r)
  mem : ∀ k w, d.ram[k]? = some w → ∀ j, j < 4 →
    s.mem (BitVec.ofNat 32 (ramBase + 4 * k + j)) = w.extractLsb' (8 * j) 8

end Verif.Model

namespace Verif.Spec

/-- Instructions in the situations the interpreter supports: RV32I, loads of any width only at
addresses that are multiples of four, naturally aligned stores. -/
def Instr.supported (i : Instr) (s : Arch) : Prop :=
  match i with
  | .mul .. => False
  | .load _ _ rs1 imm => (s.x rs1 + immI imm).toNat % 4 = 0
  | .store o rs1 _ imm => (s.x rs1 + immI imm).toNat % o.size = 0
  | _ => True

/-- What the encrypted VM needs in addition: a signed byte load reads a byte below 128, and JAL
distances are signed 20-bit numbers. -/
def Instr.encSupported (i : Instr) (s : Arch) : Prop :=
  match i with
  | .load .lb _ rs1 imm => (s.mem (s.x rs1 + immI imm)).toNat < 128
  | .jal _ imm => -2 ^ 18 ≤ imm.toInt ∧ imm.toInt < 2 ^ 18
  | _ => True

end Verif.Spec
