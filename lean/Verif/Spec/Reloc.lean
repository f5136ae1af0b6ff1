import Verif.Model.Reloc
import Verif.Spec.Start
/-
  What one expects of relocation: addresses where the code and the data need them, everything else as it was.
-/
namespace Verif.Spec
open Model Model.Link

/-- A little-endian word in a list of bytes. -/
def LittleAt (b : List Byte) (o : Nat) (w : Word) : Prop := ∀ j, j < 4 → b[o + j]? = some (w.extractLsb' (8 * j) 8)

/-- The bytes a relocation may change: one instruction or word, and two instructions for a call. -/
def span (r : Rel) : Nat := if r.kind = .call then 8 else 4

/-- No two relocations are about the same byte. -/
def Apart (s : ObjSec) : Prop := s.rels.Pairwise fun r r' => r.off + span r ≤ r'.off ∨ r'.off + span r' ≤ r.off

/-- The symbol `n` has the address `v`: its section is in the program, or it is one of the three the linker script defines. -/
inductive SymbolAt (objs : List ObjSec) (l : Layout) (pl : List (Nat × Nat)) (n : String) : Word → Prop
  | obj {j a o : Nat} {s : ObjSec} : objs[j]? = some s → (n, o) ∈ s.defs → (j, a) ∈ pl → SymbolAt objs l pl n (BitVec.ofNat 32 (a + o))
  | stack : (∀ s ∈ objs, n ∉ s.defs.map (·.1)) → n = "_stack_start" → SymbolAt objs l pl n (BitVec.ofNat 32 l.stackStart)
  | gp : (∀ s ∈ objs, n ∉ s.defs.map (·.1)) → n = "__global_pointer$" → SymbolAt objs l pl n (BitVec.ofNat 32 l.gp)
  | fin : (∀ s ∈ objs, n ∉ s.defs.map (·.1)) → n = "_end" → SymbolAt objs l pl n (BitVec.ofNat 32 l.fin)

/-- What a relocation of a section at `a` refers to, symbols having the addresses `sym`. -/
def RefersTo (sym : String → Word → Prop) (a : Word) (r : Rel) (v : Word) : Prop :=
  match r.target with
  | .sym n => ∃ t, sym n t ∧ v = t + r.addend
  | .label o => v = a + BitVec.ofNat 32 o + r.addend

/-- What a relocation needs: its bytes, a target (for the second half of a PC-relative pair that of the first half), and for jumps
and branches an immediate that gets there. -/
def Possible (sym : String → Word → Prop) (a : Word) (s : ObjSec) (r : Rel) : Prop :=
  r.off + span r ≤ s.bytes.length ∧
  if r.kind = .pcrelLoI ∨ r.kind = .pcrelLoS then
    ∃ h ∈ s.rels, h.kind = .pcrelHi ∧ r.target = .label h.off ∧ ∃ v, RefersTo sym a h v
  else ∃ v, RefersTo sym a r v ∧ (r.kind = .branch → ∃ f, a + BitVec.ofNat 32 r.off + immB f = v) ∧
    (r.kind = .jal → ∃ f, a + BitVec.ofNat 32 r.off + immJ f = v)

/-- LUI and AUIPC with another immediate. -/
def Instr.withUpper (h : BitVec 20) : Instr → Option Instr
  | .lui rd _ => some (.lui rd h)
  | .auipc rd _ => some (.auipc rd h)
  | _ => none

/-- Instructions with a register and a 12-bit immediate (operations, loads, JALR), with another immediate. -/
def Instr.withLow (l : BitVec 12) : Instr → Option Instr
  | .opImm o rd rs _ => some (.opImm o rd rs l)
  | .load o rd rs _ => some (.load o rd rs l)
  | .jalr rd rs _ => some (.jalr rd rs l)
  | _ => none

/-- Stores with another immediate. -/
def Instr.withStore (l : BitVec 12) : Instr → Option Instr
  | .store o rs1 rs2 _ => some (.store o rs1 rs2 l)
  | _ => none

end Verif.Spec
