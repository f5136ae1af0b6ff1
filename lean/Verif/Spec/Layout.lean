import Verif.Model.Link
import Verif.Spec.Image
/-
  What one expects of the memory layout of a guest.
-/
namespace Verif.Spec
open Model Model.Link

/-- Alignments are powers of two of at most 4096 (the RAM has 4096 bytes). -/
def Piece.Valid (p : Piece) : Prop := ∃ k, k ≤ 12 ∧ p.align = 2 ^ k

def Guest.Valid (g : Guest) : Prop :=
  ∀ p ∈ g.init ++ g.initRust ++ g.text ++ g.inp ++ g.out ++ g.rodata ++ g.data ++ g.bss, Piece.Valid p

/-- The RAM sections in order. -/
def _root_.Verif.Model.Link.Layout.ramSections (l : Layout) : List Sect :=
  [l.inp, l.out, l.rodata, l.data, l.bss]

/-- Address `a` is in the section. -/
def _root_.Verif.Model.Link.Sect.has (s : Sect) (a : Nat) : Prop := s.addr ≤ a ∧ a < s.addr + s.size

/-- Pieces at the given addresses: each aligned, inside the section, and before the following ones. -/
def PlacedIn (s : Sect) (ps : List Piece) (as : List Nat) : Prop :=
  as.length = ps.length ∧
  (∀ (i : Nat) (p : Piece) (a : Nat), ps[i]? = some p → as[i]? = some a → p.align ∣ a ∧ s.addr ≤ a ∧ a + p.size ≤ s.addr + s.size) ∧
  ∀ (i j : Nat) (p : Piece) (a b : Nat), i < j → ps[i]? = some p → as[i]? = some a → as[j]? = some b → a + p.size ≤ b

/-- The ELF file `e` is what a linker writes for the layout `l`: a load segment for `.text`, R and RW load
segments for the RAM in ascending order, within the sections, the first of them at the first section that is
not empty, all inside the file; the sections of the tapes by name.  How the RAM sections are grouped into
segments is left open. -/
structure LinkedAs (e : Elf) (l : Layout) : Prop where
  text : ∃ pre txt post, e.segments = pre ++ txt :: post ∧ (∀ q ∈ pre, ¬ q.isText) ∧ txt.isText ∧
    txt.vaddr = l.text.addr ∧ txt.memsz = l.text.size ∧ txt.filesz = l.text.size ∧
    txt.offset + txt.memsz ≤ e.bytes.length
  ram : ∀ q ∈ e.segments, q.isRam → (∃ s ∈ l.ramSections, s.addr ≤ q.vaddr) ∧ q.vaddr + q.memsz ≤ l.fin ∧
    q.filesz ≤ q.memsz ∧ q.offset + q.filesz ≤ e.bytes.length
  first : ∃ pre ph post, e.segments = pre ++ ph :: post ∧ (∀ q ∈ pre, ¬ q.isRam) ∧ ph.isRam ∧
    ∃ as s bs, l.ramSections = as ++ s :: bs ∧ (∀ t ∈ as, t.size = 0) ∧ 0 < s.size ∧ ph.vaddr = s.addr
  inp : e.sectionByName ".inpdata" = some ⟨l.inp.addr, l.inp.size⟩
  out : e.sectionByName ".outdata" = some ⟨l.out.addr, l.out.size⟩

end Verif.Spec
