import Verif.Model.Segments
import Verif.Spec.Layout
import Verif.Spec.ElfWrite
/-
  The file lld writes for a guest: its segment table, and the contents of the sections at the places the table says.
-/
namespace Verif.Spec
open Model Model.Link Spec.ElfFile

/-- `k` describes the input sections of `g`. -/
structure Kinds.Of (k : Kinds) (g : Guest) : Prop where
  inp : k.inp = none ↔ g.inp = []
  out : k.out = none ↔ g.out = []
  rodata : k.rodata = none ↔ g.rodata = []
  data : k.data = none ↔ g.data = []

/-- The byte at an address: that of the section there, otherwise zero. -/
def imageOf (l : Layout) (c : Contents) (a : Nat) : BitVec 8 :=
  (((c.ram l).find? fun x => x.1.addr ≤ a ∧ a < x.1.addr + x.1.size).bind fun x => x.2[a - x.1.addr]?).getD 0#8

/-- A file written by lld: a page with the headers, the code, the segments in RAM, then the rest. -/
structure LldFile (e : Elf) (l : Layout) (k : Kinds) (c : Contents) : Prop where
  table : e.segments = Link.segments l k
  bytes : ∃ head rest, head.length = 4096 ∧
    e.bytes = head ++ (c.text ++ (body (imageOf l c) (4096 + l.text.size) (groups (ramOut l k)) ++ rest))
  inp : e.sectionByName ".inpdata" = if k.inp = none then none else some ⟨l.inp.addr, l.inp.size⟩
  out : e.sectionByName ".outdata" = if k.out = none then none else some ⟨l.out.addr, l.out.size⟩

/-- Such a file: nothing in the page with the headers, nothing behind the segments. -/
def lldElf (l : Layout) (k : Kinds) (c : Contents) : Elf :=
  { bytes := List.replicate 4096 0#8 ++ (c.text ++ body (imageOf l c) (4096 + l.text.size) (groups (ramOut l k)))
    segments := Link.segments l k
    sections := (if k.inp = none then [] else [(".inpdata", ⟨l.inp.addr, l.inp.size⟩)]) ++
      (if k.out = none then [] else [(".outdata", ⟨l.out.addr, l.out.size⟩)]) }

end Verif.Spec
