import Verif.Model.Link
import Verif.Model.Loader
/-
  Model of what lld writes for a guest linked with compiler/linker-script/default.x: which sections of the RAM share a
  load segment, and where in the file the segments are.  This is the behaviour of the linker, not code of the repository; it
  was compared with lld 22.1.4 (Lemmas/LinkVectors.lean and tools/gen_link_vectors.py).

  - An output section is writable if one of its input sections is.  `.rodata` and `.data` exist without input sections too
    (their descriptions contain symbols or `ALIGN`) and then are as writable as the section before; `.inpdata` and `.outdata`
    without input sections are dropped.
  - Neighbouring sections with equal flags share a segment, except `.bss`: it has no `AT> RAM` (default.x:65-70) and gets a
    segment of its own.
  - Segments without bytes are dropped.  A segment goes from the start of its first section to the end of its last one, and
    its position in the file is congruent to its address modulo the page size of 4096.

  Not modelled: the headers, the symbol table, sections the script does not name (lld puts them behind `.bss`).
-/
namespace Verif.Model.Link

/-- Whether the input sections of an output section are writable; `none` without input sections. -/
structure Kinds where
  inp : Option Bool
  out : Option Bool
  rodata : Option Bool
  data : Option Bool
  deriving DecidableEq

/-- An output section in RAM, as the grouping sees it. -/
structure OutSec where
  sect : Sect
  write : Bool
  nobits : Bool
  deriving DecidableEq

/-- The output sections in RAM: each a section, whether it is writable, and whether it is kept without input sections. -/
def outSecs (write : Bool) : List (Sect × Option Bool × Bool) → List OutSec
  | [] => []
  | (s, some w, _) :: r => ⟨s, w, false⟩ :: outSecs w r
  | (s, none, true) :: r => ⟨s, write, false⟩ :: outSecs write r
  | (_, none, false) :: r => outSecs write r

def ramOut (l : Layout) (k : Kinds) : List OutSec :=
  outSecs false [(l.inp, k.inp, false), (l.out, k.out, false), (l.rodata, k.rodata, true), (l.data, k.data, true)] ++
    [⟨l.bss, true, true⟩]

/-- A group of neighbouring sections. -/
structure Group where
  first : Sect
  last : Sect
  write : Bool
  nobits : Bool
  deriving DecidableEq

def Group.size (g : Group) : Nat := g.last.addr + g.last.size - g.first.addr

/-- A section in front of a list of groups. -/
def join (s : OutSec) : List Group → List Group
  | [] => [⟨s.sect, s.sect, s.write, s.nobits⟩]
  | g :: gs =>
    if g.write = s.write ∧ g.nobits = s.nobits then { g with first := s.sect } :: gs
    else ⟨s.sect, s.sect, s.write, s.nobits⟩ :: g :: gs

def groups (ss : List OutSec) : List Group := (ss.foldr join []).filter fun g => g.size ≠ 0

def PAGE : Nat := 4096

/-- The next position in the file congruent to an address modulo the page size. -/
def congruent (off addr : Nat) : Nat := off + (addr + (PAGE - off % PAGE)) % PAGE

/-- The load segments of the groups, the first one not before position `off`. -/
def phdrs (off : Nat) : List Group → List Phdr
  | [] => []
  | g :: gs =>
    let o := congruent off g.first.addr
    let file := if g.nobits then 0 else g.size
    { ptype := PT_LOAD, flags := if g.write then PF_R + PF_W else PF_R, offset := o, vaddr := g.first.addr
      filesz := file, memsz := g.size } :: phdrs (o + file) gs

/-- `PT_GNU_STACK`. -/
def stackPhdr : Phdr := ⟨0x6474E551, PF_R + PF_W, 0, 0, 0, 0⟩

/-- The segment table of a guest. -/
def segments (l : Layout) (k : Kinds) : List Phdr :=
  (if l.text.size = 0 then [] else [⟨PT_LOAD, PF_R + PF_X, PAGE, l.text.addr, l.text.size, l.text.size⟩]) ++
    phdrs (PAGE + l.text.size) (groups (ramOut l k)) ++ [stackPhdr]

/-- What the file has at the positions of the segments in RAM, from position `off`, when address `a` is to hold `img a`; the
gaps between the segments are zeros. -/
def body (img : Nat → BitVec 8) (off : Nat) : List Group → List (BitVec 8)
  | [] => []
  | g :: gs =>
    let o := congruent off g.first.addr
    let file := if g.nobits then 0 else g.size
    List.replicate (o - off) 0#8 ++ ((List.range file).map fun i => img (g.first.addr + i)) ++ body img (o + file) gs

end Verif.Model.Link
