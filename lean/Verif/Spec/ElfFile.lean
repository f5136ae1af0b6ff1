import Verif.Model.ElfBytes
/-
  The ELF format (System V ABI, chapter 4; ELF-64 Object File Format), as tables of positions: which bytes of a file hold
  which number.  Written without the parser; `Class`, `Phdr`, `Shdr` are only records of numbers.
-/
namespace Verif.Spec.ElfFile
open Model Model.ElfBytes

/-- The little-endian number in `n` bytes at a position. -/
def num (bs : List (BitVec 8)) (pos : Nat) : Nat → Nat
  | 0 => 0
  | n + 1 => (bs[pos]?.getD 0#8).toNat + 256 * num bs (pos + 1) n

/-- Positions, with numbers of bytes, of the fields of the file header. -/
structure HeaderAt where
  phoff : Nat × Nat
  shoff : Nat × Nat
  phentsize : Nat × Nat
  phnum : Nat × Nat
  shentsize : Nat × Nat
  shnum : Nat × Nat
  shstrndx : Nat × Nat
  total : Nat

/-- `Elf32_Ehdr`, `Elf64_Ehdr`. -/
def headerAt : Class → HeaderAt
  | .elf32 => ⟨(28, 4), (32, 4), (42, 2), (44, 2), (46, 2), (48, 2), (50, 2), 52⟩
  | .elf64 => ⟨(32, 8), (40, 8), (54, 2), (56, 2), (58, 2), (60, 2), (62, 2), 64⟩

/-- `Elf32_Phdr`, `Elf64_Phdr` at a position. -/
def phdrAt (c : Class) (bs : List (BitVec 8)) (p : Nat) : Phdr :=
  match c with
  | .elf32 => { ptype := num bs p 4, offset := num bs (p + 4) 4, vaddr := num bs (p + 8) 4, filesz := num bs (p + 16) 4
                memsz := num bs (p + 20) 4, flags := num bs (p + 24) 4 }
  | .elf64 => { ptype := num bs p 4, flags := num bs (p + 4) 4, offset := num bs (p + 8) 8, vaddr := num bs (p + 16) 8
                filesz := num bs (p + 32) 8, memsz := num bs (p + 40) 8 }

/-- `Elf32_Shdr`, `Elf64_Shdr` at a position. -/
def shdrAt (c : Class) (bs : List (BitVec 8)) (p : Nat) : Shdr :=
  match c with
  | .elf32 => { name := num bs p 4, addr := num bs (p + 12) 4, offset := num bs (p + 16) 4, size := num bs (p + 20) 4
                link := num bs (p + 24) 4, info := num bs (p + 28) 4 }
  | .elf64 => { name := num bs p 4, addr := num bs (p + 16) 8, offset := num bs (p + 24) 8, size := num bs (p + 32) 8
                link := num bs (p + 40) 4, info := num bs (p + 44) 4 }

/-- Sizes of the entries of the two tables. -/
def phdrBytes : Class → Nat
  | .elf32 => 32
  | .elf64 => 56

def shdrBytes : Class → Nat
  | .elf32 => 40
  | .elf64 => 64

section
variable (c : Class) (bs : List (BitVec 8))

/-- A field of the file header. -/
def field (f : HeaderAt → Nat × Nat) : Nat := num bs (f (headerAt c)).1 (f (headerAt c)).2

/-- Number of section headers: in the first one, if there are too many for the header. -/
def sectionCount : Nat :=
  if field c bs (·.shoff) = 0 then 0
  else if field c bs (·.shnum) = 0 then (shdrAt c bs (field c bs (·.shoff))).size
  else field c bs (·.shnum)

/-- Number of program headers, likewise. -/
def segmentCount : Nat :=
  if field c bs (·.phnum) = 0xFFFF then (shdrAt c bs (field c bs (·.shoff))).info else field c bs (·.phnum)

/-- The section and program headers by index. -/
def sectionAt (i : Nat) : Shdr := shdrAt c bs (field c bs (·.shoff) + shdrBytes c * i)
def segmentAt (i : Nat) : Phdr := phdrAt c bs (field c bs (·.phoff) + phdrBytes c * i)

/-- A little-endian file of the class whose two tables are inside it; section headers are optional. -/
structure WellFormed : Prop where
  magic : bs.take 4 = [0x7F#8, 0x45#8, 0x4C#8, 0x46#8]
  cls : bs[4]? = some (match c with | .elf32 => 1#8 | .elf64 => 2#8)
  order : bs[5]? = some 1#8
  version : bs[6]? = some 1#8
  header : (headerAt c).total ≤ bs.length
  segments : field c bs (·.phoff) ≠ 0
  segmentSize : field c bs (·.phentsize) = phdrBytes c
  segmentsInside : field c bs (·.phoff) + phdrBytes c * segmentCount c bs ≤ bs.length
  sections : field c bs (·.shoff) ≠ 0 → field c bs (·.shentsize) = shdrBytes c ∧
    field c bs (·.shoff) + shdrBytes c * sectionCount c bs ≤ bs.length
  /-- the entry that holds a count is in the file -/
  first : field c bs (·.phnum) = 0xFFFF ∨ (field c bs (·.shoff) ≠ 0 ∧ field c bs (·.shnum) = 0) →
    field c bs (·.shoff) + shdrBytes c ≤ bs.length

/-- Index of the section with the names. -/
def namesIndex : Nat :=
  if field c bs (·.shstrndx) = 0xFFFF then (sectionAt c bs 0).link else field c bs (·.shstrndx)

/-- Section `i` has the given name: its bytes and a zero, inside the section with the names, which is inside the file. -/
structure HasName (i : Nat) (name : List (BitVec 8)) : Prop where
  index : i < sectionCount c bs
  table : field c bs (·.shstrndx) ≠ 0 ∧ namesIndex c bs < sectionCount c bs
  inside : (sectionAt c bs (namesIndex c bs)).offset + (sectionAt c bs (namesIndex c bs)).size ≤ bs.length
  room : (sectionAt c bs i).name + name.length < (sectionAt c bs (namesIndex c bs)).size
  text : ∀ (k : Nat) b, (name ++ [0#8])[k]? = some b →
    bs[(sectionAt c bs (namesIndex c bs)).offset + (sectionAt c bs i).name + k]? = some b

/-- The first section of that name and its address and size. -/
def Finds (name : List (BitVec 8)) (t : TapeInfo) : Prop :=
  ∃ i, HasName c bs i name ∧ (∀ j, j < i → ¬ HasName c bs j name) ∧ t = ⟨(sectionAt c bs i).addr, (sectionAt c bs i).size⟩

end

/-- A section name in ASCII. -/
def ascii (s : String) : List (BitVec 8) := s.toList.map fun ch => BitVec.ofNat 8 ch.toNat

end Verif.Spec.ElfFile
