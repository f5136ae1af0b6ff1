import Verif.Spec.ElfFile
import Verif.Spec.Layout
/-
  A writer of 32-bit little-endian ELF files, as the standard lays out its structures: header, program headers, section
  headers, names, contents.  It writes the fields of each structure one after the other, unlike `ElfFile`, which has
  tables of positions.
-/
namespace Verif.Spec.ElfFile
open Model Model.ElfBytes

/-- A load segment: flags, address, initialised bytes, size in memory. -/
structure Seg where
  flags : Nat
  vaddr : Nat
  data : List (BitVec 8)
  memsz : Nat

/-- A section. -/
structure Sec where
  name : String
  addr : Nat
  size : Nat

structure File where
  segs : List Seg
  secs : List Sec

/-- `n` bytes of a number, the lowest first. -/
def le : Nat → Nat → List (BitVec 8)
  | 0, _ => []
  | n + 1, v => BitVec.ofNat 8 v :: le n (v / 256)

/-- `Elf32_Phdr`: p_type, p_offset, p_vaddr, p_paddr, p_filesz, p_memsz, p_flags, p_align. -/
def encPhdr (p : Phdr) : List (BitVec 8) :=
  le 4 p.ptype ++ (le 4 p.offset ++ (le 4 p.vaddr ++ (le 4 p.vaddr ++ (le 4 p.filesz ++ (le 4 p.memsz ++
    (le 4 p.flags ++ le 4 4))))))

/-- `Elf32_Shdr`: sh_name, sh_type, sh_flags, sh_addr, sh_offset, sh_size, sh_link, sh_info, sh_addralign, sh_entsize. -/
def encShdr (type : Nat) (s : Shdr) : List (BitVec 8) :=
  le 4 s.name ++ (le 4 type ++ (le 4 0 ++ (le 4 s.addr ++ (le 4 s.offset ++ (le 4 s.size ++ (le 4 s.link ++
    (le 4 s.info ++ (le 4 4 ++ le 4 0))))))))

/-- A name with its zero. -/
def encName (s : String) : List (BitVec 8) := ascii s ++ [0#8]

/-- The program headers, the contents one after the other from an offset on. -/
def phdrsFrom : Nat → List Seg → List Phdr
  | _, [] => []
  | o, s :: ss =>
    { ptype := 1, flags := s.flags, offset := o, vaddr := s.vaddr, filesz := s.data.length, memsz := s.memsz }
      :: phdrsFrom (o + s.data.length) ss

/-- The section headers, their names one after the other from an offset on. -/
def shdrsFrom : Nat → List Sec → List Shdr
  | _, [] => []
  | o, s :: ss => { name := o, addr := s.addr, offset := 0, size := s.size, link := 0, info := 0 }
      :: shdrsFrom (o + (encName s.name).length) ss

/-- Names of the sections. -/
def File.names (f : File) : List (BitVec 8) := f.secs.flatMap fun s => encName s.name

/-- The section with the names. -/
def File.strtab (f : File) : List (BitVec 8) := 0#8 :: (f.names ++ encName ".shstrtab")

def File.shoff (f : File) : Nat := 52 + 32 * f.segs.length
def File.stroff (f : File) : Nat := f.shoff + 40 * (f.secs.length + 2)
def File.dataoff (f : File) : Nat := f.stroff + f.strtab.length

def File.phdrs (f : File) : List Phdr := phdrsFrom f.dataoff f.segs

/-- An empty section header, the sections, and the one with the names. -/
def File.shdrs (f : File) : List Shdr :=
  ⟨0, 0, 0, 0, 0, 0⟩ :: (shdrsFrom 1 f.secs ++ [⟨1 + f.names.length, 0, f.stroff, f.strtab.length, 0, 0⟩])

/-- e_ident, e_type, e_machine (RISC-V), e_version, e_entry, e_phoff, e_shoff, e_flags, e_ehsize, e_phentsize, e_phnum,
e_shentsize, e_shnum, e_shstrndx. -/
def File.header (f : File) : List (BitVec 8) :=
  [0x7F#8, 0x45#8, 0x4C#8, 0x46#8, 1#8, 1#8, 1#8] ++ (List.replicate 9 0#8 ++ (le 2 2 ++ (le 2 243 ++ (le 4 1 ++
    (le 4 0 ++ (le 4 52 ++ (le 4 f.shoff ++ (le 4 0 ++ (le 2 52 ++ (le 2 32 ++ (le 2 f.segs.length ++
    (le 2 40 ++ (le 2 (f.secs.length + 2) ++ le 2 (f.secs.length + 1))))))))))))))

/-- The file. -/
def File.write (f : File) : List (BitVec 8) :=
  f.header ++ (f.phdrs.flatMap encPhdr ++ (f.shdrs.flatMap (encShdr 1) ++ (f.strtab ++ f.segs.flatMap (·.data))))

/-- All numbers fit their fields, and the names are in ASCII. -/
structure File.Fits (f : File) : Prop where
  segs : f.segs.length < 0xFFFF
  secs : f.secs.length + 2 < 0xFF00
  total : f.write.length < 2 ^ 32
  seg : ∀ s ∈ f.segs, s.flags < 2 ^ 32 ∧ s.vaddr < 2 ^ 32 ∧ s.memsz < 2 ^ 32
  sec : ∀ s ∈ f.secs, s.addr < 2 ^ 32 ∧ s.size < 2 ^ 32 ∧ ∀ ch ∈ s.name.toList, 0 < ch.toNat ∧ ch.toNat < 128

/-! ### The file of a guest -/

/-- The bytes a guest's sections start with (`.bss` has none). -/
structure Contents where
  text : List (BitVec 8)
  inp : List (BitVec 8)
  out : List (BitVec 8)
  rodata : List (BitVec 8)
  data : List (BitVec 8)

/-- The sections in RAM that have contents. -/
def Contents.ram (c : Contents) (l : Link.Layout) : List (Link.Sect × List (BitVec 8)) :=
  [(l.inp, c.inp), (l.out, c.out), (l.rodata, c.rodata), (l.data, c.data)]

/-- They have the sizes of the sections. -/
def Contents.Of (c : Contents) (l : Link.Layout) : Prop :=
  c.text.length = l.text.size ∧ ∀ x ∈ c.ram l, x.2.length = x.1.size

/-- One load segment for each RAM section. -/
def ramSegs (l : Link.Layout) (c : Contents) : List Seg :=
  [ ⟨6, l.inp.addr, c.inp, l.inp.size⟩, ⟨6, l.out.addr, c.out, l.out.size⟩, ⟨4, l.rodata.addr, c.rodata, l.rodata.size⟩
  , ⟨6, l.data.addr, c.data, l.data.size⟩, ⟨6, l.bss.addr, [], l.bss.size⟩ ]

/-- The file of a guest: a load segment for the code and one for each RAM section that is not empty, and the sections. -/
def guestFile (l : Link.Layout) (c : Contents) : File :=
  { segs := ⟨5, l.text.addr, c.text, l.text.size⟩ :: (ramSegs l c).filter fun s => 0 < s.memsz
    secs := [ ⟨".text", l.text.addr, l.text.size⟩, ⟨".inpdata", l.inp.addr, l.inp.size⟩, ⟨".outdata", l.out.addr, l.out.size⟩
            , ⟨".rodata", l.rodata.addr, l.rodata.size⟩, ⟨".data", l.data.addr, l.data.size⟩, ⟨".bss", l.bss.addr, l.bss.size⟩ ] }

end Verif.Spec.ElfFile
