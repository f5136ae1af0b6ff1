import Verif.Model.Loader
/-
  Model of the parsing of an ELF file as `Phantom::from_elf` (compiler/src/interpreter.rs:179-283) asks the `elf`
  crate (0.8.0, Cargo.lock) for it: `ElfBytes::<LittleEndian>::minimal_parse`, `segments`, `section_header_by_name`.
  The crate is a dependency whose source is not in the repository; this file states what it is taken to do.

  Both file classes are parsed, as the crate parses both.  `usize` has 64 bits, and a file has fewer than 2^63 bytes, so
  that the checked arithmetic of the crate fails only where the natural numbers used here run over the end of the file.
  Fields that nothing uses are skipped.  A string table that is marked as taking no space in the file is not treated
  specially.  Errors are `none`: `from_elf` unwraps all of them.
-/
namespace Verif.Model.ElfBytes

/-- `Class` of the crate. -/
inductive Class
  | elf32
  | elf64
  deriving DecidableEq

/-- Little-endian number. -/
def leNat : List (BitVec 8) → Nat
  | [] => 0
  | b :: bs => b.toNat + 256 * leNat bs

/-- `parse_u16_at`, `parse_u32_at`, `parse_u64_at`: `n` bytes at the offset, and the offset behind them. -/
def rd (data : List (BitVec 8)) (n off : Nat) : Option (Nat × Nat) :=
  if off + n ≤ data.length then some (leNat ((data.drop off).take n), off + n) else none

/-- Bytes of an address, offset or size: `parse_u32_at` or `parse_u64_at`. -/
def Class.addr : Class → Nat
  | .elf32 => 4
  | .elf64 => 8

/-- The fields of `FileHeader` that are used. -/
structure Ehdr where
  cls : Class
  phoff : Nat
  shoff : Nat
  phentsize : Nat
  phnum : Nat
  shentsize : Nat
  shnum : Nat
  shstrndx : Nat
  deriving DecidableEq

/-- `parse_ident`: magic number, class, byte order, version. -/
def parseIdent (data : List (BitVec 8)) : Option Class :=
  if 16 ≤ data.length ∧ data.take 4 = [0x7F#8, 0x45#8, 0x4C#8, 0x46#8] ∧ data[5]? = some 1#8 ∧ data[6]? = some 1#8 then
    if data[4]? = some 1#8 then some .elf32
    else if data[4]? = some 2#8 then some .elf64
    else none
  else none

/-- `FileHeader::parse_tail`. -/
def parseEhdr (data : List (BitVec 8)) : Option Ehdr :=
  (parseIdent data).bind fun c =>
  (rd data 2 16).bind fun (_, o) =>
  (rd data 2 o).bind fun (_, o) =>
  (rd data 4 o).bind fun (_, o) =>
  (rd data c.addr o).bind fun (_, o) =>
  (rd data c.addr o).bind fun (phoff, o) =>
  (rd data c.addr o).bind fun (shoff, o) =>
  (rd data 4 o).bind fun (_, o) =>
  (rd data 2 o).bind fun (_, o) =>
  (rd data 2 o).bind fun (phentsize, o) =>
  (rd data 2 o).bind fun (phnum, o) =>
  (rd data 2 o).bind fun (shentsize, o) =>
  (rd data 2 o).bind fun (shnum, o) =>
  (rd data 2 o).map fun (shstrndx, _) => ⟨c, phoff, shoff, phentsize, phnum, shentsize, shnum, shstrndx⟩

/-- `ProgramHeader::parse_at`. -/
def parsePhdr (c : Class) (data : List (BitVec 8)) (o : Nat) : Option Phdr :=
  match c with
  | .elf32 =>
    (rd data 4 o).bind fun (ptype, o) =>
    (rd data 4 o).bind fun (offset, o) =>
    (rd data 4 o).bind fun (vaddr, o) =>
    (rd data 4 o).bind fun (_, o) =>
    (rd data 4 o).bind fun (filesz, o) =>
    (rd data 4 o).bind fun (memsz, o) =>
    (rd data 4 o).bind fun (flags, o) =>
    (rd data 4 o).map fun _ => ⟨ptype, flags, offset, vaddr, filesz, memsz⟩
  | .elf64 =>
    (rd data 4 o).bind fun (ptype, o) =>
    (rd data 4 o).bind fun (flags, o) =>
    (rd data 8 o).bind fun (offset, o) =>
    (rd data 8 o).bind fun (vaddr, o) =>
    (rd data 8 o).bind fun (_, o) =>
    (rd data 8 o).bind fun (filesz, o) =>
    (rd data 8 o).bind fun (memsz, o) =>
    (rd data 8 o).map fun _ => ⟨ptype, flags, offset, vaddr, filesz, memsz⟩

/-- `SectionHeader`, the fields used. -/
structure Shdr where
  name : Nat
  addr : Nat
  offset : Nat
  size : Nat
  link : Nat
  info : Nat
  deriving DecidableEq

/-- `SectionHeader::parse_at`. -/
def parseShdr (c : Class) (data : List (BitVec 8)) (o : Nat) : Option Shdr :=
  (rd data 4 o).bind fun (name, o) =>
  (rd data 4 o).bind fun (_, o) =>
  (rd data c.addr o).bind fun (_, o) =>
  (rd data c.addr o).bind fun (addr, o) =>
  (rd data c.addr o).bind fun (offset, o) =>
  (rd data c.addr o).bind fun (size, o) =>
  (rd data 4 o).bind fun (link, o) =>
  (rd data 4 o).bind fun (info, o) =>
  (rd data c.addr o).bind fun (_, o) =>
  (rd data c.addr o).map fun _ => ⟨name, addr, offset, size, link, info⟩

/-- `ProgramHeader::size_for`, `SectionHeader::size_for`. -/
def Class.phdrSize : Class → Nat
  | .elf32 => 32
  | .elf64 => 56

def Class.shdrSize : Class → Nat
  | .elf32 => 40
  | .elf64 => 64

/-- The entries of a table, one after the other. -/
def parseTable {α : Type} (parse : Nat → Option α) (size off : Nat) : Nat → Option (List α)
  | 0 => some []
  | n + 1 => (parse off).bind fun a => (parseTable parse size (off + size) n).map (a :: ·)

/-- `find_shdrs`: no table if its offset is 0; its length is in the first entry if the header says 0. -/
def findShdrs (data : List (BitVec 8)) (h : Ehdr) : Option (Option (List Shdr)) :=
  if h.shoff = 0 then some none
  else
    (if h.shnum = 0 then (parseShdr h.cls data h.shoff).map (·.size) else some h.shnum).bind fun n =>
    if h.shentsize = h.cls.shdrSize ∧ h.shoff + h.cls.shdrSize * n ≤ data.length then
      (parseTable (parseShdr h.cls data) h.cls.shdrSize h.shoff n).map some
    else none

/-- `find_phdrs`: no table if its offset is 0; its length is in the first section header if the header says `PN_XNUM`. -/
def findPhdrs (data : List (BitVec 8)) (h : Ehdr) : Option (Option (List Phdr)) :=
  if h.phoff = 0 then some none
  else
    (if h.phnum = 0xFFFF then (parseShdr h.cls data h.shoff).map (·.info) else some h.phnum).bind fun n =>
    if h.phentsize = h.cls.phdrSize ∧ h.phoff + h.cls.phdrSize * n ≤ data.length then
      (parseTable (parsePhdr h.cls data) h.cls.phdrSize h.phoff n).map some
    else none

/-- `StringTable::get`: the bytes up to the first zero. -/
def strGet (tab : List (BitVec 8)) (o : Nat) : Option (List (BitVec 8)) :=
  if 0#8 ∈ tab.drop o then some ((tab.drop o).takeWhile (· ≠ 0#8)) else none

/-- The string table of `section_headers_with_strtab`: none if there is none or if it is not in the file. -/
def strTab (data : List (BitVec 8)) (h : Ehdr) (shs : List Shdr) : Option (List (BitVec 8)) :=
  if h.shstrndx = 0 then none
  else
    (if h.shstrndx = 0xFFFF then (shs[0]?).map (·.link) else some h.shstrndx).bind fun k =>
    (shs[k]?).bind fun s => slice data s.offset s.size

/-- Bytes as characters; only the comparison with ASCII names matters. -/
def asString (bs : List (BitVec 8)) : String := String.ofList (bs.map fun b => Char.ofNat b.toNat)

/-- The sections that have a name, as `section_header_by_name` sees them. -/
def named (tab : List (BitVec 8)) (shs : List Shdr) : List (String × TapeInfo) :=
  shs.filterMap fun s => (strGet tab s.name).map fun n => (asString n, ⟨s.addr, s.size⟩)

/-- `minimal_parse`, `segments().unwrap()` and what `section_header_by_name` looks at, interpreter.rs:180-184, 239-252. -/
def parse (data : List (BitVec 8)) : Option Elf :=
  (parseEhdr data).bind fun h =>
  (findShdrs data h).bind fun shs =>
  (findPhdrs data h).bind fun phs =>
  phs.map fun phs =>
  { bytes := data, segments := phs
    sections := (shs.bind fun shs => (strTab data h shs).map fun tab => named tab shs).getD [] }

/-- `Phantom::from_elf` on the bytes of a file.  In a 64-bit file the sums of interpreter.rs:205, 228 and 230 may exceed
64 bits; `Phantom.fromElf` does not describe this case (C73_fields: in a 32-bit file they do not). -/
def fromBytes (data : List (BitVec 8)) : Option Phantom := (parse data).bind Phantom.fromElf

end Verif.Model.ElfBytes
