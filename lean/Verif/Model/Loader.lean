import Verif.Model.TestVM
/-
  Model of compiler/src/interpreter.rs: loading of an ELF image, construction of both VMs, execution
  of the encrypted VM and extraction of the output tape.

  The ELF file is given as the `elf` crate presents it: its bytes, its segment table and its section
  table.  `none` = panic.  Addresses and sizes come from 32-bit fields, so that no sum of two of them
  overflows `usize`; a subtraction that underflows panics in the debug profile, and in the release
  profile gives a slice index beyond the vector, which panics too.

  Not modelled: printing, timings, scratch space, the generation of keys (see `Fhe`), reading the
  environment variables (their values are parameters).
-/
namespace Verif.Model

/-- `ProgramHeader` of the `elf` crate, the fields used. -/
structure Phdr where
  ptype : Nat
  flags : Nat
  offset : Nat
  vaddr : Nat
  filesz : Nat
  memsz : Nat
  deriving DecidableEq

/-- `PT_LOAD`, `PF_R`, `PF_W`, `PF_X` of the ELF format. -/
def PT_LOAD : Nat := 1
def PF_X : Nat := 1
def PF_W : Nat := 2
def PF_R : Nat := 4

/-- A parsed ELF file. -/
structure Elf where
  bytes : List (BitVec 8)
  segments : List Phdr
  sections : List (String × TapeInfo)

/-- `section_header_by_name`: address and size of the first section of that name. -/
def Elf.sectionByName (e : Elf) (name : String) : Option TapeInfo :=
  (e.sections.find? fun s => s.1 = name).map (·.2)

/-- `RAM_SIZE`, interpreter.rs:40. -/
def RAM_SIZE : Nat := 4 * 1024

/-- `&bytes[off..off + len]`. -/
def slice (bytes : List (BitVec 8)) (off len : Nat) : Option (List (BitVec 8)) :=
  if off + len ≤ bytes.length then some ((bytes.drop off).take len) else none

/-- `data[start - base..start + src.len() - base].copy_from_slice(src)`. -/
def copyInto (data : List (BitVec 8)) (base start : Nat) (src : List (BitVec 8)) :
    Option (List (BitVec 8)) :=
  if base ≤ start ∧ start - base + src.length ≤ data.length then
    some (data.take (start - base) ++ src ++ data.drop (start - base + src.length))
  else none

/-- Body of the `for_each` over the headers, interpreter.rs:220-233. -/
def loadSegment (e : Elf) (ramOffset : Nat) (ram : List (BitVec 8)) (ph : Phdr) :
    Option (List (BitVec 8)) :=
  if 0 < ph.memsz ∧ ph.filesz = ph.memsz then
    (slice e.bytes ph.offset ph.memsz).bind fun src => copyInto ram ramOffset ph.vaddr src
  else some ram

/-- The `for_each` itself. -/
def loadSegments (e : Elf) (ramOffset : Nat) : List Phdr → List (BitVec 8) → Option (List (BitVec 8))
  | [], ram => some ram
  | ph :: phs, ram => (loadSegment e ramOffset ram ph).bind (loadSegments e ramOffset phs)

/-- `Phantom`, interpreter.rs:169-176 (`_elf_bytes` is never read and left out). -/
structure Phantom where
  bootRom : BootMemory
  bootRam : BootMemory
  output : TapeInfo
  input : TapeInfo
  deriving DecidableEq

/-- The header used for `.text`, interpreter.rs:182-193. -/
def Elf.textHeader (e : Elf) : Option Phdr :=
  (e.segments.filter fun ph => ph.ptype = PT_LOAD).find? fun ph => ph.flags = PF_R + PF_X

/-- The headers loaded into RAM, interpreter.rs:182-187 and 211-214. -/
def Elf.ramHeaders (e : Elf) : List Phdr :=
  (e.segments.filter fun ph => ph.ptype = PT_LOAD).filter fun ph =>
    ph.flags = PF_R ∨ ph.flags = PF_R + PF_W

/-- `ram_offset`, interpreter.rs:215-218. -/
def Elf.ramOffset (e : Elf) : Nat := (e.ramHeaders.head?).elim 0 (·.vaddr)

/-- `Phantom::from_elf`, interpreter.rs:179-283. -/
def Phantom.fromElf (e : Elf) : Option Phantom :=
  e.textHeader.bind fun txt =>
  if txt.filesz = txt.memsz ∧ txt.vaddr = 0 then
    (slice e.bytes txt.offset txt.memsz).bind fun rom =>
    (loadSegments e e.ramOffset e.ramHeaders (List.replicate RAM_SIZE 0#8)).bind fun ram =>
    (e.sectionByName ".inpdata").bind fun inp =>
    (e.sectionByName ".outdata").map fun out =>
    { bootRom := ⟨rom, txt.vaddr, txt.memsz⟩, bootRam := ⟨ram, e.ramOffset, RAM_SIZE⟩
      output := out, input := inp }
  else none

/-- `chunks_exact(4)` with the little-endian sum of each chunk, interpreter.rs:306-315 and 326-335. -/
def packWords : List (BitVec 8) → List U32
  | b0 :: b1 :: b2 :: b3 :: bs => leWord b0 b1 b2 b3 :: packWords bs
  | _ => []

/-- The four bytes pushed for a word, interpreter.rs:153-156. -/
def unpackWord (w : U32) : List (BitVec 8) :=
  [(w &&& 0xFF#32).setWidth 8, ((w >>> 8) &&& 0xFF#32).setWidth 8,
   ((w >>> 16) &&& 0xFF#32).setWidth 8, ((w >>> 24) &&& 0xFF#32).setWidth 8]

/-- `mem_bytes`, interpreter.rs:151-157. -/
def unpackWords (ws : List U32) : List (BitVec 8) := ws.flatMap unpackWord

/-- `EncryptedVM`, interpreter.rs:109-118.  The mirror (inside the interpreter in the source) is
present exactly when `phantom_debug` is set. -/
structure EncVM (B : Backend) where
  interp : Interp B
  mirror : Option Debug
  output : TapeInfo
  ramOffset : Nat
  maxCycles : Nat

section
variable {B : Backend} (C : Cipher B) (rand : Nat → Nat → Nat → C.Rand)

/-- `Phantom::encrypted_vm`, interpreter.rs:301-410.  With `phantom_debug` the interpreter is made by
`new_with_debug`, and `instructions_encrypt_sk` and `ram_encrypt_sk` also fill the mirror. -/
def Phantom.encryptedVm (dbg phantomDebug : Bool) (threads : Nat) (p : Phantom)
    (tape : List (BitVec 8)) (maxCycles : Nat) : Option (EncVM B) :=
  if p.bootRom.data.length % 4 = 0 then
    (Parser.new.addAll dbg (packWords p.bootRom.data)).bind fun parser =>
    if tape.length = p.input.size then
      (copyInto p.bootRam.data p.bootRam.offset p.input.startAddr tape).bind fun bytes =>
      (Interp.load C rand dbg (p.bootRom.size / 4) (p.bootRam.size / 4) threads parser
        (packWords bytes)).bind fun vm =>
      if phantomDebug then
        ((Debug.new (p.bootRom.size / 4) (p.bootRam.size / 4)).setInstructions dbg parser).bind fun d =>
        (d.setRam (packWords bytes)).map fun d =>
        { interp := vm, mirror := some d, output := p.output, ramOffset := p.bootRam.offset
          maxCycles := maxCycles }
      else
        some { interp := vm, mirror := none, output := p.output, ramOffset := p.bootRam.offset
               maxCycles := maxCycles }
    else none
  else none

/-- `Phantom::test_vm`, interpreter.rs:412-420. -/
def Phantom.testVm (chk : Bool) (p : Phantom) (maxCycles : Nat) : Option TestVM :=
  TestVM.init chk p.bootRom p.bootRam p.input p.output maxCycles

variable (decU : B.Uint → U32) (decP : B.Prep → U32)

/-- One iteration of the loop of `execute`, interpreter.rs:126-136. -/
def EncVM.cycle (vm : EncVM B) : Option (EncVM B) :=
  match vm.mirror with
  | some d => (cycleDebug decU decP C vm.interp d).map fun r => { vm with interp := r.1, mirror := some r.2 }
  | none => vm.interp.step.map fun i => { vm with interp := i }

/-- `n` iterations. -/
def EncVM.cycles : Nat → EncVM B → Option (EncVM B)
  | 0, vm => some vm
  | n + 1, vm => (vm.cycle C decU decP).bind (EncVM.cycles n)

/-- `EncryptedVM::execute`, interpreter.rs:121-138. -/
def EncVM.execute (vm : EncVM B) : Option (EncVM B) := EncVM.cycles C decU decP vm.maxCycles vm

/-- `EncryptedVM::output_tape`, interpreter.rs:140-166. -/
def EncVM.outputTape (chk : Bool) (vm : EncVM B) : Option (List (BitVec 8)) :=
  (vm.interp.decryptRam C (List.replicate (RAM_SIZE / 4) 0#32)).bind fun words =>
  collect ((List.range vm.output.size).map fun i =>
    (usizeAdd chk vm.output.startAddr i).bind fun a =>
    (usizeSub chk a vm.ramOffset).bind fun k => (unpackWords words)[k % RAM_SIZE]?)

end

end Verif.Model
