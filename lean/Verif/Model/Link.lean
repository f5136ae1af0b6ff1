/-
  Model of compiler/linker-script/default.x: where the linker puts the sections of a guest, and the values of
  the symbols the runtime uses.  The script is interpreted as the manuals of GNU ld and lld describe it: within
  an output section the input sections follow one another, each at the next multiple of its own alignment; an
  output section begins at the next multiple of its alignment (the largest one of its input sections, at least
  that of `ALIGN`), after the previous output section of the same memory region; a region that overflows is an
  error (`none`), as is a failing `ASSERT`.  Compared with lld in Lemmas/LinkVectors.lean.

  Which input section goes where (names), discarded and unused sections: Model/Select.lean.
  Not modelled: linker relaxation that changes sizes.
-/
namespace Verif.Model.Link

/-- An input section. -/
structure Piece where
  size : Nat
  align : Nat
  deriving DecidableEq

/-- `ALIGN(a)` of the location counter. -/
def alignUp (dot a : Nat) : Nat := (dot + a - 1) / a * a

/-- Addresses of consecutive input sections. -/
def addrs (dot : Nat) : List Piece → List Nat
  | [] => []
  | p :: ps => alignUp dot p.align :: addrs (alignUp dot p.align + p.size) ps

/-- The location counter behind them. -/
def fill (dot : Nat) : List Piece → Nat
  | [] => dot
  | p :: ps => fill (alignUp dot p.align + p.size) ps

/-- Alignment of an output section declared with `ALIGN(4)`. -/
def sectAlign (ps : List Piece) : Nat := ps.foldl (fun a p => max a p.align) 4

/-- An output section. -/
structure Sect where
  addr : Nat
  size : Nat
  deriving DecidableEq

def Sect.stop (s : Sect) : Nat := s.addr + s.size

/-- The input sections of a guest, by the output section (and the place in it) that takes them. -/
structure Guest where
  init : List Piece
  initRust : List Piece
  text : List Piece
  inp : List Piece
  out : List Piece
  rodata : List Piece
  data : List Piece
  bss : List Piece
  got : List Piece
  deriving DecidableEq

structure Layout where
  text : Sect
  inp : Sect
  out : Sect
  rodata : Sect
  data : Sect
  bss : Sect
  /-- `_stack_start` -/
  stackStart : Nat
  /-- `__global_pointer$` -/
  gp : Nat
  /-- `_end` -/
  fin : Nat
  deriving DecidableEq

/-- `MEMORY`, default.x:3-8. -/
def FLASH_ORIGIN : Nat := 0x00000000
def FLASH_LENGTH : Nat := 256 * 1024
def RAM_ORIGIN : Nat := 0x40000
def RAM_LENGTH : Nat := 4 * 1024

/-- An output section `: ALIGN(4)` at `dot` that consists of input sections only. -/
def section_ (dot : Nat) (ps : List Piece) : Sect :=
  let a := alignUp dot (sectAlign ps)
  ⟨a, fill a ps - a⟩

/-- `.text`, default.x:15-23. -/
def textSection (g : Guest) : Sect :=
  let a := alignUp FLASH_ORIGIN (sectAlign (g.init ++ g.initRust ++ g.text))
  let dot := fill a g.init
  let dot := alignUp dot 4
  let dot := fill dot g.initRust
  let dot := fill dot g.text
  ⟨a, alignUp dot 4 - a⟩

/-- `.rodata`, default.x:35-46 (the first `. = ALIGN(4)` has no effect at the start of the section). -/
def rodataSection (dot : Nat) (ps : List Piece) : Sect :=
  let a := alignUp dot (sectAlign ps)
  ⟨a, alignUp (fill a ps) 4 - a⟩

/-- `SECTIONS` and the `ASSERT`, default.x:10-103. -/
def link (g : Guest) : Option Layout :=
  let text := textSection g
  let inp := section_ RAM_ORIGIN g.inp
  let out := section_ inp.stop g.out
  let rodata := rodataSection out.stop g.rodata
  let data := section_ rodata.stop g.data
  let bss := section_ data.stop g.bss
  if text.stop ≤ FLASH_ORIGIN + FLASH_LENGTH ∧ bss.stop ≤ RAM_ORIGIN + RAM_LENGTH ∧ fill 0 g.got = 0 then
    some { text := text, inp := inp, out := out, rodata := rodata, data := data, bss := bss
           stackStart := RAM_ORIGIN + RAM_LENGTH, gp := data.addr + 0x800, fin := bss.stop }
  else none

end Verif.Model.Link
