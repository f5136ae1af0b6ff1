import Verif.Model.Link
/-
  Model of the section descriptions in compiler/linker-script/default.x: which input section goes into which
  output section, by its name, and which ones are left out because nothing refers to them.  rustc calls the linker
  with `--gc-sections`, and gives every function and every static variable a section of its own
  (`.text.<name>`, `.rodata.<name>`, ...).  The script is interpreted as lld does it: the first description with a
  pattern for the name takes the section; within one description the sections keep the order of the input; with
  `--gc-sections` a section stays if its description is marked `KEEP`, if it has the entry symbol, or if a section
  that stays has a relocation against it; a section that stays and refers to a discarded one is an error.  Compared with lld in
  Lemmas/SelectVectors.lean.

  Only sections that occupy memory (SHF_ALLOC) are meant.  Sections without a description ("orphans") are left
  out of the `Guest`; where lld puts those without contents is `orphanAddrs`.

  Not modelled: the merging of equal constants and strings (sections with SHF_MERGE count as one after the
  merging), sections kept for their type or because of `__start_`/`__stop_` symbols.
-/
namespace Verif.Model.Link

/-- An input section: its name, size and alignment, the sections (by their number in the input) its
relocations refer to, and whether it defines the entry symbol. -/
structure InSec where
  name : String
  piece : Piece
  refs : List Nat
  entry : Bool

/-- The descriptions of the script, in its order. -/
inductive Part
  | init | initRust | text | inp | out | srodata | rodata | sdata | data | bss | got | discard
  deriving DecidableEq

/-- A pattern: a name, or a name followed by `.*`. -/
inductive Pat
  | exact (s : String)
  | sub (s : String)

def Pat.matches : Pat → String → Bool
  | .exact s, n => n == s
  | .sub s, n => (s.toList ++ ['.']).isPrefixOf n.toList

structure Rule where
  part : Part
  keep : Bool
  pats : List Pat

/-- default.x:15-93. -/
def rules : List Rule := [
  -- .text
  ⟨.init, true, [.exact ".init"]⟩,
  ⟨.initRust, true, [.exact ".init.rust"]⟩,
  ⟨.text, false, [.exact ".text", .sub ".text"]⟩,
  -- .inpdata
  ⟨.inp, true, [.exact ".inpdata"]⟩,
  -- .outdata
  ⟨.out, true, [.exact ".outdata"]⟩,
  -- .rodata
  ⟨.srodata, false, [.exact ".srodata", .sub ".srodata"]⟩,
  ⟨.rodata, false, [.exact ".rodata", .sub ".rodata"]⟩,
  -- .data
  ⟨.sdata, false, [.exact ".sdata", .sub ".sdata", .exact ".sdata2", .sub ".sdata2"]⟩,
  ⟨.data, false, [.exact ".data", .sub ".data"]⟩,
  -- .bss
  ⟨.bss, false, [.exact ".sbss", .sub ".sbss", .exact ".bss", .sub ".bss"]⟩,
  -- .got
  ⟨.got, true, [.exact ".got", .sub ".got"]⟩,
  -- /DISCARD/
  ⟨.discard, false, [.exact ".comment", .sub ".comment", .exact ".debug", .sub ".debug",
    .exact ".eh_frame", .sub ".eh_frame", .exact ".eh_frame_hdr", .sub ".eh_frame_hdr",
    .exact ".riscv.attributes", .sub ".riscv.attributes"]⟩]

def Rule.matches (r : Rule) (n : String) : Bool := r.pats.any (·.matches n)

/-- The description that takes a section. -/
def ruleOf (n : String) : Option Rule := rules.find? (·.matches n)

def partOf (n : String) : Option Part := (ruleOf n).map (·.part)

/-- Sections that stay whether or not anything refers to them. -/
def kept (n : String) : Bool := (ruleOf n).any (·.keep)

def refsOf (is : List InSec) (k : Nat) : List Nat := (is[k]?.map (·.refs)).getD []

/-- The marking phase of the collector: a queue of sections, and those marked. -/
def mark (is : List InSec) : (fuel : Nat) → (queue marked : List Nat) → List Nat
  | 0, _, m => m
  | _ + 1, [], m => m
  | f + 1, k :: q, m => if k ∈ m then mark is f q m else mark is f (refsOf is k ++ q) (k :: m)

/-- The kept sections, and the one with `_start`, because of `ENTRY(_start)` (default.x:1). -/
def roots (is : List InSec) : List Nat :=
  (List.range is.length).filter fun k => is[k]?.any fun s => kept s.name || s.entry

/-- The sections that stay.  The fuel is enough for every reference to be followed. -/
def live (gc : Bool) (is : List InSec) : List Nat :=
  if gc then mark is ((roots is).length + ((is.map fun s => s.refs.length).sum)) (roots is) []
  else List.range is.length

/-- The sections a description takes, in the order of the input. -/
def taken (gc : Bool) (is : List InSec) (p : Part) : List Nat :=
  (List.range is.length).filter fun k =>
    decide (k ∈ live gc is) && is[k]?.any fun s => partOf s.name == some p

def pieces (gc : Bool) (is : List InSec) (p : Part) : List Piece :=
  (taken gc is p).filterMap fun k => is[k]?.map (·.piece)

/-- The section `k` exists and is discarded by the script. -/
def discarded (is : List InSec) (k : Nat) : Bool := is[k]?.any fun s => partOf s.name == some .discard

/-- The sections of the guest by their place, or an error because a section that stays refers to a discarded
one. -/
def select (gc : Bool) (is : List InSec) : Option Guest :=
  if (List.range is.length).any fun k =>
      decide (k ∈ live gc is) && !discarded is k && (refsOf is k).any (discarded is) then none
  else
    let ps := pieces gc is
    some ⟨ps .init, ps .initRust, ps .text, ps .inp, ps .out, ps .srodata ++ ps .rodata, ps .sdata ++ ps .data,
      ps .bss, ps .got⟩

/-- Where the sections end up: their numbers with their addresses. -/
def placements (gc : Bool) (is : List InSec) : Option (Layout × List (Nat × Nat)) := do
  let g ← select gc is
  let l ← link g
  let t := taken gc is
  let rust := alignUp (fill l.text.addr g.init) 4
  some (l, (t .init).zip (addrs l.text.addr g.init) ++ (t .initRust).zip (addrs rust g.initRust) ++
    (t .text).zip (addrs (fill rust g.initRust) g.text) ++
    (t .inp).zip (addrs l.inp.addr g.inp) ++ (t .out).zip (addrs l.out.addr g.out) ++
    (t .srodata ++ t .rodata).zip (addrs l.rodata.addr g.rodata) ++
    (t .sdata ++ t .data).zip (addrs l.data.addr g.data) ++ (t .bss).zip (addrs l.bss.addr g.bss))

/-- The sections that stay and have no description. -/
def orphans (gc : Bool) (is : List InSec) : List Nat :=
  (List.range is.length).filter fun k =>
    decide (k ∈ live gc is) && is[k]?.any fun s => (partOf s.name).isNone

/-- Where lld puts orphans of one name without contents (SHT_NOBITS): behind `.bss`, and so behind `_end`. -/
def orphanAddrs (l : Layout) (ps : List Piece) : List Nat :=
  addrs (alignUp l.fin (ps.foldl (fun a p => max a p.align) 1)) ps

end Verif.Model.Link
