import Verif.Model.Select
/-
  Model of how the parts of a guest find each other: the macro `entry` (macros/src/lib.rs:5-14), the symbols of the runtime
  (runtime/src/lib.rs:19-71), and symbol resolution as lld does it: a symbol defined twice is an error; so is a symbol that is
  nowhere defined if a section that stays refers to it; a missing entry symbol is only a warning.  Compared with lld in
  Lemmas/SelectVectors.lean.

  Not modelled: weak and local symbols (a reference to a local symbol counts as one to a name nobody else has), archives (an
  object nobody needs is not linked; rustc passes the objects of the guest and of `runtime` it needs), symbols of the script
  defined again in an object.
-/
namespace Verif.Model.Link

/-- A section of an object file: the global symbols defined in it, and those its relocations refer to. -/
structure SymSec where
  name : String
  piece : Piece
  defs : List String
  refs : List String

/-- Symbols of the linker script: default.x:13, 60, 69. -/
def scriptSymbols : List String := ["_stack_start", "__global_pointer$", "_end"]

/-- The section that defines a symbol. -/
def definition (is : List SymSec) (n : String) : Option Nat := is.findIdx? fun s => s.defs.contains n

/-- References to symbols as references to sections. -/
def numbered (is : List SymSec) : List InSec :=
  is.map fun s => ⟨s.name, s.piece, s.refs.filterMap (definition is), s.defs.contains "_start"⟩

/-- A reference nothing can be found for. -/
def dangling (is : List SymSec) (n : String) : Bool := (definition is n).isNone && !scriptSymbols.contains n

def resolve (gc : Bool) (is : List SymSec) : Option (List InSec) :=
  if ¬ (is.flatMap (·.defs)).Nodup then none
  else if (List.range is.length).any fun k =>
      decide (k ∈ live gc (numbered is)) && !discarded (numbered is) k && (is[k]?.any fun s => s.refs.any (dangling is)) then none
  else some (numbered is)

/-! ### The runtime -/

/-- `_start`, runtime/src/lib.rs:19-42. -/
def startSec : SymSec := ⟨".init", ⟨36, 4⟩, ["_start"], ["__global_pointer$", "_stack_start", "_start_rust"]⟩

/-- `start_rust`, runtime/src/lib.rs:57-65; its size is up to the compiler. -/
def startRustSec (size : Nat) : SymSec := ⟨".init.rust", ⟨size, 4⟩, ["_start_rust"], ["main"]⟩

/-- `__ONCE__`, runtime/src/lib.rs:69-71: a variable without size, for the sake of its name. -/
def onceSec : SymSec := ⟨".rodata.once", ⟨0, 1⟩, ["error: rt appears more than once"], []⟩

/-- The sections of the runtime every guest has. -/
def runtimeSecs (size : Nat) : List SymSec := [startSec, startRustSec size, onceSec]

/-! ### The macro -/

/-- Attributes of a function. -/
inductive Attr
  /-- `#[cfg_attr(target_arch = .., no_mangle)]` -/
  | noMangleOn (arch : String)
  | allowUnused
  | other (text : String)
  deriving DecidableEq

/-- A function: attributes, name, and the text of the rest. -/
structure FnItem where
  attrs : List Attr
  name : String
  rest : String
  deriving DecidableEq

/-- What `syn` makes of the item an attribute is on. -/
inductive Item
  | fn (f : FnItem)
  | other (text : String)

/-- `entry`, macros/src/lib.rs:5-14: `none` is a compile error (the item is not a function). -/
def entryMacro : Item → Option FnItem
  | .fn f => some { f with attrs := .noMangleOn "riscv32" :: .allowUnused :: f.attrs }
  | .other _ => none

/-- The symbol of a function for a target; `mangle` is what the compiler does to names. -/
def symbolOf (arch : String) (mangle : String → String) (f : FnItem) : String :=
  if .noMangleOn arch ∈ f.attrs then f.name else mangle f.name

end Verif.Model.Link
