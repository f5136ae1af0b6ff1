import Verif.Model.Symbols
/-
  Model of relocation, the last step of linking: object files have zeros where addresses belong (the operands of `la` and `jal` in
  runtime/src/lib.rs:24-37, and every reference rustc makes to a function or a static variable), and a list of places to be filled
  in.  As lld does it for RISC-V with 32 bits (the psABI's types R_RISCV_32, BRANCH, JAL, CALL and CALL_PLT, PCREL_HI20,
  PCREL_LO12_I, PCREL_LO12_S, HI20, LO12_I, LO12_S): jumps that cannot reach are errors, as is the second half of a pair without
  the first.  Compared with lld in Lemmas/ObjectVectors.lean.

  Not modelled: relaxation (rustc does not mark relocations for it on this target, so that lld leaves sizes alone), types for
  thread-local and position-independent code, differences of labels (debug information only).  A label in another section counts
  as a symbol of its own, as in Model/Symbols.
-/
namespace Verif.Model.Link

/-- The types of relocations. -/
inductive RelKind
  | abs32 | branch | jal | call | pcrelHi | pcrelLoI | pcrelLoS | hi | loI | loS
  deriving DecidableEq

/-- What a relocation refers to: a global symbol, or a place in the same section.  For the second half of a PC-relative pair it is
the place of the first half. -/
inductive Target
  | sym (n : String)
  | label (off : Nat)
  deriving DecidableEq

structure Rel where
  off : Nat
  kind : RelKind
  target : Target
  addend : BitVec 32
  deriving DecidableEq

/-- A section of an object file: contents (zeros if it has none), the global symbols with their offsets, relocations. -/
structure ObjSec where
  name : String
  align : Nat
  bytes : List (BitVec 8)
  defs : List (String × Nat)
  rels : List Rel

/-- The symbols among the targets. -/
def Rel.symbol? (r : Rel) : Option String :=
  match r.target with
  | .sym n => some n
  | .label _ => none

/-- What symbol resolution needs to know. -/
def ObjSec.sym (s : ObjSec) : SymSec :=
  ⟨s.name, ⟨s.bytes.length, s.align⟩, s.defs.map (·.1), s.rels.filterMap Rel.symbol?⟩

/-! ### Filling in -/

/-- The word at an offset. -/
def rd32 (b : List (BitVec 8)) (o : Nat) : Option (BitVec 32) :=
  if o + 4 ≤ b.length then some (b.getD (o + 3) 0#8 ++ b.getD (o + 2) 0#8 ++ b.getD (o + 1) 0#8 ++ b.getD o 0#8) else none

def wr32 (b : List (BitVec 8)) (o : Nat) (w : BitVec 32) : List (BitVec 8) :=
  b.mapIdx fun i x => if o ≤ i ∧ i < o + 4 then w.extractLsb' (8 * (i - o)) 8 else x

/-- HI20 and PCREL_HI20: the upper 20 bits, rounded because the lower 12 are signed. -/
def setHi (w v : BitVec 32) : BitVec 32 := (w &&& 0xFFF#32) ||| ((v + 0x800#32) &&& 0xFFFFF000#32)

/-- LO12_I and PCREL_LO12_I. -/
def setLoI (w v : BitVec 32) : BitVec 32 := (w &&& 0xFFFFF#32) ||| ((v &&& 0xFFF#32) <<< 20)

/-- LO12_S and PCREL_LO12_S. -/
def setLoS (w v : BitVec 32) : BitVec 32 :=
  (w &&& 0x1FFF07F#32) ||| (((v >>> 5) &&& 0x7F#32) <<< 25) ||| ((v &&& 0x1F#32) <<< 7)

def setBranch (w d : BitVec 32) : BitVec 32 :=
  (w &&& 0x1FFF07F#32) ||| (((d >>> 12) &&& 1#32) <<< 31) ||| (((d >>> 5) &&& 0x3F#32) <<< 25) |||
    (((d >>> 1) &&& 0xF#32) <<< 8) ||| (((d >>> 11) &&& 1#32) <<< 7)

def setJal (w d : BitVec 32) : BitVec 32 :=
  (w &&& 0xFFF#32) ||| (((d >>> 20) &&& 1#32) <<< 31) ||| (((d >>> 1) &&& 0x3FF#32) <<< 21) |||
    (((d >>> 11) &&& 1#32) <<< 20) ||| (((d >>> 12) &&& 0xFF#32) <<< 12)

/-- A signed number of that many bits, and even. -/
def reaches (bits : Nat) (d : BitVec 32) : Bool :=
  decide (-(2 : Int) ^ (bits - 1) ≤ d.toInt ∧ d.toInt < 2 ^ (bits - 1)) && decide (d.toNat % 2 = 0)

/-- One relocation: the value of its target, and its own address. -/
def fix (k : RelKind) (v p : BitVec 32) (o : Nat) (b : List (BitVec 8)) : Option (List (BitVec 8)) :=
  (rd32 b o).bind fun w =>
    match k with
    | .abs32 => some (wr32 b o v)
    | .branch => if reaches 13 (v - p) then some (wr32 b o (setBranch w (v - p))) else none
    | .jal => if reaches 21 (v - p) then some (wr32 b o (setJal w (v - p))) else none
    | .call => (rd32 b (o + 4)).map fun w' => wr32 (wr32 b o (setHi w (v - p))) (o + 4) (setLoI w' (v - p))
    | .pcrelHi => some (wr32 b o (setHi w (v - p)))
    | .pcrelLoI | .loI => some (wr32 b o (setLoI w v))
    | .pcrelLoS | .loS => some (wr32 b o (setLoS w v))
    | .hi => some (wr32 b o (setHi w v))

/-- The address of a target: `sym` are the addresses of the symbols, `a` is that of the section. -/
def Target.addr (sym : String → Option (BitVec 32)) (a : BitVec 32) : Target → Option (BitVec 32)
  | .sym n => sym n
  | .label o => some (a + BitVec.ofNat 32 o)

/-- The value a relocation is about.  For the second half of a PC-relative pair: what the first half is about, relative to the
first half. -/
def ObjSec.value (sym : String → Option (BitVec 32)) (a : BitVec 32) (s : ObjSec) (r : Rel) : Option (BitVec 32) :=
  if r.kind = .pcrelLoI ∨ r.kind = .pcrelLoS then
    match r.target with
    | .sym _ => none
    | .label o => (s.rels.find? fun h => h.off == o && h.kind == .pcrelHi).bind fun h =>
        (h.target.addr sym a).map fun v => v + h.addend - (a + BitVec.ofNat 32 o)
  else (r.target.addr sym a).map (· + r.addend)

/-- All relocations of a section at address `a`, in their order. -/
def ObjSec.relocate (sym : String → Option (BitVec 32)) (a : BitVec 32) (s : ObjSec) : Option (List (BitVec 8)) :=
  s.rels.foldlM (fun b r => (s.value sym a r).bind fun v => fix r.kind v (a + BitVec.ofNat 32 r.off) r.off b) s.bytes

/-! ### Linking -/

/-- The addresses of the linker script's symbols: default.x:13, 60, 69. -/
def scriptAddr (l : Layout) (n : String) : Option Nat :=
  if n = "_stack_start" then some l.stackStart else if n = "__global_pointer$" then some l.gp
  else if n = "_end" then some l.fin else none

/-- The address of a symbol: that of its section plus its offset, or what the script says. -/
def symbolAddr (objs : List ObjSec) (l : Layout) (pl : List (Nat × Nat)) (n : String) : Option (BitVec 32) :=
  match definition (objs.map ObjSec.sym) n with
  | some j => ((pl.find? fun x => x.1 == j).bind fun x => (objs[j]?.bind fun s => (s.defs.find? fun d => d.1 == n)).map fun d =>
      BitVec.ofNat 32 (x.2 + d.2))
  | none => (scriptAddr l n).map (BitVec.ofNat 32)

/-- The linked program: the sections as resolved, their addresses, and the contents of those that stay. -/
structure Linked where
  secs : List InSec
  layout : Layout
  places : List (Nat × Nat)
  contents : List (List (BitVec 8))

/-- The contents of an input section after linking. -/
def Linked.bytes (r : Linked) (k : Nat) : List (BitVec 8) :=
  ((r.places.zip r.contents).find? fun x => x.1.1 == k).elim [] (·.2)

/-- From object files to the sections of the program. -/
def linkObjs (gc : Bool) (objs : List ObjSec) : Option Linked :=
  (resolve gc (objs.map ObjSec.sym)).bind fun is =>
  (placements gc is).bind fun lp =>
  (lp.2.mapM fun x => objs[x.1]?.bind (ObjSec.relocate (symbolAddr objs lp.1 lp.2) (BitVec.ofNat 32 x.2))).map fun bs =>
    ⟨is, lp.1, lp.2, bs⟩

/-! ### The runtime -/

/-- `_start` as assembled, runtime/src/lib.rs:19-42: `la` is AUIPC and ADDI, `mv` ADDI, `blez` BGE; the branch to `run` is within
the section and already complete. -/
def startObj : ObjSec :=
  { name := ".init", align := 4
    bytes := [0x97, 0x01, 0x00, 0x00, 0x93, 0x81, 0x01, 0x00, 0x17, 0x01, 0x00, 0x00, 0x13, 0x01, 0x01, 0x00,
      0x13, 0x04, 0x01, 0x00, 0x63, 0x54, 0xa0, 0x00, 0x73, 0x10, 0x00, 0xc0, 0xef, 0x00, 0x00, 0x00, 0x73, 0x10, 0x00, 0xc0]
    defs := [("_start", 0)]
    rels := [⟨0, .pcrelHi, .sym "__global_pointer$", 0⟩, ⟨4, .pcrelLoI, .label 0, 0⟩, ⟨8, .pcrelHi, .sym "_stack_start", 0⟩,
      ⟨12, .pcrelLoI, .label 8, 0⟩, ⟨28, .jal, .sym "_start_rust", 0⟩] }

/-- `__ONCE__`, runtime/src/lib.rs:69-71. -/
def onceObj : ObjSec := ⟨".rodata.once", 1, [], [("error: rt appears more than once", 0)], []⟩

end Verif.Model.Link
