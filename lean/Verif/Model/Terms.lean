import Verif.Model.Interp
/-
  Expressions over the library's operations: the library in which nothing is computed and every
  operation only records what was asked.  Running the interpreter's model in it yields the
  expression of every result in terms of the initial ciphertexts.
-/
namespace Verif.Model

/-- The four kinds of library objects. -/
inductive Kind | G | U | P | Bt

/-- Expressions.  Lists are a length and a function. -/
inductive Term : Kind → Type
  /-- ciphertext `j` of bit `i` of memory `c` of the initial state -/
  | input (c i j : Nat) : Term .G
  /-- the initial `pc_fhe_uint` and `pc_fhe_uint_prepared` -/
  | inputPc : Term .U
  | inputPcP : Term .P
  | glweZero : Term .G
  | add (a b : Term .G) : Term .G
  | sub (a b : Term .G) : Term .G
  | rotate (k : Int) (a : Term .G) : Term .G
  | trace (a : Term .G) : Term .G
  | normalize (a : Term .G) : Term .G
  | blindRotate (a : Term .G) (p : Term .P) (sign : Bool) (rsh mask lsh : Nat) : Term .G
  | retrieve (n : Nat) (l : Fin n → Term .G) (p : Term .P) (offset : Nat) : Term .G
  /-- element `i` of the result -/
  | retrieval (n : Nat) (l : Fin n → Term .G) (p : Term .P) (offset bits i : Nat) : Term .G
  | retrievalRev (n : Nat) (l : Fin n → Term .G) (p : Term .P) (offset bits i : Nat) : Term .G
  | uzero : Term .U
  | pack (n : Nat) (l : Fin n → Term .G) : Term .U
  | getBit (u : Term .U) (i : Nat) : Term .G
  | pzero : Term .P
  | gbit (p : Term .P) (i : Nat) : Term .Bt
  | gzero : Term .Bt
  | bootstrap (u : Term .U) (i : Nat) : Term .Bt
  | ofBits (n : Nat) (l : Fin n → Term .Bt) : Term .P
  | prepareCustom (u : Term .U) (start count : Nat) : Term .P
  | bin (op : BinOp) (p q : Term .P) : Term .U
  | bdd (c : BitCircuit) (f : Nat → Term .Bt) : Term .G
  | identity (p : Term .P) : Term .U
  | select (n : Nat) (keys : Fin n → Nat) (vals : Fin n → Term .U) (p : Term .P)
      (start bits : Nat) : Term .U
  | zeroByte (u : Term .U) (i : Nat) : Term .U
  | sextByte (u : Term .U) (i : Nat) : Term .U
  | spliceU8 (dst src : Nat) (u v : Term .U) : Term .U
  | spliceU16 (dst src : Nat) (u v : Term .U) : Term .U

/-- The library of expressions. -/
@[reducible] def terms (logN : Nat) : Backend where
  Glwe := Term .G
  Uint := Term .U
  Prep := Term .P
  GBit := Term .Bt
  logN := logN
  glweZero := .glweZero
  add := .add
  sub := .sub
  rotate := .rotate
  trace := .trace
  normalize := .normalize
  blindRotate := .blindRotate
  retrieve l := .retrieve l.length l.get
  retrieval l p offset bits := (List.range l.length).map (.retrieval l.length l.get p offset bits)
  retrievalRev l p offset bits :=
    (List.range l.length).map (.retrievalRev l.length l.get p offset bits)
  uzero := .uzero
  pack l := .pack l.length l.get
  getBit := .getBit
  pzero := .pzero
  gbit := .gbit
  gzero := .gzero
  bootstrap := .bootstrap
  ofBits l := .ofBits l.length l.get
  prepareCustom := .prepareCustom
  bin := .bin
  bdd c f := some (.bdd c f)
  identity := .identity
  select m := .select m.length (fun i => (m.get i).1) (fun i => (m.get i).2)
  zeroByte := .zeroByte
  sextByte := .sextByte
  spliceU8 := .spliceU8
  spliceU16 := .spliceU16

/-- The objects of each kind in a library. -/
abbrev Backend.Obj (B : Backend) : Kind → Type
  | .G => B.Glwe
  | .U => B.Uint
  | .P => B.Prep
  | .Bt => B.GBit

/-- Initial ciphertexts. -/
structure Inputs (B : Backend) where
  mem : Nat → Nat → Nat → B.Glwe
  pc : B.Uint
  pcP : B.Prep

/-- The value of an expression in a library. -/
def Term.eval (B : Backend) (ρ : Inputs B) : {k : Kind} → Term k → B.Obj k
  | _, .input c i j => ρ.mem c i j
  | _, .inputPc => ρ.pc
  | _, .inputPcP => ρ.pcP
  | _, .glweZero => B.glweZero
  | _, .add a b => B.add (a.eval B ρ) (b.eval B ρ)
  | _, .sub a b => B.sub (a.eval B ρ) (b.eval B ρ)
  | _, .rotate k a => B.rotate k (a.eval B ρ)
  | _, .trace a => B.trace (a.eval B ρ)
  | _, .normalize a => B.normalize (a.eval B ρ)
  | _, .blindRotate a p sign rsh mask lsh =>
      B.blindRotate (a.eval B ρ) (p.eval B ρ) sign rsh mask lsh
  | _, .retrieve n l p offset =>
      B.retrieve (List.ofFn fun i : Fin n => (l i).eval B ρ) (p.eval B ρ) offset
  | _, .retrieval n l p offset bits i =>
      ((B.retrieval (List.ofFn fun i : Fin n => (l i).eval B ρ) (p.eval B ρ) offset bits)[i]?).getD
        B.glweZero
  | _, .retrievalRev n l p offset bits i =>
      ((B.retrievalRev (List.ofFn fun i : Fin n => (l i).eval B ρ) (p.eval B ρ) offset bits)[i]?).getD
        B.glweZero
  | _, .uzero => B.uzero
  | _, .pack n l => B.pack (List.ofFn fun i : Fin n => (l i).eval B ρ)
  | _, .getBit u i => B.getBit (u.eval B ρ) i
  | _, .pzero => B.pzero
  | _, .gbit p i => B.gbit (p.eval B ρ) i
  | _, .gzero => B.gzero
  | _, .bootstrap u i => B.bootstrap (u.eval B ρ) i
  | _, .ofBits n l => B.ofBits (List.ofFn fun i : Fin n => (l i).eval B ρ)
  | _, .prepareCustom u start count => B.prepareCustom (u.eval B ρ) start count
  | _, .bin op p q => B.bin op (p.eval B ρ) (q.eval B ρ)
  | _, .bdd c f => (B.bdd c fun i => (f i).eval B ρ).getD B.glweZero
  | _, .identity p => B.identity (p.eval B ρ)
  | _, .select n keys vals p start bits =>
      B.select (List.ofFn fun i : Fin n => (keys i, (vals i).eval B ρ)) (p.eval B ρ) start bits
  | _, .zeroByte u i => B.zeroByte (u.eval B ρ) i
  | _, .sextByte u i => B.sextByte (u.eval B ρ) i
  | _, .spliceU8 dst src u v => B.spliceU8 dst src (u.eval B ρ) (v.eval B ρ)
  | _, .spliceU16 dst src u v => B.spliceU16 dst src (u.eval B ρ) (v.eval B ρ)

/-- What the evaluator itself can see of an interpreter: the same interpreter with every ciphertext
replaced by its name. -/
def BitArray.names {B : Backend} (c i : Nat) (b : BitArray B) : BitArray (terms B.logN) where
  data := b.data.mapIdx fun j _ => .input c i j
  bitSize := b.bitSize

def Memory.names {B : Backend} (c : Nat) (m : Memory B) : Memory (terms B.logN) where
  bits := m.bits.mapIdx fun i b => b.names c i
  size := m.size
  bitSize := m.bitSize
  state := m.state

def Interp.names {B : Backend} (vm : Interp B) : Interp (terms B.logN) where
  cycle := vm.cycle
  threads := vm.threads
  romSize := vm.romSize
  ramSize := vm.ramSize
  romBits := vm.romBits
  ramBits := vm.ramBits
  immRom := vm.immRom.names 0
  rs1Rom := vm.rs1Rom.names 1
  rs2Rom := vm.rs2Rom.names 2
  rdRom := vm.rdRom.names 3
  rduRom := vm.rduRom.names 4
  muRom := vm.muRom.names 5
  pcuRom := vm.pcuRom.names 6
  registers := vm.registers.names 7
  ram := vm.ram.names 8
  pc := .inputPc
  pcP := .inputPcP

/-- The ciphertexts of a memory. -/
def Memory.input {B : Backend} (m : Memory B) (i j : Nat) : B.Glwe :=
  ((m.bits[i]?).bind fun b => b.data[j]?).getD B.glweZero

/-- The initial ciphertexts of an interpreter, by name. -/
def Interp.inputs {B : Backend} (vm : Interp B) : Inputs B where
  mem c := Memory.input (match c with
    | 0 => vm.immRom | 1 => vm.rs1Rom | 2 => vm.rs2Rom | 3 => vm.rdRom | 4 => vm.rduRom
    | 5 => vm.muRom | 6 => vm.pcuRom | 7 => vm.registers | _ => vm.ram)
  pc := vm.pc
  pcP := vm.pcP

/-- An interpreter of expressions evaluated. -/
def BitArray.eval {logN : Nat} (B : Backend) (ρ : Inputs B) (b : BitArray (terms logN)) : BitArray B where
  data := b.data.map fun t => Term.eval B ρ t
  bitSize := b.bitSize

def Memory.eval {logN : Nat} (B : Backend) (ρ : Inputs B) (m : Memory (terms logN)) : Memory B where
  bits := m.bits.map (BitArray.eval B ρ)
  size := m.size
  bitSize := m.bitSize
  state := m.state

def Interp.eval {logN : Nat} (B : Backend) (ρ : Inputs B) (vm : Interp (terms logN)) : Interp B where
  cycle := vm.cycle
  threads := vm.threads
  romSize := vm.romSize
  ramSize := vm.ramSize
  romBits := vm.romBits
  ramBits := vm.ramBits
  immRom := vm.immRom.eval B ρ
  rs1Rom := vm.rs1Rom.eval B ρ
  rs2Rom := vm.rs2Rom.eval B ρ
  rdRom := vm.rdRom.eval B ρ
  rduRom := vm.rduRom.eval B ρ
  muRom := vm.muRom.eval B ρ
  pcuRom := vm.pcuRom.eval B ρ
  registers := vm.registers.eval B ρ
  ram := vm.ram.eval B ρ
  pc := Term.eval B ρ vm.pc
  pcP := Term.eval B ρ vm.pcP

end Verif.Model
