import Verif.Spec.SameStep
import Verif.Spec.Start
/-
  Specification: a check of a program that can be computed without running it.  It goes with a table that says of every register at every
  instruction which values it can have; the check is that the table is kept by every instruction and that no instruction, with operands as the
  table says, is one that a VM refuses or on which the two VMs differ.
-/
namespace Verif.Spec

/-- Possible values of a register: one of a list, a multiple of four, a number of so many bits, or anything. -/
inductive Abs where
  | oneOf (ws : List Word)
  | four
  | below (bits : Nat)
  | any
  deriving DecidableEq, Repr

/-- `w` is one of these values. -/
def Abs.has : Abs → Word → Bool
  | .oneOf ws, w => ws.contains w
  | .four, w => w.toNat % 4 == 0
  | .below k, w => w.toNat < 2 ^ k
  | .any, _ => true

/-- All values of the first are values of the second (or cannot be told to be). -/
def Abs.le : Abs → Abs → Bool
  | _, .any => true
  | .oneOf ws, b => ws.all b.has
  | .four, .four => true
  | .below j, .below k => j ≤ k
  | _, _ => false

/-- All values are multiples of `n`, a divisor of four. -/
def Abs.div (n : Nat) : Abs → Bool
  | .oneOf ws => ws.all fun w => w.toNat % n == 0
  | .four => 4 % n == 0
  | _ => n == 1

/-- All values are at least `n`. -/
def Abs.atLeast (n : Nat) : Abs → Bool
  | .oneOf ws => ws.all fun w => n ≤ w.toNat
  | _ => false

/-- The values with `c` added. -/
def Abs.plus (c : Word) : Abs → Abs
  | .oneOf ws => .oneOf (ws.map (· + c))
  | .four => if c.toNat % 4 = 0 then .four else .any
  | _ => .any

/-- The values of a function. -/
def Abs.map (f : Word → Word) : Abs → Abs
  | .oneOf ws => .oneOf (ws.map f)
  | _ => .any

/-- The values of a function of two arguments. -/
def Abs.map2 (f : Word → Word → Word) : Abs → Abs → Abs
  | .oneOf us, .oneOf vs => .oneOf (us.flatMap fun u => vs.map (f u))
  | _, _ => .any

/-- The values shifted to the right. -/
def Abs.shr (n : Nat) : Abs → Abs
  | .oneOf ws => .oneOf (ws.map fun x => ShiftOp.eval .srli x n)
  | .below k => if k ≤ n then .oneOf [0#32] else .below (k - n)
  | _ => if 32 ≤ n then .oneOf [0#32] else .below (32 - n)

/-- The values of the 32 registers; `x0` is zero. -/
abbrev AbsRegs := List Abs

def AbsRegs.get (A : AbsRegs) (r : Reg) : Abs := if r = 0#5 then .oneOf [0#32] else List.getD A r.toNat .any

def AbsRegs.has (A : AbsRegs) (s : Arch) : Prop := ∀ r, (A.get r).has (s.x r) = true

def AbsRegs.le (A B : AbsRegs) : Bool := (List.range 32).all fun r => (A.get (BitVec.ofNat 5 r)).le (B.get (BitVec.ofNat 5 r))

/-- The register an instruction at `pc` writes and its possible values. -/
def Instr.writes (pc : Word) (A : AbsRegs) : Instr → Option (Reg × Abs)
  | .lui rd imm => some (rd, .oneOf [immU imm])
  | .auipc rd imm => some (rd, .oneOf [pc + immU imm])
  | .jal rd _ => some (rd, .oneOf [pc + 4#32])
  | .jalr rd _ _ => some (rd, .oneOf [pc + 4#32])
  | .branch .. => none
  | .load _ rd _ _ => some (rd, .any)
  | .store .. => none
  | .opImm .addi rd rs1 imm => some (rd, (A.get rs1).plus (immI imm))
  | .opImm o rd rs1 imm => some (rd, (A.get rs1).map fun x => o.eval x (immI imm))
  | .shImm .srli rd rs1 sh => some (rd, (A.get rs1).shr sh.toNat)
  | .shImm o rd rs1 sh => some (rd, if o = .slli ∧ 2 ≤ sh.toNat ∧ A.get rs1 = .any then .four else (A.get rs1).map fun x => o.eval x sh.toNat)
  | .op o rd rs1 rs2 => some (rd, match A.get rs1, A.get rs2 with
    | .oneOf us, .oneOf vs => Abs.map2 o.eval (.oneOf us) (.oneOf vs)
    | a, b => if (o = .add) ∧ a.div 4 ∧ b.div 4 then .four else .any)
  | .mul _ rd _ _ => some (rd, .any)

/-- The registers afterwards. -/
def Instr.after (pc : Word) (A : AbsRegs) (i : Instr) : AbsRegs :=
  match i.writes pc A with
  | some (rd, v) => A.set rd.toNat v
  | none => A

/-- Where execution can go on. -/
def Instr.nexts (pc : Word) (A : AbsRegs) : Instr → List Word
  | .jal _ imm => [pc + immJ imm]
  | .jalr _ rs1 imm =>
    match A.get rs1 with
    | .oneOf ws => ws.map fun w => (w + immI imm) &&& ~~~1#32
    | _ => []
  | .branch o rs1 rs2 imm =>
    match A.get rs1, A.get rs2 with
    | .oneOf us, .oneOf vs =>
      (if us.any fun u => vs.any fun v => o.taken u v then [pc + immB imm] else []) ++
        if us.any fun u => vs.any fun v => !o.taken u v then [pc + 4#32] else []
    | _, _ => [pc + immB imm, pc + 4#32]
  | _ => [pc + 4#32]

/-- The instruction is not refused and is the same on both VMs.  With `win` accesses must not be below the RAM. -/
def Instr.checked (win : Bool) (A : AbsRegs) : Instr → Bool
  | .load o rd rs1 imm =>
    let a := (A.get rs1).plus (immI imm)
    a.div o.size && (rd == 0#5 || o == .lw || (o != .lb && a.div 4)) && (!win || a.atLeast ramBase)
  | .store o rs1 _ imm =>
    let a := (A.get rs1).plus (immI imm)
    a.div o.size && (!win || a.atLeast ramBase)
  | .jal _ imm => decide (-2 ^ 18 ≤ imm.toInt ∧ imm.toInt < 2 ^ 18)
  | .jalr _ rs1 _ => match A.get rs1 with | .oneOf _ => true | _ => false
  | .mul .. => false
  | _ => true

/-- The table: for every instruction the registers before it, or `none` if it cannot be reached. -/
abbrev Table := List (Option AbsRegs)

/-- The table is right at `pc` for the registers `A`. -/
def Table.covers (T : Table) (A : AbsRegs) (pc : Word) : Bool :=
  pc.toNat % 4 == 0 && match T[pc.toNat / 4]? with
    | some (some B) => A.le B
    | _ => false

/-- The check of a program. -/
def checkProgram (win : Bool) (code : List Instr) (T : Table) : Bool :=
  T.length == code.length && T.covers (List.replicate 32 (.oneOf [0#32])) 0#32 &&
    (List.range code.length).all fun k =>
      match code[k]?, T[k]? with
      | some i, some (some A) => i.checked win A && (i.nexts (BitVec.ofNat 32 (4 * k)) A).all (T.covers (i.after (BitVec.ofNat 32 (4 * k)) A))
      | _, _ => true

/-- The words of the text: where the table says that execution can get, they are the instructions. -/
def Table.text (T : Table) (code : List Instr) (words : List Word) : Bool :=
  words.length == code.length &&
    (List.range code.length).all fun k =>
      match T[k]? with
      | some (some _) => words[k]? == code[k]?.map encode
      | _ => true

/-! A table for a program.  Nothing depends on its being right: that is what the check is for. -/

/-- Values of both. -/
def Abs.join (a b : Abs) : Abs :=
  if a.le b then b else if b.le a then a else
    match a, b with
    | .oneOf us, .oneOf vs =>
      let ws := us ++ vs.filter fun v => !us.contains v
      if ws.length ≤ 3 then .oneOf ws else if (Abs.oneOf ws).div 4 then .four else .any
    | a, b => if a.div 4 && b.div 4 then .four else .any

/-- The table with the registers `A` added at `pc`. -/
def Table.add (T : Table) (A : AbsRegs) (pc : Word) : Table :=
  match T[pc.toNat / 4]? with
  | some (some B) => if A.le B then T else T.set (pc.toNat / 4) (some (List.zipWith Abs.join A B))
  | some none => T.set (pc.toNat / 4) (some A)
  | none => T

/-- Once through the program. -/
def Table.pass (code : List Instr) (T : Table) : Table :=
  (List.range code.length).foldl (fun T k =>
    match code[k]?, T[k]? with
    | some i, some (some A) => (i.nexts (BitVec.ofNat 32 (4 * k)) A).foldl (fun T pc => T.add (i.after (BitVec.ofNat 32 (4 * k)) A) pc) T
    | _, _ => T) T

/-- The table after `n` times. -/
def tableOf (code : List Instr) : Nat → Table
  | 0 => ((List.replicate code.length none).set 0 (some (List.replicate 32 (.oneOf [0#32]))))
  | n + 1 => (tableOf code n).pass code

end Verif.Spec
