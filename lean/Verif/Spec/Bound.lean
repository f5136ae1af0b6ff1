import Verif.Spec.Static
/-
  Specification: a number of cycles that is enough for every input, from the text of a program.  To the table of `Spec/Static` comes a graph:
  at an instruction there can be several nodes, which differ in what is known of a few registers (a loop counter, say), each with a bound
  on the number of instructions up to the final loop.
-/
namespace Verif.Spec

/-- A node: what is known of some registers, and the bound. -/
structure BNode where
  regs : List (Reg × Abs)
  bound : Nat

/-- The registers of the table with what the node knows. -/
def BNode.over (x : BNode) (A : AbsRegs) : AbsRegs := x.regs.foldl (fun A p => A.set p.1.toNat p.2) A

/-- The nodes at every instruction. -/
abbrev BGraph := List (List BNode)

/-- At `pc`, with the registers `A`, there is a node with a bound below `b`. -/
def BGraph.reaches (G : BGraph) (A : AbsRegs) (b : Nat) (pc : Word) : Bool :=
  match G[pc.toNat / 4]? with
  | some ys => ys.any fun y => decide (y.bound < b) && y.regs.all fun p => (A.get p.1).le p.2
  | none => false

/-- The instruction is the final loop, or leads to nodes with a smaller bound. -/
def BNode.ok (G : BGraph) (i : Instr) (pc : Word) (A : AbsRegs) (x : BNode) : Bool :=
  i == .jal 0 0 || i.checked false (x.over A) && (i.nexts pc (x.over A)).all (G.reaches (i.after pc (x.over A)) x.bound)

/-- The check of a program: after at most `b` instructions it is in its final loop. -/
def checkBound (code : List Instr) (T : Table) (G : BGraph) (b : Nat) : Bool :=
  G.reaches (List.replicate 32 (.oneOf [0#32])) (b + 1) 0#32 &&
    (List.range code.length).all fun k =>
      match code[k]?, T[k]?, G[k]? with
      | some i, some (some A), some xs => xs.all (BNode.ok G i (BitVec.ofNat 32 (4 * k)) A)
      | _, _, _ => true

/-! A graph for a program.  Nothing depends on its being right. -/

/-- Bound of the node at `pc` with this knowledge, if it is there. -/
def BGraph.find (G : BGraph) (pc : Word) (regs : List (Reg × Abs)) : Option Nat :=
  ((G.getD (pc.toNat / 4) []).find? fun y => y.regs == regs).map (·.bound)

/-- Add the node at `pc` and those that can be reached from it.  `track` says which registers to follow at an instruction. -/
def BGraph.visit (code : List Instr) (T : Table) (track : Nat → List Reg) : Nat → Word → AbsRegs → BGraph → BGraph
  | 0, _, _, G => G
  | f + 1, pc, A, G =>
    let k := pc.toNat / 4
    let regs := (track k).map fun r => (r, A.get r)
    match G.find pc regs with
    | some _ => G
    | none =>
      match code[k]?, T[k]? with
      | some i, some (some B) =>
        if i = .jal 0 0 then G.set k (⟨regs, 0⟩ :: G.getD k []) else
          let C := BNode.over ⟨regs, 0⟩ B
          let D := i.after pc C
          let ts := i.nexts pc C
          let G := ts.foldl (fun G t => visit code T track f t D G) G
          let b := ts.foldl (fun b t => max b ((G.find t ((track (t.toNat / 4)).map fun r => (r, D.get r))).getD 0)) 0
          G.set k (⟨regs, b + 1⟩ :: G.getD k [])
      | _, _ => G

/-- The graph of a program, with paths of at most `fuel` instructions. -/
def graphOf (code : List Instr) (T : Table) (track : Nat → List Reg) (fuel : Nat) : BGraph :=
  BGraph.visit code T track fuel 0#32 (List.replicate 32 (.oneOf [0#32])) (List.replicate code.length [])

/-- The bound at the start. -/
def boundOf (G : BGraph) : Nat := ((G.getD 0 []).map (·.bound)).foldl max 0

end Verif.Spec
