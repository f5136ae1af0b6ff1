/-
  Model of the evaluation of the generated circuits (`fhevm/src/codegen/codegen_*.rs`).

  The tables are values of the dependency's types `Node`, `BitCircuit { nodes, max_inter_state }`
  (poulpy_schemes::bin_fhe::bdd_arithmetic), whose evaluator `execute_bdd_circuit` is outside
  /repo.  The evaluator below is the contract assumed for it, on plaintext bits:

  * the node array is cut into levels of `max_inter_state` nodes, evaluated in order;
  * there are two state buffers; slot 0 of the first holds 0 and slot 1 holds 1, every other slot
    of both buffers has arbitrary contents;
  * on each level but the last, `Cmux(sel, hi, lo)` at position `j` writes to slot `j` of the new
    buffer the value of slot `hi` (if input bit `sel` is 1) or `lo` (if it is 0) of the old one,
    `Copy` writes slot `j` of the old buffer, `None` leaves slot `j` of the new buffer as it was;
    then the buffers are exchanged;
  * on the last level only node 0 is evaluated, it must be a `Cmux`, and its value is the output;
  * a circuit with `max_inter_state = 0` outputs 0.
-/
namespace Verif.Model

/-- `Node` of the circuit tables. -/
inductive Node | cmux (sel hi lo : Nat) | copy | none
  deriving DecidableEq, Repr

/-- `BitCircuit<N> { nodes, max_inter_state }`. -/
structure BitCircuit where
  nodes : List Node
  maxInterState : Nat

/-- Levels of `w` nodes; a trailing incomplete level is kept as is (fuel `n`). -/
def chunks (w : Nat) : Nat → List Node → List (List Node)
  | 0, _ => []
  | _ + 1, [] => []
  | n + 1, l => l.take w :: chunks w n (l.drop w)

def BitCircuit.levels (c : BitCircuit) : List (List Node) :=
  chunks c.maxInterState c.nodes.length c.nodes

/-- One inner level: contents of the new buffer. -/
def levelStep (bit : Nat → Bool) (l : List Node) (prev next : Nat → Bool) : Nat → Bool := fun j =>
  match l[j]? with
  | some (.cmux v hi lo) => if bit v then prev hi else prev lo
  | some .copy => prev j
  | _ => next j

/-- All levels; `none` = the evaluator panics. -/
def runLevels (bit : Nat → Bool) : List (List Node) → (prev next : Nat → Bool) → Option Bool
  | [], _, _ => none
  | [last], prev, _ =>
    match last with
    | .cmux v hi lo :: _ => some (if bit v then prev hi else prev lo)
    | _ => none
  | l :: l' :: ls, prev, next => runLevels bit (l' :: ls) (levelStep bit l prev next) prev

/-- Output bit of a circuit; `stale0`, `stale1` are the previous contents of the two buffers. -/
def BitCircuit.run (c : BitCircuit) (bit : Nat → Bool) (stale0 stale1 : Nat → Bool) : Option Bool :=
  if c.maxInterState = 0 then some false
  else runLevels bit c.levels
    (fun j => if j = 0 then false else if j = 1 then true else stale0 j) stale1

end Verif.Model
