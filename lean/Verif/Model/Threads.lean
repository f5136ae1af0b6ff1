/-
  Work distribution over threads: `thread::scope` with `chunks_mut(len.div_ceil(threads))` zipped with
  one scratch space per thread (fhevm/src/memory.rs:170-190, 226-242, 285-301, 348-368, 413-432;
  prepare.rs:72-120).
-/
namespace Verif.Model

/-- `usize::div_ceil`. -/
def divCeil (a b : Nat) : Nat := (a + b - 1) / b

/-- Indices handled by thread `idx`: the `idx`-th chunk of size `cs`. -/
def threadChunk (len cs idx : Nat) : List Nat :=
  List.range' (idx * cs) (min cs (len - idx * cs))

/-- Indices in the order of the threads; `none`: `div_ceil` by zero, or `chunks_mut(0)`, panics.
The zip with the scratch spaces drops chunks beyond the number of threads. -/
def threadOrder (threads len : Nat) : Option (List Nat) :=
  if threads = 0 then none
  else
    let cs := divCeil len threads
    if cs = 0 then none
    else some ((List.range (min threads (divCeil len cs))).flatMap (threadChunk len cs))

/-- Tasks executed one after the other in a given order; the task of index `i` updates element `i`
only. -/
def runTasks {α : Type} (order : List Nat) (f : Nat → α → α) (xs : List α) : List α :=
  order.foldl (fun ys i => ys.modify i (f i)) xs

/-- All elements processed with the given number of threads. -/
def parallel {α : Type} (threads : Nat) (f : Nat → α → α) (xs : List α) : Option (List α) :=
  (threadOrder threads xs.length).map fun order => runTasks order f xs

end Verif.Model
