/-
  What a word memory is: a list of words, with at most one two-phase access in progress.
-/
namespace Verif.Spec

/-- A memory of words; `pending` is the index of a two-phase access in progress. -/
structure WordMem where
  words : List (BitVec 32)
  pending : Option Nat

/-- Accesses, with plain word indices. -/
inductive MemReq
  | read (i : Nat)
  | write (i : Nat) (w : BitVec 32)
  | begin (i : Nat)
  | finish (i : Nat) (w : BitVec 32)
  | clear (i : Nat)

/-- Effect of an access, with the word returned; `none`: not allowed. -/
def WordMem.step (s : WordMem) : MemReq → Option (WordMem × Option (BitVec 32))
  | .read i =>
    match s.pending, s.words[i]? with
    | none, some w => some (s, some w)
    | _, _ => none
  | .write i w =>
    match s.pending with
    | none => if i < s.words.length then some ({ s with words := s.words.set i w }, none) else none
    | some _ => none
  | .begin i =>
    match s.pending, s.words[i]? with
    | none, some w => some ({ s with pending := some i }, some w)
    | _, _ => none
  | .finish i w =>
    if s.pending = some i then some ({ words := s.words.set i w, pending := none }, none) else none
  | .clear i =>
    match s.pending with
    | none => if i < s.words.length then some ({ s with words := s.words.set i 0#32 }, none) else none
    | some _ => none

def WordMem.run (s : WordMem) : List MemReq → Option (WordMem × List (Option (BitVec 32)))
  | [] => some (s, [])
  | r :: rs =>
    match s.step r with
    | none => none
    | some (s', o) =>
      match s'.run rs with
      | none => none
      | some (s'', os) => some (s'', o :: os)

end Verif.Spec
