import Verif.Model.GenTests
/-
  Reading constant declarations of Rust: `pub const NAME: TYPE = EXPR;`, with integer literals, arrays, references and
  parentheses, and the coercion of a reference to an array to a reference to a slice.
-/
namespace Verif.Spec.RustConst
open Model.Gen

inductive Ty | usize | u8 | arr (t : Ty) (n : Nat) | slice (t : Ty) | ref (t : Ty)
  deriving DecidableEq

inductive Expr | usize (n : Nat) | u8 (b : BitVec 8) | arr (es : List Expr) | ref (e : Expr)

inductive Val | usize (n : Nat) | u8 (b : BitVec 8) | list (vs : List Val)

def parseTy : Nat → List Tok → Option (Ty × List Tok)
  | 0, _ => none
  | _ + 1, .kwUsize :: r => some (.usize, r)
  | _ + 1, .kwU8 :: r => some (.u8, r)
  | f + 1, .amp :: r => (parseTy f r).map fun x => (.ref x.1, x.2)
  | f + 1, .lbra :: r =>
    match parseTy f r with
    | some (t, .rbra :: r) => some (.slice t, r)
    | some (t, .semi :: .usize n :: .rbra :: r) => some (.arr t n, r)
    | _ => none
  | _ + 1, _ => none

mutual
/-- An expression and what follows it. -/
def parseExpr : Nat → List Tok → Option (Expr × List Tok)
  | 0, _ => none
  | _ + 1, .usize n :: r => some (.usize n, r)
  | _ + 1, .u8 b :: r => some (.u8 b, r)
  | f + 1, .amp :: r => (parseExpr f r).map fun x => (.ref x.1, x.2)
  | f + 1, .lpar :: r =>
    match parseExpr f r with
    | some (e, .rpar :: r) => some (e, r)
    | _ => none
  | f + 1, .lbra :: r => (parseList f r).map fun x => (.arr x.1, x.2)
  | _ + 1, _ => none
/-- Expressions up to the closing bracket, separated by commas. -/
def parseList : Nat → List Tok → Option (List Expr × List Tok)
  | 0, _ => none
  | _ + 1, .rbra :: r => some ([], r)
  | f + 1, ts =>
    match parseExpr f ts with
    | some (e, .rbra :: r) => some ([e], r)
    | some (e, .comma :: r) => (parseList f r).map fun x => (e :: x.1, x.2)
    | _ => none
end

mutual
/-- The value of an expression at a type; `none` is a type error. -/
def eval : Ty → Expr → Option Val
  | .usize, .usize n => some (.usize n)
  | .u8, .u8 b => some (.u8 b)
  | .arr t n, .arr es => if es.length = n then (evalAll t es).map .list else none
  | .ref (.slice t), .ref (.arr es) => (evalAll t es).map .list
  | .ref t, .ref e => eval t e
  | _, _ => none
def evalAll : Ty → List Expr → Option (List Val)
  | _, [] => some []
  | t, e :: es =>
    match eval t e, evalAll t es with
    | some v, some vs => some (v :: vs)
    | _, _ => none
end

/-- The constants at the beginning of a file with their values, and the rest. -/
def constants : Nat → List Tok → Option (List (String × Val) × List Tok)
  | f + 1, .kwPub :: .kwConst :: .name s :: .colon :: r =>
    match parseTy (f + 1) r with
    | some (t, .eq :: r) =>
      match parseExpr (f + 1) r with
      | some (e, .semi :: r) =>
        match eval t e, constants f r with
        | some v, some (l, r) => some ((s, v) :: l, r)
        | _, _ => none
      | _ => none
    | _ => none
  | _, r => some ([], r)

/-- A function `pub fn NAME() -> Vec<(&'static [u8], &'static [u8])> { A.iter().zip(B.iter()).map(|(&x, &y)| (u, v)).collect() }`: its
name, the two constants it goes through, and for `u` and `v` whether they are `x`. -/
def pairFn : List Tok → Option (String × String × String × Bool × Bool)
  | .kwPub :: .other "fn" :: .name f :: .lpar :: .rpar :: .other "->" :: .name "Vec" :: .other "<" :: .lpar :: .amp ::
    .other "'static" :: .lbra :: .kwU8 :: .rbra :: .comma :: .amp :: .other "'static" :: .lbra :: .kwU8 :: .rbra :: .rpar :: .other ">" ::
    .other "{" :: .name a :: .other "." :: .name "iter" :: .lpar :: .rpar :: .other "." :: .name "zip" :: .lpar ::
    .name b :: .other "." :: .name "iter" :: .lpar :: .rpar :: .rpar :: .other "." :: .name "map" :: .lpar :: .other "|" ::
    .lpar :: .amp :: .name x :: .comma :: .amp :: .name y :: .rpar :: .other "|" :: .lpar :: .name u :: .comma ::
    .name v :: .rpar :: .rpar :: .other "." :: .name "collect" :: .lpar :: .rpar :: [.other "}"] =>
      if x ≠ y ∧ (u = x ∨ u = y) ∧ (v = x ∨ v = y) then some (f, a, b, u = x, v = x) else none
  | _ => none

/-- The name of the function at the end of a file and what it returns; `none` is an error of the compiler. -/
def returns (cs : List (String × Val)) (ts : List Tok) : Option (String × List (Val × Val)) :=
  match pairFn ts with
  | some (f, a, b, u, v) =>
    match cs.lookup a, cs.lookup b with
    | some (.list as), some (.list bs) => some (f, (as.zip bs).map fun p => (if u then p.1 else p.2, if v then p.1 else p.2))
    | _, _ => none
  | none => none

/-- Bytes as a value. -/
def bytes (l : List (BitVec 8)) : Val := .list (l.map .u8)

end Verif.Spec.RustConst
