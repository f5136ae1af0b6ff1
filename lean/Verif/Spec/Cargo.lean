import Verif.Model.Build
/-
  What cargo promises: it reads its flags from `CARGO_ENCODED_RUSTFLAGS` (separated by 0x1f), its options from the command line,
  and after a successful build the binary lies in the target directory, under the target, the profile and the name.
-/
namespace Verif.Spec.Cargo
open Model.Build

/-- Splitting at a character. -/
def split (sep : Char) : Str → List Str
  | [] => [[]]
  | c :: cs =>
    if c = sep then [] :: split sep cs
    else match split sep cs with
      | [] => [[c]]
      | x :: xs => (c :: x) :: xs

/-- The options of the command line, each with its value. -/
def pairs : List Str → Option (List (Str × Str))
  | [] => some []
  | o :: v :: r => if "--".toList.isPrefixOf o then (pairs r).map ((o, v) :: ·) else none
  | _ => none

/-- `cargo build` with options. -/
def options : List Str → Option (List (Str × Str))
  | c :: r => if c = "build".toList then pairs r else none
  | [] => none

/-- A build as requested. -/
structure Request where
  flags : List Str
  package : Str
  bin : Str
  target : Str
  profile : Str
  deriving DecidableEq

/-- Cargo that, when it succeeds, leaves the result `artifact` of the request in the place it documents. -/
def Honest (cargo : Cargo) (artifact : Request → List (BitVec 8)) : Prop :=
  ∀ env as os fs package bin target profile dir, options as = some os →
    os.lookup "--package".toList = some package → os.lookup "--bin".toList = some bin →
    os.lookup "--target".toList = some target → os.lookup "--profile".toList = some profile →
    os.lookup "--target-dir".toList = some dir →
    (cargo env as fs).1 = true →
    (cargo env as fs).2 (dir ++ '/' :: target ++ '/' :: profile ++ '/' :: bin) =
      some (artifact ⟨split (Char.ofNat 0x1f) env, package, bin, target, profile⟩)

end Verif.Spec.Cargo
