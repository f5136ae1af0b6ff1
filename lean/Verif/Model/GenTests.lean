import Verif.Model.Loader
import Verif.Model.Guests
/-
  The generator of test files, compiler-tests/gen-tests/src/lib.rs and guest_test1.rs.

  The generated file is a sequence of Rust tokens, as `quote!` makes it.  Left out: how `to_string` puts blanks between
  tokens, comments (`quote!` drops them), rustfmt, and writing the file.  `write_guest_test1` calls `CompileOpts::build`
  without the argument it takes (compiler/src/lib.rs:24), so the crate does not compile against the present compiler crate;
  the model starts from the `Phantom`.
-/
namespace Verif.Model.Gen

/-- The tokens that occur. -/
inductive Tok
  | kwPub | kwConst | kwUsize | kwU8
  | colon | eq | semi | comma | amp | lpar | rpar | lbra | rbra
  | name (s : String)
  /-- An interpolated `usize`, printed with its suffix. -/
  | usize (n : Nat)
  /-- An interpolated `u8`, printed with its suffix. -/
  | u8 (b : BitVec 8)
  /-- Any other token; only in the function at the end. -/
  | other (s : String)
  deriving DecidableEq

/-- `#(#xs),*` -/
def sep : List (List Tok) → List Tok
  | [] => []
  | [x] => x
  | x :: xs => x ++ .comma :: sep xs

/-- `pub const NAME: usize = #n;` -/
def constUsize (s : String) (n : Nat) : List Tok :=
  [.kwPub, .kwConst, .name s, .colon, .kwUsize, .eq, .usize n, .semi]

/-- `pub const NAME: [u8; #len] = [ #(#bytes),* ];` -/
def constBytes (s : String) (len : Nat) (bytes : List (BitVec 8)) : List Tok :=
  [.kwPub, .kwConst, .name s, .colon, .lbra, .kwU8, .semi, .usize len, .rbra, .eq, .lbra] ++
    sep (bytes.map fun b => [.u8 b]) ++ [.rbra, .semi]

/-- `quote! { [#(#bytes),*] }`, lib.rs:45-59. -/
def arrayOf (bytes : List (BitVec 8)) : List Tok := .lbra :: sep (bytes.map fun b => [.u8 b]) ++ [.rbra]

/-- `pub const NAME: &[&[u8]] = &[ #(&(#arrays)),* ];` -/
def constSlices (s : String) (arrays : List (List Tok)) : List Tok :=
  [.kwPub, .kwConst, .name s, .colon, .amp, .lbra, .amp, .lbra, .kwU8, .rbra, .rbra, .eq, .amp, .lbra] ++
    sep (arrays.map fun a => [.amp, .lpar] ++ a ++ [.rpar]) ++ [.rbra, .semi]

/-- `get_test_cases`, lib.rs:100-105. -/
def getTestCasesToks : List Tok :=
  .kwPub :: .other "fn" :: .name "get_test_cases" :: [.lpar, .rpar, .other "->", .name "Vec", .other "<", .lpar, .amp,
    .other "'static", .lbra, .kwU8, .rbra, .comma, .amp, .other "'static", .lbra, .kwU8, .rbra, .rpar, .other ">",
    .other "{", .name "TEST_CASE_INPUTS", .other ".", .name "iter", .lpar, .rpar, .other ".", .name "zip", .lpar,
    .name "TEST_CASE_OUTPUTS", .other ".", .name "iter", .lpar, .rpar, .rpar, .other ".", .name "map", .lpar, .other "|",
    .lpar, .amp, .name "input", .comma, .amp, .name "output", .rpar, .other "|", .lpar, .name "input", .comma,
    .name "output", .rpar, .rpar, .other ".", .name "collect", .lpar, .rpar, .other "}"]

/-- `codegen_test_cases`, lib.rs:20-108. -/
def codegen (p : Phantom) (cases : List (List (BitVec 8) × List (BitVec 8))) : List Tok :=
  constUsize "BOOT_ROM_OFFSET" p.bootRom.offset ++
  constUsize "BOOT_ROM_SIZE" p.bootRom.size ++
  constBytes "BOOT_ROM_DATA" p.bootRom.data.length p.bootRom.data ++
  constUsize "BOOT_RAM_OFFSET" p.bootRam.offset ++
  constUsize "BOOT_RAM_SIZE" p.bootRam.size ++
  constBytes "BOOT_RAM_DATA" p.bootRam.data.length p.bootRam.data ++
  constUsize "INPUT_START_ADDR" p.input.startAddr ++
  constUsize "INPUT_SIZE" p.input.size ++
  constUsize "OUTPUT_START_ADDR" p.output.startAddr ++
  constUsize "OUTPUT_SIZE" p.output.size ++
  constUsize "TEST_CASES_COUNT" cases.length ++
  constSlices "TEST_CASE_INPUTS" (cases.map fun c => arrayOf c.1) ++
  constSlices "TEST_CASE_OUTPUTS" (cases.map fun c => arrayOf c.2) ++
  getTestCasesToks

/-- `to_u8_slice(&input)`, guest_test1.rs:39: a `u32`, a `bool` and three bytes of padding, which are whatever was in memory
(reading them is undefined behaviour in Rust; here they are a parameter). -/
def inputBytes (pad : List (BitVec 8)) (inA : BitVec 32) (branch : Bool) : List (BitVec 8) :=
  Guest.putWord inA ++ Guest.putBool branch :: pad

/-- `test_cases`, guest_test1.rs:33-43; `none` is an overflow panic in `run`. -/
def testCases (chk : Bool) (pad : BitVec 32 → Bool → List (BitVec 8)) :
    Option (List (List (BitVec 8) × List (BitVec 8))) :=
  ([10#32, 20#32, 30#32].flatMap fun a => [true, false].map fun b => (a, b)).mapM fun (a, b) =>
    (Guest.test1 chk a b).map fun o => (inputBytes (pad a b) a b, Guest.putWord o)

end Verif.Model.Gen
