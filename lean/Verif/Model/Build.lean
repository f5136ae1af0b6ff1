/-
  Building a guest, compiler/src/lib.rs:12-83: the command line for cargo, the environment variable with the compiler flags,
  and reading the result.  Cargo itself is a parameter: a function of the environment variable, the arguments and the files.
  Strings are lists of characters.  The path of the linker script (a compile-time constant, made absolute) is a parameter.
  Left out: copying cargo's messages to the error output.
-/
namespace Verif.Model.Build

abbrev Str := List Char

def target : Str := "riscv32i-unknown-none-elf".toList
def profile : Str := "release".toList

/-- The separator of `CARGO_ENCODED_RUSTFLAGS`, lib.rs:42. -/
def unitSep : Char := '\x1f'

/-- `join`. -/
def join (sep : Char) : List Str → Str
  | [] => []
  | [x] => x
  | x :: xs => x ++ sep :: join sep xs

/-- lib.rs:35-41. -/
def flags (linker : Str) : List Str :=
  ["-C".toList, "link-arg=-T".toList ++ linker, "-C".toList, "panic=abort".toList]

/-- lib.rs:42. -/
def encodedFlags (linker : Str) : Str := join unitSep (flags linker)

/-- lib.rs:45. -/
def destination (name : Str) : Str := "/tmp/vm-experiments/".toList ++ name

/-- lib.rs:50-63. -/
def args (program name : Str) : List Str :=
  ["build".toList, "--profile".toList, profile, "--target".toList, target, "--package".toList, program,
   "--bin".toList, program, "--target-dir".toList, destination name]

/-- lib.rs:73-79. -/
def elfPath (program name : Str) : Str :=
  destination name ++ '/' :: target ++ '/' :: profile ++ '/' :: program

abbrev Files := Str → Option (List (BitVec 8))

/-- What cargo does with the variable `CARGO_ENCODED_RUSTFLAGS`, its arguments and the files: whether it succeeds, and the
files afterwards. -/
abbrev Cargo := Str → List Str → Files → Bool × Files

/-- `CompileOpts::build`, lib.rs:24-82.  `linker` is `none` if the linker script is not there, `cargo` is `none` if the
variable `CARGO` is not set or the command cannot be started; both panic, as does a failed compilation. -/
def build (cargo : Option Cargo) (linker : Option Str) (fs : Files) (program name : Str) : Option (List (BitVec 8)) :=
  linker.bind fun l =>
  cargo.bind fun c =>
  let r := c (encodedFlags l) (args program name) fs
  if r.1 then r.2 (elfPath program name) else none

end Verif.Model.Build
