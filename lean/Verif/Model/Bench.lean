import Verif.Model.Host
import Verif.Model.Template
/-
  The benchmark of one cycle, fhevm/benches/cycle.rs.  What the benchmarking library does with the times is left out; it
  calls the closure some number of times.
-/
namespace Verif.Model

/-- cycle.rs:102-105: 1024 times the word of ECALL. -/
def benchRom : List U32 := List.replicate 1024 0b00000000_00000000_00000000_1110011#32

/-- cycle.rs:107. -/
def benchRam : List U32 := List.replicate 64 0#32

variable {B : Backend} (C : Cipher B)

/-- `benc_cycle`, cycle.rs:70-176, for any program and RAM: an interpreter with mirror is set up, and the closure of
cycle.rs:165-168 is called `n` times.  It calls `cycle`, which does not touch the mirror. -/
def benchWith (rand : Nat → Nat → Nat → C.Rand) (dbg : Bool) (threads : Nat) (rom ram : List U32) (n : Nat) :
    Option (Interp B × Debug) :=
  (Parser.new.addAll dbg rom).bind fun p =>
  (Interp.load C rand dbg rom.length ram.length threads p ram).bind fun vm =>
  (((Debug.new rom.length ram.length).setInstructions dbg p).bind fun d => d.setRam ram).bind fun d =>
  (vm.run n).map fun vm => (vm, d)

/-- `benc_cycle_with_backend`, cycle.rs:47-68: `PHANTOM_THREADS`, by default 32. -/
def bench (rand : Nat → Nat → Nat → C.Rand) (utf8 : List (BitVec 8) → Bool) (env : Host.Env) (dbg : Bool) (n : Nat) :
    Option (Interp B × Debug) :=
  benchWith C rand dbg (Host.threads utf8 env 32) benchRom benchRam n

end Verif.Model
