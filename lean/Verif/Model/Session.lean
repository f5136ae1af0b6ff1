import Verif.Model.Loader
/-
  Model of the use of a VM by more than one call of its public functions: compiler/src/interpreter/testvm.rs (`execute`, `run`,
  `read_input_tape`, `output_tape`) and compiler/src/interpreter.rs (`EncryptedVM::execute`, called again).
-/
namespace Verif.Model

/-- The public functions of `TestVM` besides `init`, testvm.rs:404 (`execute`), 413 (`run`), 1151 (`read_input_tape`), 1160
(`output_tape`). -/
inductive VmCall where
  | tape (bytes : List (BitVec 8))
  | run
  | execute
  | output

/-- Calls on the same test VM one after the other, with all outputs.  `output_tape` takes `&self`, testvm.rs:1160, and leaves the VM as it
is. -/
def TestVM.session (chk : Bool) : List VmCall → TestVM → Option (TestVM × List (List (BitVec 8)))
  | [], vm => some (vm, [])
  | .tape t :: cs, vm => (vm.readInputTape chk t).bind (TestVM.session chk cs)
  | .run :: cs, vm => (vm.run chk).bind (TestVM.session chk cs)
  | .execute :: cs, vm => (vm.execute chk).bind (TestVM.session chk cs)
  | .output :: cs, vm => (vm.outputTape chk).bind fun o => (TestVM.session chk cs vm).map fun r => (r.1, o :: r.2)

/-- `EncryptedVM::execute` called `r` times, interpreter.rs:121-138. -/
def EncVM.again {B : Backend} (C : Cipher B) (decU : B.Uint → U32) (decP : B.Prep → U32) : Nat → EncVM B → Option (EncVM B)
  | 0, vm => some vm
  | r + 1, vm => (vm.execute C decU decP).bind (EncVM.again C decU decP r)

end Verif.Model
