import Verif.Spec.EveryWord
/-
  Specification: what is executed under encryption beyond the end of the program.
-/
namespace Verif.Spec

/-- A program counter, taken modulo `2 ^ bits`, that is beyond the words of the program. -/
def Beyond (rom : List Byte) (bits : Nat) (pc : Word) : Prop := rom.length / 4 ≤ pc.toNat % 2 ^ bits / 4

/-- What is executed at a program counter: the word of the program that is there, and a branch to itself beyond the program. -/
def FetchPast (rom : List Byte) (bits : Nat) (fetch : Word → Option Instr) : Prop :=
  ∀ pc i, fetch pc = some i ↔ (∃ w, CodeWord rom (4 * (pc.toNat % 2 ^ bits / 4)) w ∧ ReadsAs w i) ∨
    Beyond rom bits pc ∧ i = .branch .beq 0#5 0#5 0#12

end Verif.Spec
