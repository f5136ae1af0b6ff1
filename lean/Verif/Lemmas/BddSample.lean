import Verif.Model.Bdd
/-
  The evaluator on tables smaller than those of the repository: which buffer is read when a slot is left alone.  The
  tables of the repository never read such a slot (C20), so that the theorems about them do not show this.
-/
namespace Verif.Model

/-- On the second level slot 2 keeps what the first buffer held, since the buffers are exchanged after each level. -/
example (bit s0 s1 : Nat → Bool) :
    BitCircuit.run ⟨[.copy, .copy, .cmux 0 1 0, .copy, .copy, .none, .cmux 0 2 2, .none, .none], 3⟩ bit s0 s1 = some (s0 2) := by
  simp [BitCircuit.run, BitCircuit.levels, chunks, runLevels, levelStep]

/-- On the first level it keeps what the second one held. -/
example (bit s0 s1 : Nat → Bool) :
    BitCircuit.run ⟨[.copy, .copy, .none, .cmux 0 2 2, .none, .none], 3⟩ bit s0 s1 = some (s1 2) := by
  simp [BitCircuit.run, BitCircuit.levels, chunks, runLevels, levelStep]

/-- A selection between the two constants copies the input bit; with the branches exchanged it inverts it. -/
example (bit s0 s1 : Nat → Bool) : BitCircuit.run ⟨[.cmux 7 1 0], 1⟩ bit s0 s1 = some (bit 7) ∧
    BitCircuit.run ⟨[.cmux 7 0 1], 1⟩ bit s0 s1 = some (!bit 7) := by
  constructor <;> (simp [BitCircuit.run, BitCircuit.levels, chunks, runLevels]) <;> cases bit 7 <;> rfl

/-- The last level must start with a selection; a table without intermediate states gives 0. -/
example (bit s0 s1 : Nat → Bool) : BitCircuit.run ⟨[.copy], 1⟩ bit s0 s1 = none ∧ BitCircuit.run ⟨[], 0⟩ bit s0 s1 = some false := by
  constructor <;> simp [BitCircuit.run, BitCircuit.levels, chunks, runLevels]

end Verif.Model
