import Verif.Lemmas.CircuitChecks
/- Every generated circuit is well formed (kernel computations). -/
namespace Verif.Bdd
open Model

theorem lui_wf : Circuits.Lui.circuits.all (wellFormed Circuits.Lui.inputBits) = true := by
  decide +kernel
theorem jalr_wf : Circuits.Jalr.circuits.all (wellFormed Circuits.Jalr.inputBits) = true := by
  decide +kernel
theorem auipc_wf : Circuits.Auipc.circuits.all (wellFormed Circuits.Auipc.inputBits) = true := by
  decide +kernel
theorem ramOffset_wf : Circuits.RamOffset.circuits.all (wellFormed Circuits.RamOffset.inputBits) = true := by
  decide +kernel
theorem pcUpdate_wf : Circuits.PcUpdate.circuits.all (wellFormed Circuits.PcUpdate.inputBits) = true := by
  decide +kernel

theorem run_congr (nin : Nat) (c : BitCircuit) (h : wellFormed nin c = true) (bit bit' : Nat → Bool)
    (hb : ∀ v, v < nin → bit v = bit' v) (s0 s1 s0' s1' : Nat → Bool) :
    c.run bit s0 s1 = c.run bit' s0' s1' := by
  have hw := h
  unfold wellFormed at h
  split at h
  · next h0 => unfold BitCircuit.run; rw [if_pos h0, if_pos h0]
  · next h0 =>
    simp only [Bool.and_eq_true] at h
    obtain ⟨b, hv⟩ := val_defined bit _ h.2 0 (rootOk_defined _ h.1)
    have hv' : val bit' c.levels.reverse 0 = some b := by
      rw [← val_congr bit bit' hb _ h.2 0]; exact hv
    have key : ∀ (x : Nat → Bool) (q0 q1 : Nat → Bool), val x c.levels.reverse 0 = some b →
        c.run x q0 q1 = some b := by
      intro x q0 q1 hx
      unfold BitCircuit.run
      rw [if_neg h0]
      apply val_run x c.levels [] _ _ _ h.1 b (by simpa using hx)
      intro j b hj
      simp only [val] at hj
      split at hj
      · simp_all
      · split at hj <;> simp_all
    rw [key bit s0 s1 hv, key bit' s0' s1' hv']

end Verif.Bdd
