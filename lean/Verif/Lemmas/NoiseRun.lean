import Verif.Lemmas.NoiseInterp
import Verif.Lemmas.Runs
/-
  Noise of the interpreter as set up from a program, and the plaintext run beside it.
-/
namespace Verif.Model
open Verif.Spec (Fits FitsRun regGrowth ramGrowth wordNoise)

variable {N : Noisy}

theorem Interp.load_nrel (rand : Nat → Nat → Nat → N.C.Rand) (dbg : Bool)
    (romSize ramSize threads : Nat) (p : Parser) (data : List (BitVec 32)) :
    ORel (Interp.NRel N 0 N.c.fresh) (Interp.load N.C rand dbg romSize ramSize threads p data)
      (Interp.load (plainCipher N.B.logN N.lib) (fun _ _ _ => ()) dbg romSize ramSize threads p data) := by
  unfold Interp.load
  have hnew : ORel (Interp.NRel N 0 N.c.fresh) (Interp.new N.B romSize ramSize)
      (Interp.new (plain N.B.logN N.lib) romSize ramSize) := by
    unfold Interp.new
    refine ORel.bind (fun rom rom' hrom => ?_) (Memory.alloc_nrel (N := N) 32 romSize)
    refine ORel.bind (fun regs regs' hregs => ?_) (Memory.alloc_nrel (N := N) 32 32)
    refine ORel.map (fun ram ram' hram => ?_) (Memory.alloc_nrel (N := N) 32 ramSize)
    have hrom' := hrom.mono (Nat.zero_le N.c.fresh)
    exact ⟨rfl, rfl, rfl, rfl, rfl, rfl, hrom', hrom', hrom', hrom', hrom', hrom', hrom', hregs,
      hram.mono (Nat.zero_le _), N.U_mono (Nat.zero_le _) N.uzero, N.pzero⟩
  refine ORel.bind (fun v v' h => ?_) hnew
  have hins : ORel (Interp.NRel N 0 N.c.fresh) (v.encryptInstructions N.C rand dbg p)
      (v'.encryptInstructions (plainCipher N.B.logN N.lib) (fun _ _ _ => ()) dbg p) := by
    unfold Interp.encryptInstructions
    rw [h.romSize]
    split
    · trivial
    · refine ORel.bind (R := fun a b => a = b) (fun ds ds' hds => ?_) (ORel.refl (fun _ => rfl) _)
      subst hds
      have le := Nat.le_refl N.c.fresh
      refine ORel.bind (fun m1 m1' h1 => ?_) (Memory.encrypt_nrel le (rand 0) h.rs1Rom _)
      refine ORel.bind (fun m2 m2' h2 => ?_) (Memory.encrypt_nrel le (rand 1) h.rs2Rom _)
      refine ORel.bind (fun m3 m3' h3 => ?_) (Memory.encrypt_nrel le (rand 2) h.rdRom _)
      refine ORel.bind (fun m4 m4' h4 => ?_) (Memory.encrypt_nrel le (rand 3) h.immRom _)
      refine ORel.bind (fun m5 m5' h5 => ?_) (Memory.encrypt_nrel le (rand 4) h.rduRom _)
      refine ORel.bind (fun m6 m6' h6 => ?_) (Memory.encrypt_nrel le (rand 5) h.muRom _)
      refine ORel.map (fun m7 m7' h7 => ?_) (Memory.encrypt_nrel le (rand 6) h.pcuRom _)
      exact ⟨h.cycle, h.threads, rfl, h.ramSize, h.romBits, h.ramBits, h4, h1, h2, h3, h5, h6, h7,
        h.registers, h.ram, h.pc, h.pcP⟩
  refine ORel.bind (fun w w' h => ?_) hins
  have hram : ORel (Interp.NRel N 0 N.c.fresh) (w.encryptRam N.C (rand 7) data)
      (w'.encryptRam (plainCipher N.B.logN N.lib) (fun _ _ => ()) data) := by
    unfold Interp.encryptRam
    rw [h.ram.size]
    split
    · refine ORel.map (fun m m' hm => ?_) (Memory.encrypt_nrel (Nat.le_refl _) (rand 7) h.ram _)
      exact { h with ram := hm }
    · trivial
  exact ORel.map (fun x x' h => { h with threads := rfl }) hram

/-- What must fit at the last cycle fits at every cycle. -/
theorem FitsRun.cycle {c : Costs} {limit n : Nat} (h : FitsRun c limit n) (k : Nat) (hk : k < n) :
    Fits c limit (0 + k * regGrowth c) (c.fresh + k * ramGrowth c) := by
  cases n with
  | zero => omega
  | succ n =>
    have h1 : k * regGrowth c ≤ n * regGrowth c := Nat.mul_le_mul_right _ (by omega)
    have h2 : k * ramGrowth c ≤ n * ramGrowth c := Nat.mul_le_mul_right _ (by omega)
    exact Fits.anti h (by omega) (by omega)

/-- The plaintext interpreter follows `Spec.cycles`. -/
theorem Mirrors.run {logN : Nat} {L : Lib (2 ^ logN)} {vm : Interp (plain logN L)} {d d2 : Debug} (n : Nat)
    (h : Mirrors vm d) (c : Spec.cycles n d = some d2) (hc : vm.cycle.toNat + n < 2 ^ 32) :
    ∃ vm2, Interp.run n vm = some vm2 ∧ Mirrors vm2 d2 ∧ vm2.cycle.toNat = vm.cycle.toNat + n := by
  induction n generalizing vm d with
  | zero => exact ⟨vm, rfl, by cases c; exact h, rfl⟩
  | succ n ih =>
    obtain ⟨d1, c1, c2⟩ := Option.bind_eq_some_iff.mp c
    have hne : vm.cycle ≠ 0xFFFFFFFF#32 := by
      intro h
      rw [h] at hc
      simp at hc
      omega
    obtain ⟨pc, i, a, b, v, r, o, ro, po, co⟩ := cycle_inv c1
    obtain ⟨t, et, -, m1⟩ := h.trace co hne
    have hcy : (vm.next t).cycle.toNat = vm.cycle.toNat + 1 := by
      show (vm.cycle + 1#32).toNat = _
      rw [BitVec.toNat_add]
      simp only [BitVec.toNat_ofNat]
      omega
    obtain ⟨vm2, e2, m2, cy2⟩ := ih m1 c2 (by omega)
    refine ⟨vm2, ?_, m2, by omega⟩
    show vm.step.bind _ = _
    rw [Interp.step, et]
    exact e2

/-- A run within the budget follows the plaintext run. -/
theorem Noisy.run_of_load {rand : Nat → Nat → Nat → N.C.Rand} {dbg : Bool}
    {romSize ramSize threads : Nat} {p : Parser} {data : List (BitVec 32)} {vm : Interp N.B}
    {ds : List Decoded} (ht : 0 < threads) (hd : decodeProgram dbg p = some ds)
    (h : Interp.load N.C rand dbg romSize ramSize threads p data = some vm) (n : Nat) (hn : n < 2 ^ 32)
    (hf : FitsRun N.c N.limit n) {d2 : Debug}
    (hs : Spec.cycles n (Debug.image romSize ramSize ds data) = some d2) :
    ∃ vm2 vm2', Interp.run n vm = some vm2 ∧ Mirrors vm2' d2 ∧ vm2'.cycle.toNat = n ∧
      Interp.NRel N (n * regGrowth N.c) (N.c.fresh + n * ramGrowth N.c) vm2 vm2' := by
  have r := Interp.load_nrel (N := N) rand dbg romSize ramSize threads p data
  rw [h] at r
  obtain ⟨vm', e, r⟩ := r.of_some_left
  obtain ⟨m, hc⟩ := load_mirrors ht hd e
  obtain ⟨vm2', e2, m2, hc2⟩ := m.run n hs (by rw [hc]; simpa using hn)
  have hrun := r.run n (fun k hk => FitsRun.cycle hf k hk)
  rw [e2] at hrun
  obtain ⟨vm2, e3, r3⟩ := hrun.of_some
  refine ⟨vm2, vm2', e3, m2, ?_, ?_⟩
  · rw [hc2, hc]; simp
  · rw [Nat.zero_add] at r3; exact r3

end Verif.Model
