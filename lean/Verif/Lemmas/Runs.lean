import Verif.Lemmas.Setup
/-
  Lifting of the plaintext results to encrypted interpreters, and the invariants of registers.
-/
namespace Verif.Model
open Verif Verif.Props Verif.Spec

variable {F : Fhe}

/-- Everything the encrypted cycle computes decrypts to its meaning. -/
structure Shows (F : Fhe) (t : Trace F.B) (pc v : BitVec 32) (d2 : Debug) : Prop where
  pcP : F.decP t.f.pcP = pc
  imm : F.decU t.f.imm = d2.ins.imm
  rs1 : F.decU t.f.rs1 = d2.ins.rs1
  rs2 : F.decU t.f.rs2 = d2.ins.rs2
  rd : F.decU t.f.rd = d2.ins.rd
  rdu : F.decU t.f.rdu = d2.ins.rdu
  mu : F.decU t.f.mu = d2.ins.mu
  pcu : F.decU t.f.pcu = d2.ins.pcu
  rs1Val : F.decU t.s.rs1 = d2.rs1Val
  rs2Val : F.decU t.s.rs2 = d2.rs2Val
  addr : F.decU t.q.addr = d2.ramAddr
  loaded : F.decU t.q.val = v
  rdVal : F.decU t.rdVal = d2.rdVal
  registers : F.Holds t.registers d2.registers
  ramVal : F.decU t.ramVal = d2.ramVal
  ram : F.Holds t.ram d2.ram
  pc : F.decU t.pc = d2.pc

theorem Fhe.Runs.trace {vm : Interp F.B} {d d2 : Debug} (h : F.Runs vm d) {pc : U32} {i : Decoded}
    {a b v r : U32} {o : RdUpdate} {ro : RamUpdate} {po : PcUpdate}
    (c : CycleOf d d2 pc i a b v r o ro po) (hc : vm.cycle ≠ 0xFFFFFFFF#32) :
    ∃ t, vm.trace = some t ∧ Shows F t pc v d2 ∧ F.Runs (vm.next t) d2 := by
  obtain ⟨vm', rel, m⟩ := h
  obtain ⟨t', e, ag, mi⟩ := m.trace c (by rw [← rel.cycle]; exact hc)
  have rt := rel.trace
  rw [e] at rt
  obtain ⟨t, et, rt⟩ := rt.of_some
  refine ⟨t, et, ?_, vm'.next t', rel.next rt, mi⟩
  have U : ∀ {u u' w}, F.sim.U u u' → u' = w → F.decU u = w := fun h e => by
    subst e; exact F.decU_sim _ _ h
  exact ⟨by rw [← ag.pcP]; exact F.decP_sim _ _ rt.f.pcP,
    U rt.f.imm ag.imm, U rt.f.rs1 ag.rs1, U rt.f.rs2 ag.rs2, U rt.f.rd ag.rd, U rt.f.rdu ag.rdu,
    U rt.f.mu ag.mu, U rt.f.pcu ag.pcu, U rt.s.rs1 ag.rs1Val, U rt.s.rs2 ag.rs2Val,
    U rt.q.addr ag.addr, U rt.q.val ag.loaded, U rt.rdVal ag.rdVal, ⟨_, rt.registers, ag.registers⟩,
    U rt.ramVal ag.ramVal, ⟨_, rt.ram, ag.ram⟩, U rt.pc ag.pc⟩

theorem Fhe.Runs.step {vm : Interp F.B} {d d2 : Debug} (h : F.Runs vm d) (c : cycle d = some d2)
    (hc : vm.cycle ≠ 0xFFFFFFFF#32) :
    ∃ vm2, vm.step = some vm2 ∧ F.Runs vm2 d2 ∧ vm2.cycle = vm.cycle + 1#32 := by
  obtain ⟨pc, i, a, b, v, r, o, ro, po, c⟩ := cycle_inv c
  obtain ⟨t, e, -, hr⟩ := h.trace c hc
  exact ⟨vm.next t, by rw [Interp.step, e]; rfl, hr, rfl⟩

theorem Fhe.Runs.run {vm : Interp F.B} {d d2 : Debug} (n : Nat) (h : F.Runs vm d)
    (c : cycles n d = some d2) (hc : vm.cycle.toNat + n < 2 ^ 32) :
    ∃ vm2, Interp.run n vm = some vm2 ∧ F.Runs vm2 d2 ∧ vm2.cycle = vm.cycle + BitVec.ofNat 32 n := by
  induction n generalizing vm d with
  | zero => exact ⟨vm, rfl, by cases c; exact h, by simp⟩
  | succ n ih =>
    obtain ⟨d1, c1, c2⟩ := Option.bind_eq_some_iff.mp c
    have hne : vm.cycle ≠ 0xFFFFFFFF#32 := by
      intro h
      rw [h] at hc
      simp at hc
      omega
    obtain ⟨vm1, e1, r1, cy1⟩ := h.step c1 hne
    have hcy : vm1.cycle.toNat = vm.cycle.toNat + 1 := by
      rw [cy1, BitVec.toNat_add]
      simp only [BitVec.toNat_ofNat]
      omega
    obtain ⟨vm2, e2, r2, cy2⟩ := ih r1 c2 (by omega)
    refine ⟨vm2, ?_, r2, ?_⟩
    · show vm.step.bind _ = _
      rw [e1]; exact e2
    · rw [cy2, cy1, BitVec.add_assoc]
      congr 1
      apply BitVec.eq_of_toNat_eq
      simp only [BitVec.toNat_add, BitVec.toNat_ofNat]
      omega

/-! ### Register 0, whatever the program -/

/-- The registers are 32 words, the first one 0. -/
def Fhe.RegsOk (F : Fhe) (vm : Interp F.B) : Prop :=
  0 < vm.threads ∧ ∃ l, F.Holds vm.registers l ∧ l.length = 32 ∧ l[0]? = some 0#32

theorem fetch_rd {logN : Nat} {L : Lib (2 ^ logN)} {vm : Interp (plain logN L)} (ht : 0 < vm.threads)
    {p : BitVec 32} {f : Fetch (plain logN L)} (h : vm.fetch p = some f) : f.rdP.toNat < 32 := by
  unfold Interp.fetch at h
  obtain ⟨_, _, h⟩ := Option.bind_eq_some_iff.mp h
  obtain ⟨_, _, h⟩ := Option.bind_eq_some_iff.mp h
  obtain ⟨_, _, h⟩ := Option.bind_eq_some_iff.mp h
  obtain ⟨_, _, h⟩ := Option.bind_eq_some_iff.mp h
  obtain ⟨_, _, h⟩ := Option.bind_eq_some_iff.mp h
  obtain ⟨_, _, h⟩ := Option.bind_eq_some_iff.mp h
  obtain ⟨rd, _, h⟩ := Option.bind_eq_some_iff.mp h
  obtain ⟨ps, hps, h⟩ := Option.map_eq_some_iff.mp h
  have hb1 : bitsFor rdUpdateRv32iOpList.length = 5 := by decide +kernel
  have hb2 : bitsFor ramUpdateOpList.length = 2 := by decide +kernel
  rw [hb1, hb2, prepareMultiple_eq _ vm.threads ht _ _ rfl (by decide) (by decide)] at hps
  have e : f.rdP = (plain logN L).ofBits ((List.range 5).map ((plain logN L).bootstrap rd)
      ++ List.replicate (32 - 5) (plain logN L).gzero) := by
    rw [← h, ← Option.some.inj hps]; rfl
  rw [e, plain_ofBits logN L rd 5 (by omega), prepareCustom_toNat]
  exact Nat.mod_lt _ (by omega)

theorem updateRegisters_zero {logN : Nat} {L : Lib (2 ^ logN)} {vm : Interp (plain logN L)}
    (ht : 0 < vm.threads) {l : List (BitVec 32)} (hl : vm.registers.Stores l) (h32 : l.length = 32)
    {ops : List RdUpdate} {f : Fetch (plain logN L)} {s : Sources (plain logN L)} {v : BitVec 32}
    {x : BitVec 32 × Memory (plain logN L)} (hrd : f.rdP.toNat < 32)
    (h : vm.updateRegisters ops f s v = some x) :
    ∃ l', x.2.Stores l' ∧ l'.length = 32 ∧ l'[0]? = some 0#32 := by
  unfold Interp.updateRegisters at h
  obtain ⟨m, hm, h⟩ := Option.bind_eq_some_iff.mp h
  obtain ⟨r1, h1, h⟩ := Option.bind_eq_some_iff.mp h
  obtain ⟨r2, h2, h⟩ := Option.map_eq_some_iff.mp h
  have hsz : vm.registers.size = 32 := by rw [← hl.length, h32]
  have hacc : accessIndex f.rdP 0 (bitsFor vm.registers.size) = f.rdP.toNat := by
    unfold accessIndex
    rw [hsz, show bitsFor 32 = 5 by decide +kernel]
    omega
  obtain ⟨m1, e1, s1, st1⟩ := hl.write vm.threads ht
    (refresh (plain logN L) ((plain logN L).select m f.rduP 0 (bitsFor ops.length))) f.rdP 0
    (by rw [hacc, hsz]; exact hrd)
  obtain ⟨m2, e2, -, st2⟩ := st1.zero vm.threads ht 0 (by omega)
  have eq1 : r1 = m1 := Option.some.inj (h1.symm.trans e1)
  subst eq1
  have eq2 : r2 = m2 := Option.some.inj (h2.symm.trans e2)
  subst eq2
  rw [← h]
  have hz : zeroTarget (2 ^ logN) 0 = 0 := by simp [zeroTarget]
  rw [hz] at st2
  refine ⟨_, st2, by simp [h32], ?_⟩
  rw [List.getElem?_set]
  simp [h32]

theorem Fhe.RegsOk.step {vm vm2 : Interp F.B} (h : F.RegsOk vm) (hs : vm.step = some vm2)
    (sim : ∃ vm', Interp.Rel F.sim vm vm') : F.RegsOk vm2 ∧ ∃ vm2', Interp.Rel F.sim vm2 vm2' := by
  obtain ⟨ht, l, ⟨m', rm, st⟩, h32, h0⟩ := h
  obtain ⟨vm', rel⟩ := sim
  -- use the plaintext registers that store `l`
  let w : Interp (plain F.B.logN F.lib) := { vm' with registers := m' }
  have relw : Interp.Rel F.sim vm w :=
    ⟨rel.cycle, rel.threads, rel.romSize, rel.ramSize, rel.romBits, rel.ramBits, rel.immRom,
      rel.rs1Rom, rel.rs2Rom, rel.rdRom, rel.rduRom, rel.muRom, rel.pcuRom, rm, rel.ram, rel.pc, rel.pcP⟩
  have ht' : 0 < w.threads := by rw [← relw.threads]; exact ht
  have rs := relw.step
  rw [hs] at rs
  obtain ⟨w2, e2, r2⟩ := rs.of_some_left
  refine ⟨⟨?_, ?_⟩, w2, r2⟩
  · obtain ⟨t, _, e⟩ := Option.map_eq_some_iff.mp hs
    rw [← e]; exact ht
  · obtain ⟨t, et, e⟩ := Option.map_eq_some_iff.mp e2
    unfold Interp.trace at et
    obtain ⟨f, hf, et⟩ := Option.bind_eq_some_iff.mp et
    obtain ⟨s, hs', et⟩ := Option.bind_eq_some_iff.mp et
    obtain ⟨q, hq, et⟩ := Option.bind_eq_some_iff.mp et
    obtain ⟨x, hx, et⟩ := Option.bind_eq_some_iff.mp et
    obtain ⟨y, hy, et⟩ := Option.bind_eq_some_iff.mp et
    obtain ⟨pc, hpc, et⟩ := Option.map_eq_some_iff.mp et
    obtain ⟨l', st', h1, h2⟩ := updateRegisters_zero ht' st h32 (fetch_rd ht' hf) hx
    have : w2.registers = x.2 := by rw [← e, ← et]; rfl
    exact ⟨l', ⟨w2.registers, r2.registers, by rw [this]; exact st'⟩, h1, h2⟩

end Verif.Model
