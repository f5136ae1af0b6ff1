import Verif.Spec.AnyRom
import Verif.Lemmas.Runs
import Verif.Props.DocTable
/-
  The encrypted cycle on arbitrary contents of the program memories.
-/
namespace Verif.Model
open Verif Verif.Props Verif.Spec

variable {logN : Nat} {L : Lib (2 ^ logN)}

theorem prepare_mod (u : BitVec 32) (c : Nat) (hc : c < 32) :
    ((plain logN L).prepareCustom u 0 c : BitVec 32) = u % BitVec.ofNat 32 (2 ^ c) := by
  apply BitVec.eq_of_toNat_eq
  rw [prepareCustom_toNat, BitVec.toNat_umod, BitVec.toNat_ofNat]
  have : 2 ^ c < 2 ^ 32 := Nat.pow_lt_pow_right (by omega) hc
  rw [Nat.mod_eq_of_lt this]

/-- The fetched entry, whatever it is. -/
def anyFetch (pc : BitVec 32) (i : Decoded) : Fetch (plain logN L) where
  pcP := pc
  imm := i.imm
  rdu := i.rdu
  mu := i.mu
  pcu := i.pcu
  rs1 := i.rs1
  rs2 := i.rs2
  rd := i.rd
  rduP := (i.rdu % 32#32 : BitVec 32)
  muP := (i.mu % 4#32 : BitVec 32)
  pcuP := (i.pcu % 16#32 : BitVec 32)
  immP := i.imm
  rs1P := (i.rs1 % 32#32 : BitVec 32)
  rs2P := (i.rs2 % 32#32 : BitVec 32)
  rdP := (i.rd % 32#32 : BitVec 32)

theorem fetch_any {vm : Interp (plain logN L)} {d : Debug} (m : Mirrors vm d) (pc : BitVec 32)
    (i : Decoded) (hi : d.rom[pc.toNat / 4]? = some i) : vm.fetch pc = some (anyFetch pc i) := by
  have get (f : Decoded → BitVec 32) : (d.rom.map f)[pc.toNat / 2 ^ 2]? = some (f i) := by
    rw [List.getElem?_map]; show Option.map f (d.rom[pc.toNat / 4]?) = _; rw [hi]; rfl
  unfold Interp.fetch
  rw [m.imm.readStateless vm.threads m.threads pc 2 i.imm (get _), Option.bind_some,
    m.rdu.readStateless vm.threads m.threads pc 2 i.rdu (get _), Option.bind_some,
    m.mu.readStateless vm.threads m.threads pc 2 i.mu (get _), Option.bind_some,
    m.pcu.readStateless vm.threads m.threads pc 2 i.pcu (get _), Option.bind_some,
    m.rs1.readStateless vm.threads m.threads pc 2 i.rs1 (get _), Option.bind_some,
    m.rs2.readStateless vm.threads m.threads pc 2 i.rs2 (get _), Option.bind_some,
    m.rd.readStateless vm.threads m.threads pc 2 i.rd (get _), Option.bind_some]
  have hb1 : bitsFor rdUpdateRv32iOpList.length = 5 := by decide +kernel
  have hb2 : bitsFor ramUpdateOpList.length = 2 := by decide +kernel
  rw [hb1, hb2, prepareMultiple_eq (plain logN L) vm.threads m.threads _ _ rfl (by decide) (by decide)]
  have p (u : BitVec 32) (c : Nat) (hc : c < 32) :
      (plain logN L).ofBits ((List.range c).map ((plain logN L).bootstrap u)
        ++ List.replicate (32 - c) (plain logN L).gzero) = u % BitVec.ofNat 32 (2 ^ c) := by
    rw [plain_ofBits logN L u c (by omega), prepare_mod u c hc]
  have p32 (u : BitVec 32) : (plain logN L).ofBits ((List.range 32).map ((plain logN L).bootstrap u)
        ++ List.replicate (32 - 32) (plain logN L).gzero) = u := ofBits_id u 32 (by omega) u.isLt
  have cons {x y : BitVec 32} {xs ys : List (BitVec 32)} (h : x = y) (hs : xs = ys) : x :: xs = y :: ys := by
    rw [h, hs]
  exact congrArg (Option.map _) (congrArg some (cons (p i.rdu 5 (by omega)) (cons (p i.mu 2 (by omega))
    (cons (p i.pcu 4 (by omega)) (cons (p32 i.imm) (cons (p i.rs1 5 (by omega)) (cons (p i.rs2 5 (by omega))
    (cons (p i.rd 5 (by omega)) rfl))))))))

theorem lookup_missing {α : Type} (ops : List α) (k : α → Nat) (v : α → BitVec 32) (key : Nat)
    (h : ∀ a ∈ ops, k a ≠ key) : lookupKey (ops.map fun x => (k x, v x)) key = 0#32 := by
  unfold lookupKey
  cases hf : (ops.map fun x => (k x, v x)).find? fun p => p.1 == key with
  | none => rfl
  | some q =>
    obtain ⟨b, hb, rfl⟩ := List.mem_map.mp (List.mem_of_find?_eq_some hf)
    exact absurd (by simpa using List.find?_some hf) (h b hb)

/-- An id without operation gives the result of id 0. -/
theorem updateRegisters_missing {vm : Interp (plain logN L)} (f : Fetch (plain logN L)) (s : Sources (plain logN L))
    (v k : BitVec 32) (hk : 29 ≤ k.toNat) (hk' : k.toNat < 32) :
    vm.updateRegisters rdUpdateRv32iOpList { f with rduP := k } s v =
      vm.updateRegisters rdUpdateRv32iOpList { f with rduP := (0#32 : BitVec 32) } s v := by
  have hb1 : bitsFor rdUpdateRv32iOpList.length = 5 := by decide +kernel
  have e1 : (plain logN L).select (rdUpdateRv32iOpList.map fun o => (o.id.toNat,
        if o = .LB then v &&& 0xFF#32 else (o.evalPlain f.immP s.rs1P s.rs2P f.pcP v).getD 0#32))
      k 0 (bitsFor rdUpdateRv32iOpList.length) = 0#32 := by
    show lookupKey _ (k.toNat / 2 ^ 0 % 2 ^ _) = _
    rw [hb1]
    apply lookup_missing rdUpdateRv32iOpList (fun o => o.id.toNat)
    intro o ho
    have : o.id.toNat < 29 := by revert ho; cases o <;> decide
    omega
  have e2 : (plain logN L).select (rdUpdateRv32iOpList.map fun o => (o.id.toNat,
        if o = .LB then v &&& 0xFF#32 else (o.evalPlain f.immP s.rs1P s.rs2P f.pcP v).getD 0#32))
      (0#32 : BitVec 32) 0 (bitsFor rdUpdateRv32iOpList.length) = 0#32 := rfl
  rw [updateRegisters_eq vm _ { f with rduP := k } s v _ 0#32 (rdMap_plain _ _ _ _ _)
      (Eq.trans (congrArg (refresh (plain logN L)) e1) (refresh_plain _)),
    updateRegisters_eq vm _ { f with rduP := (0#32 : BitVec 32) } s v _ 0#32 (rdMap_plain _ _ _ _ _)
      (Eq.trans (congrArg (refresh (plain logN L)) e2) (refresh_plain _))]

theorem updatePc_any (opid rs1 rs2 pc imm : BitVec 32) :
    updatePc (plain logN L) rs1 rs2 pc imm opid
      = some ((pcOperation (opid.getLsbD 0) (opid.getLsbD 1) (opid.getLsbD 2) (opid.getLsbD 3)).evalPlain
          ((imm.setWidth 20).signExtend 32) rs1 rs2 pc) := by
  unfold updatePc
  rw [evalCircuits_plain _ _ rfl,
    ← C86_every_id opid rs1 rs2 pc imm (fun _ => L.stale0) (fun _ => L.stale1)]
  unfold updatePcOp
  exact congrArg (fun f => circuitWord _ f _ _) (funext fun i => helperGBit_plain _ _ i)

theorem mod16_bit (x : BitVec 32) (k : Nat) (h : k < 4) : (x % 16#32).getLsbD k = x.getLsbD k := by
  have e : x % 16#32 = x &&& 15#32 := by
    apply BitVec.eq_of_toNat_eq
    rw [BitVec.toNat_umod, BitVec.toNat_and]
    exact (Nat.and_two_pow_sub_one_eq_mod x.toNat 4).symm
  rw [e, BitVec.getLsbD_and]
  have : ∀ k, k < 4 → (15#32).getLsbD k = true := by decide
  rw [this k h, Bool.and_true]

/-- One cycle of the plaintext interpreter is one of `Spec.cycle` on the entries of RV32I instructions. -/
theorem Mirrors.any {vm : Interp (plain logN L)} {d d2 : Debug} (m : Mirrors vm d) {pc : U32}
    {j : Decoded} {a b v r : U32} {o : RdUpdate} {ro : RamUpdate} {po : PcUpdate}
    (c : CycleOf { d with rom := d.rom.map anyEntry } d2 pc j a b v r o ro po) (hc : vm.cycle ≠ 0xFFFFFFFF#32) :
    ∃ t, vm.trace = some t ∧ Mirrors (vm.next t) { d2 with rom := d.rom } := by
  obtain ⟨i, hi, rfl⟩ : ∃ i, d.rom[pc.toNat / 4]? = some i ∧ anyEntry i = j := by
    have := c.ins
    rw [List.getElem?_map] at this
    exact Option.map_eq_some_iff.mp this
  have hlen : (d.rom.map anyEntry).length = d.rom.length := List.length_map ..
  have hpcP : (if vm.cycle ≠ 0#32 then (plain logN L).prepareCustom vm.pc 0 (vm.romBits + 2)
      else vm.pcP) = pc := by
    rw [c.pcEq]
    simp only [hlen]
    rw [← m.romBits]
    split
    · rename_i h
      rw [m.pc h]
      exact prepareCustom_ofNat (logN := logN) (L := L) _ _
    · rename_i h
      obtain ⟨h1, h2⟩ := m.pc0 (by simpa using h)
      rw [h1, Nat.mod_eq_of_lt h2]
      simp
  have hrd : (i.rd % 32#32).toNat < 32 := by
    rw [BitVec.toNat_umod]; exact Nat.mod_lt _ (by decide)
  have ef := fetch_any m pc i hi
  have es := readRegisters_plain m (anyFetch pc i) a b c.rs1 c.rs2
  have eq := readRam_plain m (anyFetch pc i) { rs1 := a, rs2 := b, rs1P := a, rs2P := b } v c.ram
  obtain ⟨regs, er, sr⟩ : ∃ regs, vm.updateRegisters rdUpdateRv32iOpList (anyFetch pc i)
      { rs1 := a, rs2 := b, rs1P := a, rs2P := b } v = some (r, regs) ∧
      regs.Stores ((d.registers.set (i.rd % 32#32).toNat r).set 0 0#32) := by
    have hop := c.opId
    by_cases h29 : 29 ≤ i.rdu.toNat % 32
    · have ho : o.id = 0#32 := by rw [hop]; exact if_pos h29
      have h := updateRegisters_missing (vm := vm) (anyFetch pc i) { rs1 := a, rs2 := b, rs1P := a, rs2P := b } v
        (i.rdu % 32#32) (by rw [BitVec.toNat_umod]; exact h29)
        (by rw [BitVec.toNat_umod]; exact Nat.mod_lt _ (by decide))
      obtain ⟨regs, e, st⟩ := updateRegisters_plain m { anyFetch pc i with rduP := (0#32 : BitVec 32) }
        { rs1 := a, rs2 := b, rs1P := a, rs2P := b } v r o c.op ho.symm c.val hrd
      exact ⟨regs, h.trans e, st⟩
    · have ho : o.id = i.rdu % 32#32 := by rw [hop]; exact if_neg h29
      exact updateRegisters_plain m (anyFetch pc i)
        { rs1 := a, rs2 := b, rs1P := a, rs2P := b } v r o c.op ho.symm c.val hrd
  obtain ⟨ram, em, sm⟩ := updateRam_plain m (anyFetch pc i)
    { rs1 := a, rs2 := b, rs1P := a, rs2P := b } (i.imm + a - 0x40000#32) v ro c.mu.symm
    (List.getElem?_eq_some_iff.mp c.ram).1
  have hpo : po = pcOperation (i.pcu.getLsbD 0) (i.pcu.getLsbD 1) (i.pcu.getLsbD 2) (i.pcu.getLsbD 3) :=
    pcUpdate_inj _ _ c.pcu
  have epc : updatePc (plain logN L) a b pc i.imm (i.pcu % 16#32 : BitVec 32)
      = some (po.evalPlain (cycleImm i.imm) a b pc) := by
    rw [updatePc_any, mod16_bit _ 0 (by omega), mod16_bit _ 1 (by omega), mod16_bit _ 2 (by omega),
      mod16_bit _ 3 (by omega), ← hpo]
    rfl
  have et : vm.trace = some
      { f := anyFetch pc i
        s := { rs1 := a, rs2 := b, rs1P := a, rs2P := b }
        q := { addr := i.imm + a - 0x40000#32
               addrP := (plain logN L).prepareCustom (i.imm + a - 0x40000#32) 0 (bitsFor d.ram.length + 2)
               val := v
               ram := vm.ram.front ((plain logN L).prepareCustom (i.imm + a - 0x40000#32) 0
                 (bitsFor d.ram.length + 2)) 2 }
        rdVal := r, registers := regs
        ramVal := ro.evalPlain b v ((i.imm + a - 0x40000#32) &&& 3#32), ram := ram
        pc := po.evalPlain (cycleImm i.imm) a b pc } := by
    unfold Interp.trace
    simp only [hpcP]
    rw [ef, Option.bind_some, es, Option.bind_some, eq, Option.bind_some]
    simp only
    rw [er, Option.bind_some]
    simp only [anyFetch] at em ⊢
    rw [em, Option.bind_some]
    simp only
    rw [epc]
    rfl
  refine ⟨_, et, ?_⟩
  rw [c.result]
  refine ⟨m.threads, m.romBits, ?_, ?_, m.imm, m.rs1, m.rs2, m.rd, m.rdu, m.mu, m.pcu, sr, ?_, sm,
    ?_, fun _ => rfl⟩
  · show vm.ramBits = bitsFor (List.length (List.set _ _ _))
    rw [List.length_set]; exact m.ramBits
  · show vm.ramSize = List.length (List.set _ _ _)
    rw [List.length_set]; exact m.ramSize
  · simp [m.regs]
  · intro h
    exfalso
    apply hc
    have h' : vm.cycle + 1#32 = 0#32 := h
    have e := congrArg BitVec.toNat h'
    apply BitVec.eq_of_toNat_eq
    simp only [BitVec.toNat_add, BitVec.toNat_ofNat] at e ⊢
    have := vm.cycle.isLt
    omega

variable {F : Fhe}

theorem Fhe.Runs.anyStep {vm : Interp F.B} {d d2 : Debug} (h : F.Runs vm d) (c : anyCycle d = some d2)
    (hc : vm.cycle ≠ 0xFFFFFFFF#32) :
    ∃ vm2, vm.step = some vm2 ∧ F.Runs vm2 d2 ∧ vm2.cycle = vm.cycle + 1#32 := by
  obtain ⟨d1, c1, rfl⟩ := Option.map_eq_some_iff.mp c
  obtain ⟨pc, i, a, b, v, r, o, ro, po, c⟩ := cycle_inv c1
  obtain ⟨vm', rel, m⟩ := h
  obtain ⟨t', e, mi⟩ := m.any c (by rw [← rel.cycle]; exact hc)
  have rt := rel.trace
  rw [e] at rt
  obtain ⟨t, et, rt⟩ := rt.of_some
  exact ⟨vm.next t, by rw [Interp.step, et]; rfl, ⟨vm'.next t', rel.next rt, mi⟩, rfl⟩

theorem Fhe.Runs.anyRun {vm : Interp F.B} {d d2 : Debug} (n : Nat) (h : F.Runs vm d)
    (c : anyCycles n d = some d2) (hc : vm.cycle.toNat + n < 2 ^ 32) :
    ∃ vm2, Interp.run n vm = some vm2 ∧ F.Runs vm2 d2 ∧ vm2.cycle = vm.cycle + BitVec.ofNat 32 n := by
  induction n generalizing vm d with
  | zero => exact ⟨vm, rfl, by cases c; exact h, by simp⟩
  | succ n ih =>
    obtain ⟨d1, c1, c2⟩ := Option.bind_eq_some_iff.mp c
    have hne : vm.cycle ≠ 0xFFFFFFFF#32 := by
      intro h
      rw [h] at hc
      simp at hc
      omega
    obtain ⟨vm1, e1, r1, cy1⟩ := h.anyStep c1 hne
    have hcy : vm1.cycle.toNat = vm.cycle.toNat + 1 := by
      rw [cy1, BitVec.toNat_add]
      simp only [BitVec.toNat_ofNat]
      omega
    obtain ⟨vm2, e2, r2, cy2⟩ := ih r1 c2 (by omega)
    refine ⟨vm2, ?_, r2, ?_⟩
    · show vm.step.bind _ = _
      rw [e1]; exact e2
    · rw [cy2, cy1, BitVec.add_assoc]
      congr 1
      apply BitVec.eq_of_toNat_eq
      simp only [BitVec.toNat_add, BitVec.toNat_ofNat]
      omega

end Verif.Model
