import Verif.Lemmas.InterpPlain
import Verif.Spec.Cycle
/-
  One cycle of the encrypted interpreter on plaintexts against one cycle of the plaintext mirror.
-/
namespace Verif.Model
open Verif Verif.Props Verif.Spec

variable {logN : Nat} {L : Lib (2 ^ logN)}

/-! ### The mirror's cycle -/

/-- A successful cycle of the mirror, spelled out. -/
structure Debug.Cycle (d d1 d2 : Debug) (i : Decoded) (a b v r : U32) (o : RdUpdate) (ro : RamUpdate)
    (po : PcUpdate) : Prop where
  ins : d.rom[(d.pc >>> 2).toNat]? = some i
  rs1 : d.registers[i.rs1.toNat]? = some a
  rs2 : d.registers[i.rs2.toNat]? = some b
  ram : d.ram[(((i.imm + a - (1#32 <<< 18)) >>> 2).toNat) % d.ram.length]? = some v
  loaded : d1 = { d with ins := i, rs1Val := a, rs2Val := b
                         ramAddr := i.imm + a - (1#32 <<< 18), ramVal := v }
  op : o ∈ rdUpdateRv32iOpList
  opId : o.id = i.rdu
  val : o.evalPlain i.imm a b d.pc v = some r
  rd : i.rd.toNat < d.registers.length
  mu : ro.id = i.mu
  pcu : po.id = i.pcu
  result : d2 = { d1 with
    rdVal := r, registers := (d.registers.set i.rd.toNat r).set 0 0#32
    ramVal := ro.evalPlain b v ((i.imm + a - (1#32 <<< 18)) &&& 3#32)
    ram := d.ram.set ((((i.imm + a - (1#32 <<< 18)) >>> 2).toNat) % d.ram.length)
      (ro.evalPlain b v ((i.imm + a - (1#32 <<< 18)) &&& 3#32))
    pc := po.evalPlain i.imm a b d.pc }

theorem Debug.loaded_inv {d d1 : Debug} (h : d.loaded = some d1) :
    ∃ i a b v, d.rom[(d.pc >>> 2).toNat]? = some i ∧ d.registers[i.rs1.toNat]? = some a ∧
      d.registers[i.rs2.toNat]? = some b ∧
      d.ram[(((i.imm + a - (1#32 <<< 18)) >>> 2).toNat) % d.ram.length]? = some v ∧
      d1 = { d with ins := i, rs1Val := a, rs2Val := b
                    ramAddr := i.imm + a - (1#32 <<< 18), ramVal := v } := by
  unfold Debug.loaded at h
  obtain ⟨e1, h1, h⟩ := Option.bind_eq_some_iff.mp h
  obtain ⟨i, hi, rfl⟩ := Option.map_eq_some_iff.mp h1
  obtain ⟨e2, h2, h⟩ := Option.bind_eq_some_iff.mp h
  obtain ⟨a, ha, h2⟩ := Option.bind_eq_some_iff.mp h2
  obtain ⟨b, hb, rfl⟩ := Option.map_eq_some_iff.mp h2
  obtain ⟨v, hv, rfl⟩ := Option.map_eq_some_iff.mp h
  exact ⟨i, a, b, v, hi, ha, hb, hv, rfl⟩

theorem Debug.step_loaded {d : Debug} :
    d.step = d.loaded.bind fun d1 => (d1.updateRegisters rdUpdateRv32iOpList).bind fun d =>
      d.updateRam.bind fun d => d.updatePc := by
  unfold Debug.step Debug.loaded
  cases d.readInstructions with
  | none => rfl
  | some e =>
    simp only [Option.bind_some]
    cases e.readRegisters with
    | none => rfl
    | some e => rfl

theorem Debug.step_inv {d d2 : Debug} (h : d.step = some d2) :
    ∃ d1 i a b v r o ro po, d.loaded = some d1 ∧ Debug.Cycle d d1 d2 i a b v r o ro po := by
  rw [Debug.step_loaded] at h
  obtain ⟨d1, hd, h⟩ := Option.bind_eq_some_iff.mp h
  obtain ⟨i, a, b, v, h1, h2, h3, h4, h5⟩ := Debug.loaded_inv hd
  obtain ⟨e3, h6, h⟩ := Option.bind_eq_some_iff.mp h
  obtain ⟨m, hm, h6⟩ := Option.bind_eq_some_iff.mp h6
  obtain ⟨r, hr, h6⟩ := Option.bind_eq_some_iff.mp h6
  split at h6
  · rename_i hreg
    obtain ⟨e4, h7, h⟩ := Option.bind_eq_some_iff.mp h
    obtain ⟨s, hs, h7⟩ := Option.bind_eq_some_iff.mp h7
    split at h7
    · obtain ⟨p, hp, h8⟩ := Option.map_eq_some_iff.mp h
      have e3' := Option.some.inj h6
      have e4' := Option.some.inj h7
      have em := collect_map_some
        (fun op : RdUpdate => (op.evalPlain d1.ins.imm d1.rs1Val d1.rs2Val d1.pc d1.ramVal).map
          fun v => (op.id, v))
        (fun op => (op.id, (op.evalPlain d1.ins.imm d1.rs1Val d1.rs2Val d1.pc d1.ramVal).getD 0#32))
        rdUpdateRv32iOpList (by
          intro op hop
          obtain ⟨x, hx⟩ := rv32i_plain_total op hop d1.ins.imm d1.rs1Val d1.rs2Val d1.pc d1.ramVal
          simp [hx])
      rw [em] at hm
      rw [← Option.some.inj hm] at hr
      obtain ⟨o, ho, hid, hval⟩ := mapGet_some _ RdUpdate.id _ _ _ hr
      obtain ⟨ro, -, hmu, hsv⟩ := mapGet_some _ RamUpdate.id _ _ _ hs
      obtain ⟨po, -, hpcu, hpv⟩ := mapGet_some _ PcUpdate.id _ _ _ hp
      subst e4' e3' h5
      refine ⟨_, i, a, b, v, r, o, ro, po, hd, ⟨h1, h2, h3, h4, rfl, ho, hid, ?_, hreg.1, hmu, hpcu,
        ?_⟩⟩
      · obtain ⟨x, hx⟩ := rv32i_plain_total o ho i.imm a b d.pc v
        rw [hx] at hval ⊢
        exact congrArg some hval
      · rw [← h8, ← hpv, ← hsv]
        rfl
    · cases h7
  · cases h6

/-! ### Agreement of the states -/

/-- The interpreter (on plaintexts) is in the state described by the mirror. -/
structure Mirrors (vm : Interp (plain logN L)) (d : Debug) : Prop where
  threads : 0 < vm.threads
  romBits : vm.romBits = bitsFor d.rom.length
  ramBits : vm.ramBits = bitsFor d.ram.length
  ramSize : vm.ramSize = d.ram.length
  imm : vm.immRom.Stores (d.rom.map Decoded.imm)
  rs1 : vm.rs1Rom.Stores (d.rom.map Decoded.rs1)
  rs2 : vm.rs2Rom.Stores (d.rom.map Decoded.rs2)
  rd : vm.rdRom.Stores (d.rom.map Decoded.rd)
  rdu : vm.rduRom.Stores (d.rom.map Decoded.rdu)
  mu : vm.muRom.Stores (d.rom.map Decoded.mu)
  pcu : vm.pcuRom.Stores (d.rom.map Decoded.pcu)
  registers : vm.registers.Stores d.registers
  regs : d.registers.length = 32
  ram : vm.ram.Stores d.ram
  pc0 : vm.cycle = 0#32 → vm.pcP = d.pc ∧ d.pc.toNat < 2 ^ (vm.romBits + 2)
  pc : vm.cycle ≠ 0#32 → vm.pc = d.pc

/-- What must hold of a cycle for the encrypted one to agree with the mirror's, stated on the mirror
just after it has read the RAM. -/
structure Supported (d : Debug) : Prop where
  /-- a signed byte load reads a byte below 128 -/
  lb : d.ins.rdu = RdUpdate.LB.id → d.ramVal.getLsbD 7 = false
  /-- a jump distance is a signed 20-bit number -/
  jump : d.ins.pcu = PcUpdate.NONE.id ∨ (d.ins.imm.setWidth 20).signExtend 32 = d.ins.imm
  /-- the RAM has a power of two words or the address is inside -/
  ram : (∃ k, d.ram.length = 2 ^ k) ∨ (d.ramAddr >>> 2).toNat < d.ram.length

theorem toNat_shift2 (x : BitVec 32) : (x >>> 2).toNat = x.toNat / 2 ^ 2 := by
  rw [BitVec.toNat_ushiftRight, Nat.shiftRight_eq_div_pow]

theorem bitsFor_pow (k : Nat) : bitsFor (2 ^ k) = k := by
  apply Nat.le_antisymm
  · exact bitsFor_le _ _ (Nat.le_refl _)
  · have := le_two_pow_bitsFor (2 ^ k)
    exact (Nat.pow_le_pow_iff_right (by omega)).mp this

theorem ram_access (addr : BitVec 32) (n : Nat) :
    accessIndex ((plain logN L).prepareCustom addr 0 (bitsFor n + 2)) 2 (bitsFor n)
      = addr.toNat / 4 % 2 ^ bitsFor n := by
  unfold accessIndex
  rw [prepareCustom_toNat, wrapped_index, Nat.mod_mod]

theorem prepareCustom_ofNat (u : BitVec 32) (c : Nat) :
    ((plain logN L).prepareCustom u 0 c : BitVec 32) = BitVec.ofNat 32 (u.toNat % 2 ^ c) := by
  apply BitVec.eq_of_toNat_eq
  rw [prepareCustom_toNat, BitVec.toNat_ofNat, Nat.mod_eq_of_lt (Nat.lt_of_le_of_lt (Nat.mod_le _ _) u.isLt)]

theorem prepared_and3 (addr : BitVec 32) (k : Nat) :
    ((plain logN L).prepareCustom addr 0 (k + 2) : BitVec 32) &&& 3#32 = addr &&& 3#32 := by
  apply BitVec.eq_of_toNat_eq
  rw [toNat_and3, toNat_and3, prepareCustom_toNat]
  have : 2 ^ (k + 2) = 4 * 2 ^ k := by rw [Nat.pow_add]; omega
  rw [this, Nat.mod_mul_right_mod]

/-- What one encrypted cycle produces: `pc` and `v` are the program counter used and the word
loaded. -/
structure Agrees (t : Trace (plain logN L)) (pc v : BitVec 32) (d2 : Debug) : Prop where
  pcP : t.f.pcP = pc
  imm : t.f.imm = d2.ins.imm
  rs1 : t.f.rs1 = d2.ins.rs1
  rs2 : t.f.rs2 = d2.ins.rs2
  rd : t.f.rd = d2.ins.rd
  rdu : t.f.rdu = d2.ins.rdu
  mu : t.f.mu = d2.ins.mu
  pcu : t.f.pcu = d2.ins.pcu
  rs1Val : t.s.rs1 = d2.rs1Val
  rs2Val : t.s.rs2 = d2.rs2Val
  addr : t.q.addr = d2.ramAddr
  loaded : t.q.val = v
  rdVal : t.rdVal = d2.rdVal
  registers : t.registers.Stores d2.registers
  ramVal : t.ramVal = d2.ramVal
  ram : t.ram.Stores d2.ram
  pc : t.pc = d2.pc

theorem fetch_plain {vm : Interp (plain logN L)} {d : Debug} (m : Mirrors vm d) (pc : BitVec 32)
    (i : Decoded) (hi : d.rom[pc.toNat / 4]? = some i) (h1 : i.rs1.toNat < 32) (h2 : i.rs2.toNat < 32)
    (h3 : i.rd.toNat < 32) (h4 : i.rdu.toNat < 32) (h5 : i.mu.toNat < 4) (h6 : i.pcu.toNat < 16) :
    vm.fetch pc = some
      { pcP := pc, imm := i.imm, rdu := i.rdu, mu := i.mu, pcu := i.pcu
        rs1 := i.rs1, rs2 := i.rs2, rd := i.rd, rduP := i.rdu, muP := i.mu
        pcuP := i.pcu, immP := i.imm, rs1P := i.rs1, rs2P := i.rs2, rdP := i.rd } := by
  have get (f : Decoded → BitVec 32) : (d.rom.map f)[pc.toNat / 2 ^ 2]? = some (f i) := by
    rw [List.getElem?_map]; show Option.map f (d.rom[pc.toNat / 4]?) = _; rw [hi]; rfl
  unfold Interp.fetch
  rw [m.imm.readStateless vm.threads m.threads pc 2 i.imm (get _), Option.bind_some,
    m.rdu.readStateless vm.threads m.threads pc 2 i.rdu (get _), Option.bind_some,
    m.mu.readStateless vm.threads m.threads pc 2 i.mu (get _), Option.bind_some,
    m.pcu.readStateless vm.threads m.threads pc 2 i.pcu (get _), Option.bind_some,
    m.rs1.readStateless vm.threads m.threads pc 2 i.rs1 (get _), Option.bind_some,
    m.rs2.readStateless vm.threads m.threads pc 2 i.rs2 (get _), Option.bind_some,
    m.rd.readStateless vm.threads m.threads pc 2 i.rd (get _), Option.bind_some]
  have hb1 : bitsFor rdUpdateRv32iOpList.length = 5 := by decide +kernel
  have hb2 : bitsFor ramUpdateOpList.length = 2 := by decide +kernel
  rw [hb1, hb2, prepareMultiple_id vm.threads m.threads _ _ rfl (by decide) (by decide)]
  · rfl
  · intro j u c hu hc
    match j, hu, hc with
    | 0, hu, hc => cases hu; cases hc; exact h4
    | 1, hu, hc => cases hu; cases hc; exact h5
    | 2, hu, hc => cases hu; cases hc; exact h6
    | 3, hu, hc => cases hu; cases hc; exact i.imm.isLt
    | 4, hu, hc => cases hu; cases hc; exact h1
    | 5, hu, hc => cases hu; cases hc; exact h2
    | 6, hu, hc => cases hu; cases hc; exact h3
    | j + 7, hu, hc => simp at hu

theorem readRegisters_plain {vm : Interp (plain logN L)} {d : Debug} (m : Mirrors vm d)
    (f : Fetch (plain logN L)) (a b : BitVec 32) (h1 : d.registers[f.rs1P.toNat]? = some a)
    (h2 : d.registers[f.rs2P.toNat]? = some b) :
    vm.readRegisters f = some { rs1 := a, rs2 := b, rs1P := a, rs2P := b } := by
  unfold Interp.readRegisters
  rw [m.registers.readStateless vm.threads m.threads f.rs1P 0 a (by simpa using h1),
    Option.bind_some, m.registers.readStateless vm.threads m.threads f.rs2P 0 b (by simpa using h2),
    Option.bind_some, prepareMultiple_id vm.threads m.threads _ _ rfl (by decide) (by decide)]
  · rfl
  · intro j u c hu hc
    match j, hu, hc with
    | 0, hu, hc => cases hu; cases hc; exact a.isLt
    | 1, hu, hc => cases hu; cases hc; exact b.isLt
    | j + 2, hu, hc => simp at hu

theorem readRam_plain {vm : Interp (plain logN L)} {d : Debug} (m : Mirrors vm d)
    (f : Fetch (plain logN L)) (s : Sources (plain logN L)) (v : BitVec 32)
    (hv : d.ram[(f.immP + s.rs1P - 0x40000#32 : BitVec 32).toNat / 4 % 2 ^ bitsFor d.ram.length]?
      = some v) :
    vm.readRam f s = some
      { addr := f.immP + s.rs1P - 0x40000#32
        addrP := (plain logN L).prepareCustom (f.immP + s.rs1P - 0x40000#32) 0 (bitsFor d.ram.length + 2)
        val := v
        ram := vm.ram.front ((plain logN L).prepareCustom (f.immP + s.rs1P - 0x40000#32) 0
          (bitsFor d.ram.length + 2)) 2 } := by
  unfold Interp.readRam
  rw [ramOffset_plain, Option.bind_some]
  simp only [m.ramBits]
  rw [m.ram.readStatefull vm.threads m.threads _ 2 v]
  · rfl
  · rw [← m.ram.length]
    refine Eq.trans (congrArg (d.ram[·]?) (ram_access (logN := logN) (L := L) _ _)) hv

theorem updateRegisters_eq {B : Backend} (vm : Interp B) (ops : List RdUpdate) (f : Fetch B)
    (s : Sources B) (ramVal : B.Uint) (m : List (Nat × B.Uint)) (rd : B.Uint)
    (h1 : rdMap B ops s.rs1P s.rs2P f.immP f.pcP ramVal = some m)
    (h2 : refresh B (B.select m f.rduP 0 (bitsFor ops.length)) = rd) :
    vm.updateRegisters ops f s ramVal = (vm.registers.write vm.threads rd f.rdP 0).bind fun regs =>
      (regs.zero vm.threads 0).map fun regs => (rd, regs) := by
  unfold Interp.updateRegisters
  rw [h1, Option.bind_some, h2]

theorem updateRam_eq {B : Backend} (vm : Interp B) (f : Fetch B) (s : Sources B) (q : RamRead B)
    (val : B.Uint)
    (h : refresh B (B.select (ramUpdateOpList.map fun op =>
      (op.id.toNat, RamUpdate.evalEnc B op s.rs2 q.val q.addrP)) f.muP 0
        (bitsFor ramUpdateOpList.length)) = val) :
    vm.updateRam f s q = (q.ram.readStatefullRev vm.threads val q.addrP 2).map fun ram => (val, ram) := by
  unfold Interp.updateRam
  simp only [h]

theorem rdMap_plain (rs1 rs2 imm pc ram : BitVec 32) :
    rdMap (plain logN L) rdUpdateRv32iOpList rs1 rs2 imm pc ram
      = some (rdUpdateRv32iOpList.map fun o => (o.id.toNat,
          if o = .LB then ram &&& 0xFF#32 else (o.evalPlain imm rs1 rs2 pc ram).getD 0#32)) := by
  unfold rdMap
  apply collect_map_some
  intro o ho
  rw [evalEnc_plain o ho]
  split
  · rfl
  · obtain ⟨x, hx⟩ := rv32i_plain_total o ho imm rs1 rs2 pc ram
    rw [hx]; rfl

theorem byte_positive (v : BitVec 32) (h : v.getLsbD 7 = false) :
    (v.setWidth 8).signExtend 32 = v &&& 0xFF#32 := by
  bits32 <;> simpa using h

theorem updateRegisters_plain {vm : Interp (plain logN L)} {d : Debug} (m : Mirrors vm d)
    (f : Fetch (plain logN L)) (s : Sources (plain logN L)) (v r : BitVec 32) (o : RdUpdate)
    (ho : o ∈ rdUpdateRv32iOpList) (hid : f.rduP = o.id)
    (hval : cycleRd o f.immP s.rs1P s.rs2P f.pcP v = some r) (hrd : f.rdP.toNat < 32) :
    ∃ regs, vm.updateRegisters rdUpdateRv32iOpList f s v = some (r, regs) ∧
      regs.Stores ((d.registers.set f.rdP.toNat r).set 0 0#32) := by
  have hb1 : bitsFor rdUpdateRv32iOpList.length = 5 := by decide +kernel
  have hsel : (plain logN L).select (rdUpdateRv32iOpList.map fun o => (o.id.toNat,
          if o = .LB then v &&& 0xFF#32 else (o.evalPlain f.immP s.rs1P s.rs2P f.pcP v).getD 0#32))
        f.rduP 0 (bitsFor rdUpdateRv32iOpList.length) = r := by
    show lookupKey _ (f.rduP.toNat / 2 ^ 0 % 2 ^ _) = r
    rw [hb1, hid]
    have hlt : o.id.toNat / 2 ^ 0 % 2 ^ 5 = o.id.toNat := by
      revert ho; cases o <;> decide
    rw [hlt]
    have := lookup_unique rdUpdateRv32iOpList (fun o => o.id.toNat)
      (fun o => if o = .LB then v &&& 0xFF#32
        else (o.evalPlain f.immP s.rs1P s.rs2P f.pcP v).getD 0#32)
      (fun a _ b _ h => rdUpdate_inj a b (BitVec.eq_of_toNat_eq h)) o ho
    rw [this]
    unfold cycleRd at hval
    split
    · rename_i hlb
      rw [if_pos hlb] at hval
      exact Option.some.inj hval
    · rename_i hlb
      rw [if_neg hlb] at hval
      rw [hval]; rfl
  rw [updateRegisters_eq vm _ f s v _ r (rdMap_plain _ _ _ _ _) (by rw [hsel, refresh_plain])]
  have hsz : vm.registers.size = 32 := by rw [← m.registers.length, m.regs]
  have hacc : accessIndex f.rdP 0 (bitsFor vm.registers.size) = f.rdP.toNat := by
    unfold accessIndex
    rw [hsz, show bitsFor 32 = 5 by decide +kernel]
    omega
  obtain ⟨m1, e1, s1, st1⟩ := m.registers.write vm.threads m.threads r f.rdP 0
    (by rw [hacc, hsz]; exact hrd)
  rw [hacc] at st1
  obtain ⟨m2, e2, -, st2⟩ := st1.zero vm.threads m.threads 0 (by omega)
  rw [e1, Option.bind_some, e2]
  refine ⟨m2, rfl, ?_⟩
  have : zeroTarget (2 ^ logN) 0 = 0 := by simp [zeroTarget]
  rw [this] at st2
  exact st2

theorem updateRam_plain {vm : Interp (plain logN L)} {d : Debug} (m : Mirrors vm d)
    (f : Fetch (plain logN L)) (s : Sources (plain logN L)) (addr : BitVec 32) (v : BitVec 32)
    (ro : RamUpdate) (hid : f.muP = ro.id)
    (hr : addr.toNat / 4 % 2 ^ bitsFor d.ram.length < d.ram.length) :
    ∃ ram, vm.updateRam f s
        { addr := addr
          addrP := (plain logN L).prepareCustom addr 0 (bitsFor d.ram.length + 2)
          val := v
          ram := vm.ram.front ((plain logN L).prepareCustom addr 0 (bitsFor d.ram.length + 2)) 2 }
        = some (ro.evalPlain s.rs2 v (addr &&& 3#32), ram) ∧
      ram.Stores (d.ram.set (addr.toNat / 4 % 2 ^ bitsFor d.ram.length)
        (ro.evalPlain s.rs2 v (addr &&& 3#32))) := by
  have hb2 : bitsFor ramUpdateOpList.length = 2 := by decide +kernel
  have hro : ro ∈ ramUpdateOpList := by cases ro <;> decide
  have hsel : (plain logN L).select (ramUpdateOpList.map fun o => (o.id.toNat,
        RamUpdate.evalEnc (plain logN L) o s.rs2 v
          ((plain logN L).prepareCustom addr 0 (bitsFor d.ram.length + 2)))) f.muP 0
            (bitsFor ramUpdateOpList.length)
      = ro.evalPlain s.rs2 v (addr &&& 3#32) := by
    show lookupKey _ (f.muP.toNat / 2 ^ 0 % 2 ^ _) = _
    rw [hb2, hid]
    have hlt : ro.id.toNat / 2 ^ 0 % 2 ^ 2 = ro.id.toNat := by cases ro <;> decide
    rw [hlt]
    have := lookup_unique ramUpdateOpList (fun o => o.id.toNat)
      (fun o => RamUpdate.evalEnc (plain logN L) o s.rs2 v
          ((plain logN L).prepareCustom addr 0 (bitsFor d.ram.length + 2)))
      (fun a _ b _ h => ramUpdate_inj a b (BitVec.eq_of_toNat_eq h)) ro hro
    rw [this, ramEvalEnc_plain]
    exact congrArg _ (prepared_and3 (logN := logN) (L := L) addr _)
  rw [updateRam_eq vm f s _ (ro.evalPlain s.rs2 v (addr &&& 3#32)) (by
    refine Eq.trans (congrArg (refresh (plain logN L)) hsel) (refresh_plain _))]
  simp only
  rw [m.ram.rev vm.threads m.threads]
  have hacc := ram_access (logN := logN) (L := L) addr d.ram.length
  obtain ⟨m1, e1, -, st1⟩ := m.ram.write vm.threads m.threads (ro.evalPlain s.rs2 v (addr &&& 3#32))
    ((plain logN L).prepareCustom addr 0 (bitsFor d.ram.length + 2)) 2
    (by rw [← m.ram.length, hacc]; exact hr)
  rw [← m.ram.length, hacc] at st1
  exact ⟨m1, by rw [e1]; rfl, st1⟩

/-! ### The cycle -/

/-- The meaning of a cycle, spelled out. -/
structure CycleOf (d d2 : Debug) (pc : U32) (i : Decoded) (a b v r : U32) (o : RdUpdate)
    (ro : RamUpdate) (po : PcUpdate) : Prop where
  pcEq : pc = BitVec.ofNat 32 (d.pc.toNat % 2 ^ (bitsFor d.rom.length + 2))
  ins : d.rom[pc.toNat / 4]? = some i
  rs1 : d.registers[i.rs1.toNat]? = some a
  rs2 : d.registers[i.rs2.toNat]? = some b
  ram : d.ram[(i.imm + a - 0x40000#32).toNat / 4 % 2 ^ bitsFor d.ram.length]? = some v
  op : o ∈ rdUpdateRv32iOpList
  opId : o.id = i.rdu
  mu : ro.id = i.mu
  pcu : po.id = i.pcu
  val : cycleRd o i.imm a b pc v = some r
  rd : i.rd.toNat < d.registers.length
  result : d2 =
    { pc := po.evalPlain (cycleImm i.imm) a b pc
      rom := d.rom
      registers := (d.registers.set i.rd.toNat r).set 0 0#32
      ram := d.ram.set ((i.imm + a - 0x40000#32).toNat / 4 % 2 ^ bitsFor d.ram.length)
        (ro.evalPlain b v ((i.imm + a - 0x40000#32) &&& 3#32))
      ramAddr := i.imm + a - 0x40000#32
      ins := i
      rs1Val := a
      rs2Val := b
      ramVal := ro.evalPlain b v ((i.imm + a - 0x40000#32) &&& 3#32)
      rdVal := r }

theorem cycle_inv {d d2 : Debug} (h : cycle d = some d2) :
    ∃ pc i a b v r o ro po, CycleOf d d2 pc i a b v r o ro po := by
  unfold cycle at h
  obtain ⟨i, h1, h⟩ := Option.bind_eq_some_iff.mp h
  obtain ⟨a, h2, h⟩ := Option.bind_eq_some_iff.mp h
  obtain ⟨b, h3, h⟩ := Option.bind_eq_some_iff.mp h
  obtain ⟨v, h4, h⟩ := Option.bind_eq_some_iff.mp h
  obtain ⟨o, h5, h⟩ := Option.bind_eq_some_iff.mp h
  obtain ⟨ro, h6, h⟩ := Option.bind_eq_some_iff.mp h
  obtain ⟨po, h7, h⟩ := Option.bind_eq_some_iff.mp h
  obtain ⟨r, h8, h⟩ := Option.bind_eq_some_iff.mp h
  split at h
  · rename_i hrd
    refine ⟨_, i, a, b, v, r, o, ro, po, rfl, h1, h2, h3, h4, List.mem_of_find?_eq_some h5,
      by simpa using List.find?_some h5, by simpa using List.find?_some h6,
      by simpa using List.find?_some h7, h8, hrd, (Option.some.inj h).symm⟩
  · cases h

theorem find_id {α : Type} (ops : List α) (id : α → U32)
    (inj : ∀ a b, id a = id b → a = b) (a : α) (ha : a ∈ ops) :
    (ops.find? fun o => id o == id a) = some a := by
  cases h : ops.find? fun o => id o == id a with
  | none => exact absurd (List.find?_eq_none.mp h a ha) (by simp)
  | some b => rw [inj b a (by simpa using List.find?_some h)]

theorem CycleOf.eq {d d2 : Debug} {pc : U32} {i : Decoded} {a b v r : U32} {o : RdUpdate}
    {ro : RamUpdate} {po : PcUpdate} (c : CycleOf d d2 pc i a b v r o ro po) : cycle d = some d2 := by
  obtain ⟨rfl, h1, h2, h3, h4, h5, h6, h7, h8, h9, h10, h11⟩ := c
  unfold cycle
  simp only
  rw [h1, Option.bind_some, h2, Option.bind_some, h3, Option.bind_some, h4, Option.bind_some,
    ← h6, find_id _ _ rdUpdate_inj o h5, Option.bind_some,
    ← h7, find_id _ _ ramUpdate_inj ro (by cases ro <;> decide), Option.bind_some,
    ← h8, find_id _ _ pcUpdate_inj po (by cases po <;> decide), Option.bind_some,
    h9, Option.bind_some, if_pos h10, h11]

/-- One cycle: the encrypted cycle succeeds, computes everything its meaning says, and leads to the
state described by it. -/
theorem Mirrors.trace {vm : Interp (plain logN L)} {d d2 : Debug} (m : Mirrors vm d) {pc : U32}
    {i : Decoded} {a b v r : U32} {o : RdUpdate} {ro : RamUpdate} {po : PcUpdate}
    (c : CycleOf d d2 pc i a b v r o ro po) (hc : vm.cycle ≠ 0xFFFFFFFF#32) :
    ∃ t, vm.trace = some t ∧ Agrees t pc v d2 ∧ Mirrors (vm.next t) d2 := by
  have hrs1 : i.rs1.toNat < 32 :=
    Nat.lt_of_lt_of_eq (List.getElem?_eq_some_iff.mp c.rs1).1 m.regs
  have hrs2 : i.rs2.toNat < 32 :=
    Nat.lt_of_lt_of_eq (List.getElem?_eq_some_iff.mp c.rs2).1 m.regs
  have hrd : i.rd.toNat < 32 := Nat.lt_of_lt_of_eq c.rd m.regs
  have hrdu : i.rdu.toNat < 32 := by
    rw [← c.opId]; have := c.op; revert this; cases o <;> decide
  have hmu : i.mu.toNat < 4 := by rw [← c.mu]; cases ro <;> decide
  have hpcu : i.pcu.toNat < 16 := by rw [← c.pcu]; cases po <;> decide
  have hpcP : (if vm.cycle ≠ 0#32 then (plain logN L).prepareCustom vm.pc 0 (vm.romBits + 2)
      else vm.pcP) = pc := by
    rw [c.pcEq, ← m.romBits]
    split
    · rename_i h
      rw [m.pc h]
      exact prepareCustom_ofNat _ _
    · rename_i h
      obtain ⟨h1, h2⟩ := m.pc0 (by simpa using h)
      rw [h1, Nat.mod_eq_of_lt h2]
      simp
  have ef := fetch_plain m pc i c.ins hrs1 hrs2 hrd hrdu hmu hpcu
  have es := readRegisters_plain m
    { pcP := pc, imm := i.imm, rdu := i.rdu, mu := i.mu, pcu := i.pcu
      rs1 := i.rs1, rs2 := i.rs2, rd := i.rd, rduP := i.rdu, muP := i.mu
      pcuP := i.pcu, immP := i.imm, rs1P := i.rs1, rs2P := i.rs2, rdP := i.rd } a b c.rs1 c.rs2
  have eq := readRam_plain m
    { pcP := pc, imm := i.imm, rdu := i.rdu, mu := i.mu, pcu := i.pcu
      rs1 := i.rs1, rs2 := i.rs2, rd := i.rd, rduP := i.rdu, muP := i.mu
      pcuP := i.pcu, immP := i.imm, rs1P := i.rs1, rs2P := i.rs2, rdP := i.rd }
    { rs1 := a, rs2 := b, rs1P := a, rs2P := b } v c.ram
  obtain ⟨regs, er, sr⟩ := updateRegisters_plain m
    { pcP := pc, imm := i.imm, rdu := i.rdu, mu := i.mu, pcu := i.pcu
      rs1 := i.rs1, rs2 := i.rs2, rd := i.rd, rduP := i.rdu, muP := i.mu
      pcuP := i.pcu, immP := i.imm, rs1P := i.rs1, rs2P := i.rs2, rdP := i.rd }
    { rs1 := a, rs2 := b, rs1P := a, rs2P := b } v r o c.op c.opId.symm c.val hrd
  obtain ⟨ram, em, sm⟩ := updateRam_plain m
    { pcP := pc, imm := i.imm, rdu := i.rdu, mu := i.mu, pcu := i.pcu
      rs1 := i.rs1, rs2 := i.rs2, rd := i.rd, rduP := i.rdu, muP := i.mu
      pcuP := i.pcu, immP := i.imm, rs1P := i.rs1, rs2P := i.rs2, rdP := i.rd }
    { rs1 := a, rs2 := b, rs1P := a, rs2P := b } (i.imm + a - 0x40000#32) v ro c.mu.symm
    (List.getElem?_eq_some_iff.mp c.ram).1
  have epc : updatePc (plain logN L) a b pc i.imm i.pcu
      = some (po.evalPlain (cycleImm i.imm) a b pc) :=
    updatePc_plain po i.pcu a b pc i.imm (by rw [c.pcu])
  have et : vm.trace = some
      { f := { pcP := pc, imm := i.imm, rdu := i.rdu, mu := i.mu, pcu := i.pcu
               rs1 := i.rs1, rs2 := i.rs2, rd := i.rd, rduP := i.rdu, muP := i.mu
               pcuP := i.pcu, immP := i.imm, rs1P := i.rs1, rs2P := i.rs2, rdP := i.rd }
        s := { rs1 := a, rs2 := b, rs1P := a, rs2P := b }
        q := { addr := i.imm + a - 0x40000#32
               addrP := (plain logN L).prepareCustom (i.imm + a - 0x40000#32) 0 (bitsFor d.ram.length + 2)
               val := v
               ram := vm.ram.front ((plain logN L).prepareCustom (i.imm + a - 0x40000#32) 0
                 (bitsFor d.ram.length + 2)) 2 }
        rdVal := r, registers := regs
        ramVal := ro.evalPlain b v ((i.imm + a - 0x40000#32) &&& 3#32), ram := ram
        pc := po.evalPlain (cycleImm i.imm) a b pc } := by
    unfold Interp.trace
    simp only [hpcP]
    rw [ef, Option.bind_some, es, Option.bind_some, eq, Option.bind_some]
    simp only
    rw [er, Option.bind_some, em, Option.bind_some]
    simp only
    rw [epc]
    rfl
  refine ⟨_, et, ?_, ?_⟩
  · rw [c.result]
    exact ⟨rfl, rfl, rfl, rfl, rfl, rfl, rfl, rfl, rfl, rfl, rfl, rfl, rfl, sr, rfl, sm, rfl⟩
  · rw [c.result]
    refine ⟨m.threads, m.romBits, ?_, ?_, m.imm, m.rs1, m.rs2, m.rd, m.rdu, m.mu, m.pcu, sr, ?_, sm,
      ?_, fun _ => rfl⟩
    · show vm.ramBits = _
      rw [List.length_set]; exact m.ramBits
    · show vm.ramSize = _
      rw [List.length_set]; exact m.ramSize
    · simp [m.regs]
    · intro h
      exfalso
      apply hc
      have h' : vm.cycle + 1#32 = 0#32 := h
      have e := congrArg BitVec.toNat h'
      apply BitVec.eq_of_toNat_eq
      simp only [BitVec.toNat_add, BitVec.toNat_ofNat] at e ⊢
      have := vm.cycle.isLt
      omega

/-! ### Meaning of a cycle against the mirror's cycle -/

/-- On supported cycles the mirror's cycle is the meaning of the encrypted one. -/
theorem Debug.Cycle.supported {d d1 d2 : Debug} {i : Decoded} {a b v r : U32} {o : RdUpdate}
    {ro : RamUpdate} {po : PcUpdate} (c : Debug.Cycle d d1 d2 i a b v r o ro po) (sup : Supported d1) :
    CycleOf d d2 d.pc i a b v r o ro po := by
  have hsup := sup
  rw [c.loaded] at hsup
  obtain ⟨hlb, hjump, hram⟩ := hsup
  have hbase : (1#32 <<< 18 : U32) = 0x40000#32 := rfl
  simp only [hbase] at hlb hjump hram
  have hidx : (i.imm + a - 0x40000#32).toNat / 4 % 2 ^ bitsFor d.ram.length
      = ((i.imm + a - 0x40000#32) >>> 2).toNat % d.ram.length := by
    rw [toNat_shift2]
    rcases hram with ⟨k, hk⟩ | h
    · rw [hk, bitsFor_pow]
    · rw [toNat_shift2] at h
      rw [Nat.mod_eq_of_lt h, Nat.mod_eq_of_lt (Nat.lt_of_lt_of_le h (le_two_pow_bitsFor _))]
  have hpc : d.pc = BitVec.ofNat 32 (d.pc.toNat % 2 ^ (bitsFor d.rom.length + 2)) := by
    have h1 := (List.getElem?_eq_some_iff.mp c.ins).1
    have h2 := le_two_pow_bitsFor d.rom.length
    rw [toNat_shift2] at h1
    rw [Nat.mod_eq_of_lt (by rw [Nat.pow_add]; omega)]
    simp
  have hins := c.ins
  rw [toNat_shift2] at hins
  have hram' := c.ram
  rw [hbase, ← hidx] at hram'
  refine ⟨hpc, hins, c.rs1, c.rs2, hram', c.op, c.opId, c.mu, c.pcu, ?_, c.rd, ?_⟩
  · unfold cycleRd
    split
    · rename_i h
      subst h
      have e := c.val
      have e' : RdUpdate.LB.evalPlain i.imm a b d.pc v = some ((v.setWidth 8).signExtend 32) := sext7 v
      rw [e', byte_positive v (hlb c.opId.symm)] at e
      exact e
    · exact c.val
  · have hp : po.evalPlain (cycleImm i.imm) a b d.pc = po.evalPlain i.imm a b d.pc := by
      rcases hjump with h | h
      · have : po = .NONE := pcUpdate_inj _ _ (by rw [c.pcu]; exact h)
        subst this; rfl
      · exact congrArg (fun x => po.evalPlain x a b d.pc) h
    rw [hidx, hp, c.result, c.loaded]
    rfl

end Verif.Model
