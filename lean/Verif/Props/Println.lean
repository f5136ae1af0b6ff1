import Verif.Props.Boot
import Verif.Spec.Println
/-
  C83: guests that print.
-/
namespace Verif.Props
open Model Spec

/-! ### Inert instructions -/

/-- What SYSTEM words and `nop` are decoded to. -/
def Inert (i : Decoded) : Prop :=
  ∃ o, (o = RdUpdate.NONE ∨ o = RdUpdate.ADDI) ∧ i = ⟨0#32, 0#32, 0#32, 0#32, o.id, RamUpdate.NONE.id, PcUpdate.NONE.id⟩

/-- Same state, and same program except where both hold an inert instruction. -/
structure SameBut (d e : Debug) : Prop where
  same : e = { d with rom := e.rom, ins := e.ins }
  length : e.rom.length = d.rom.length
  rom : ∀ k : Nat, d.rom[k]? = e.rom[k]? ∨ ∃ i j, d.rom[k]? = some i ∧ e.rom[k]? = some j ∧ Inert i ∧ Inert j

theorem SameBut.symm {d e : Debug} (h : SameBut d e) : SameBut e d := by
  refine ⟨?_, h.length.symm, fun k => ?_⟩
  · rw [h.same]
  · rcases h.rom k with q | ⟨i, j, q⟩
    · exact .inl q.symm
    · exact .inr ⟨j, i, q.2.1, q.1, q.2.2.2, q.2.2.1⟩

theorem SameBut.mk' {d : Debug} (rom : List Decoded) (ins : Decoded) (hl : rom.length = d.rom.length)
    (hr : ∀ k : Nat, d.rom[k]? = rom[k]? ∨ ∃ i j, d.rom[k]? = some i ∧ rom[k]? = some j ∧ Inert i ∧ Inert j) :
    SameBut d { d with rom := rom, ins := ins } := ⟨rfl, hl, hr⟩

/-- The cycle at another program with an inert instruction in the same place. -/
theorem cycleOther {d d2 : Debug} {pc : U32} {i j : Decoded} {a b v r : U32} {o : RdUpdate} {ro : RamUpdate}
    {po : PcUpdate} (c : CycleOf d d2 pc i a b v r o ro po) (h0 : d.registers[0]? = some 0#32) (rom : List Decoded)
    (ins : Decoded) (hl : rom.length = d.rom.length) (hr : rom[pc.toNat / 4]? = some j) (hij : i = j ∨ Inert i ∧ Inert j) :
    ∃ o', CycleOf { d with rom := rom, ins := ins } { d2 with rom := rom, ins := j } pc j a b v r o' ro po := by
  rcases hij with rfl | ⟨⟨o1, ho1, rfl⟩, o2, ho2, rfl⟩
  · refine ⟨o, ?_, hr, c.rs1, c.rs2, c.ram, c.op, c.opId, c.mu, c.pcu, c.val, c.rd, ?_⟩
    · show pc = BitVec.ofNat 32 (d.pc.toNat % 2 ^ (bitsFor rom.length + 2))
      rw [hl]; exact c.pcEq
    · rw [c.result]
  · have e1 : o = o1 := rdUpdate_inj _ _ c.opId
    subst e1
    have ha : a = 0#32 := Option.some.inj (c.rs1.symm.trans h0)
    subst ha
    have val : ∀ o : RdUpdate, o = .NONE ∨ o = .ADDI → cycleRd o 0#32 0#32 b pc v = some 0#32 := by
      rintro o (rfl | rfl) <;> rfl
    have hrv : r = 0#32 := by
      have := c.val
      rw [val o ho1] at this
      exact (Option.some.inj this).symm
    subst hrv
    refine ⟨o2, ?_, hr, c.rs1, c.rs2, c.ram, by rcases ho2 with rfl | rfl <;> decide, rfl, c.mu, c.pcu, val o2 ho2, c.rd, ?_⟩
    · show pc = BitVec.ofNat 32 (d.pc.toNat % 2 ^ (bitsFor rom.length + 2))
      rw [hl]; exact c.pcEq
    · rw [c.result]

/-- A successful cycle of the mirror from its parts. -/
theorem mirrorCycle_eq {d d1 d2 : Debug} {i : Decoded} {a b v r : U32} {o : RdUpdate} {ro : RamUpdate}
    {po : PcUpdate} (c : Debug.Cycle d d1 d2 i a b v r o ro po) : d.loaded = some d1 ∧ d.step = some d2 := by
  have hl : d.loaded = some d1 := by
    unfold Debug.loaded Debug.readInstructions
    rw [c.ins, Option.map_some, Option.bind_some]
    unfold Debug.readRegisters
    simp only
    rw [c.rs1, Option.bind_some, c.rs2, Option.map_some, Option.bind_some]
    unfold Debug.readRam Debug.ramIndex
    simp only
    rw [c.ram, Option.map_some, c.loaded]
  refine ⟨hl, ?_⟩
  rw [Debug.step_loaded, hl, Option.bind_some]
  have hv : ∀ op ∈ rdUpdateRv32iOpList, ∃ x, op.evalPlain i.imm a b d.pc v = some x := fun op hop =>
    rv32i_plain_total op hop i.imm a b d.pc v
  have em := collect_map_some
    (fun op : RdUpdate => (op.evalPlain i.imm a b d.pc v).map fun v => (op.id, v))
    (fun op => (op.id, (op.evalPlain i.imm a b d.pc v).getD 0#32)) rdUpdateRv32iOpList (by
      intro op hop
      obtain ⟨x, hx⟩ := hv op hop
      simp [hx])
  have hu : d1.updateRegisters rdUpdateRv32iOpList =
      some { d1 with rdVal := r, registers := (d.registers.set i.rd.toNat r).set 0 0#32 } := by
    rw [c.loaded]
    unfold Debug.updateRegisters
    simp only
    rw [em, Option.bind_some, ← c.opId, mapGet_unique rdUpdateRv32iOpList RdUpdate.id
      (fun op => (op.evalPlain i.imm a b d.pc v).getD 0#32) (fun _ _ _ _ h => rdUpdate_inj _ _ h) o c.op, Option.bind_some,
      c.val, if_pos ⟨c.rd, by have := c.rd; omega⟩]
    rfl
  rw [hu, Option.bind_some]
  have hm := mapGet_unique ramUpdateOpList RamUpdate.id
    (fun op => op.evalPlain b v ((i.imm + a - (1#32 <<< 18)) &&& 3#32)) (fun _ _ _ _ h => ramUpdate_inj _ _ h) ro
    (by cases ro <;> decide)
  have hp := mapGet_unique pcUpdateOpList PcUpdate.id
    (fun op => op.evalPlain i.imm a b d.pc) (fun _ _ _ _ h => pcUpdate_inj _ _ h) po (by cases po <;> decide)
  have hidx := (List.getElem?_eq_some_iff.mp c.ram).1
  rw [c.loaded]
  unfold Debug.updateRam Debug.ramIndex
  simp only
  rw [← c.mu, hm, Option.bind_some, if_pos hidx, Option.bind_some]
  unfold Debug.updatePc
  simp only
  rw [← c.pcu, hp, Option.map_some, c.result, c.loaded]

theorem mirrorOther {d d1 d2 : Debug} {i j : Decoded} {a b v r : U32} {o : RdUpdate} {ro : RamUpdate}
    {po : PcUpdate} (c : Debug.Cycle d d1 d2 i a b v r o ro po) (h0 : d.registers[0]? = some 0#32) (rom : List Decoded)
    (ins : Decoded) (hr : rom[(d.pc >>> 2).toNat]? = some j) (hij : i = j ∨ Inert i ∧ Inert j) :
    ∃ o', Debug.Cycle { d with rom := rom, ins := ins } { d1 with rom := rom, ins := j } { d2 with rom := rom, ins := j }
      j a b v r o' ro po := by
  rcases hij with rfl | ⟨⟨o1, ho1, rfl⟩, o2, ho2, rfl⟩
  · exact ⟨o, hr, c.rs1, c.rs2, c.ram, by rw [c.loaded], c.op, c.opId, c.val, c.rd, c.mu, c.pcu, by rw [c.result]⟩
  · have e1 : o = o1 := rdUpdate_inj _ _ c.opId
    subst e1
    have ha : a = 0#32 := Option.some.inj (c.rs1.symm.trans h0)
    subst ha
    have val : ∀ o : RdUpdate, o = .NONE ∨ o = .ADDI → o.evalPlain 0#32 0#32 b d.pc v = some 0#32 := by
      rintro o (rfl | rfl) <;> rfl
    have hrv : r = 0#32 := by
      have := c.val
      rw [val o ho1] at this
      exact (Option.some.inj this).symm
    subst hrv
    exact ⟨o2, hr, c.rs1, c.rs2, c.ram, by rw [c.loaded], by rcases ho2 with rfl | rfl <;> decide, rfl, val o2 ho2, c.rd,
      c.mu, c.pcu, by rw [c.result]⟩

/-- Where the two programs may differ. -/
theorem SameBut.at {d e : Debug} (h : SameBut d e) {k : Nat} {i : Decoded} (hi : d.rom[k]? = some i) :
    ∃ j, e.rom[k]? = some j ∧ (i = j ∨ Inert i ∧ Inert j) := by
  rcases h.rom k with q | ⟨i', j, q1, q2, q3, q4⟩
  · exact ⟨i, q ▸ hi, .inl rfl⟩
  · have := Option.some.inj (q1.symm.trans hi)
    subst this
    exact ⟨j, q2, .inr ⟨q3, q4⟩⟩

theorem cycle_zero {d d2 : Debug} (h : Spec.cycle d = some d2) : d2.registers[0]? = some 0#32 := by
  obtain ⟨pc, i, a, b, v, r, o, ro, po, c⟩ := cycle_inv h
  have := c.rd
  rw [c.result]
  show ((d.registers.set _ _).set 0 0#32)[0]? = _
  rw [List.getElem?_set_self (by rw [List.length_set]; omega)]

theorem SameBut.cycle {d e d2 : Debug} (h : SameBut d e) (h0 : d.registers[0]? = some 0#32) (hc : Spec.cycle d = some d2) :
    ∃ e2, Spec.cycle e = some e2 ∧ SameBut d2 e2 := by
  obtain ⟨pc, i, a, b, v, r, o, ro, po, c⟩ := cycle_inv hc
  obtain ⟨j, hj, hij⟩ := h.at c.ins
  obtain ⟨o', c'⟩ := cycleOther c h0 e.rom e.ins h.length hj hij
  rw [← h.same] at c'
  have hrom : d2.rom = d.rom := by rw [c.result]
  exact ⟨_, c'.eq, SameBut.mk' _ _ (by rw [hrom]; exact h.length) (by rw [hrom]; exact h.rom)⟩

theorem SameBut.cycles {d e d2 : Debug} (h : SameBut d e) (h0 : d.registers[0]? = some 0#32) (n : Nat)
    (hc : Spec.cycles n d = some d2) : ∃ e2, Spec.cycles n e = some e2 ∧ SameBut d2 e2 := by
  induction n generalizing d e with
  | zero => cases hc; exact ⟨e, rfl, h⟩
  | succ n ih =>
    obtain ⟨d1, h1, h2⟩ := Option.bind_eq_some_iff.mp hc
    obtain ⟨e1, g1, s1⟩ := h.cycle h0 h1
    obtain ⟨e2, g2, s2⟩ := ih s1 (cycle_zero h1) h2
    exact ⟨e2, by show (Spec.cycle e).bind _ = _; rw [g1]; exact g2, s2⟩

theorem SameBut.both {d e d2 : Debug} (h : SameBut d e) (h0 : d.registers[0]? = some 0#32) (hc : bothStep d d2) :
    ∃ e2, bothStep e e2 ∧ SameBut d2 e2 := by
  obtain ⟨-, h2, d1, hl, sup⟩ := hc
  obtain ⟨d1', i, a, b, v, r, o, ro, po, hl', m⟩ := Debug.step_inv h2
  have : d1' = d1 := Option.some.inj (hl'.symm.trans hl)
  subst this
  obtain ⟨j, hj, hij⟩ := h.at m.ins
  obtain ⟨o1, m'⟩ := mirrorOther m h0 e.rom e.ins hj hij
  rw [← h.same] at m'
  have sup' : Supported { d1' with rom := e.rom, ins := j } := by
    have hi : d1'.ins = i := by rw [m.loaded]
    refine ⟨fun hlb => ?_, ?_, sup.ram⟩
    · rcases hij with rfl | ⟨-, o2, ho2, rfl⟩
      · exact sup.lb (by rw [hi]; exact hlb)
      · rcases ho2 with rfl | rfl
        · exact absurd (show RdUpdate.NONE.id = RdUpdate.LB.id from hlb) (by decide)
        · exact absurd (show RdUpdate.ADDI.id = RdUpdate.LB.id from hlb) (by decide)
    · rcases hij with rfl | ⟨-, o2, ho2, rfl⟩
      · have := sup.jump
        rw [hi] at this
        exact this
      · exact .inl rfl
  have hrom : d2.rom = d.rom := by rw [m.result, m.loaded]
  obtain ⟨l', s'⟩ := mirrorCycle_eq m'
  exact ⟨_, ⟨(m'.supported sup').eq, s', _, l', sup'⟩,
    SameBut.mk' _ _ (by rw [hrom]; exact h.length) (by rw [hrom]; exact h.rom)⟩

theorem SameBut.chain {d e d2 : Debug} {n : Nat} (hc : Chain bothStep n d d2) (h : SameBut d e)
    (h0 : d.registers[0]? = some 0#32) : ∃ e2, Chain bothStep n e e2 ∧ SameBut d2 e2 := by
  induction hc generalizing e with
  | zero d => exact ⟨e, .zero e, h⟩
  | succ h1 _ ih =>
    obtain ⟨e1, g1, s1⟩ := h.both h0 h1
    obtain ⟨e2, g2, s2⟩ := ih s1 (cycle_zero h1.1)
    exact ⟨e2, .succ g1 g2, s2⟩

/-! ### Programs with the system instructions taken out -/

theorem system_decode (dbg : Bool) (w : Word) (h : isSystem w) : ∃ i, decodeWord dbg w = some i ∧ Inert i := by
  have h7 : w.setWidth 7 = 0b1110011#7 := by
    rw [← (h : w.extractLsb' 0 7 = _)]
    ext k hk
    simp [BitVec.getElem_setWidth, BitVec.getElem_extractLsb']
  exact ⟨_, C48_decode dbg w h7, .NONE, .inl rfl, rfl⟩

theorem nop_decode (dbg : Bool) : ∃ i, decodeWord dbg nop = some i ∧ Inert i := by
  cases dbg
  · exact ⟨⟨0#32, 0#32, 0#32, 0#32, RdUpdate.ADDI.id, RamUpdate.NONE.id, PcUpdate.NONE.id⟩, by decide +kernel, .ADDI, .inr rfl, rfl⟩
  · exact ⟨⟨0#32, 0#32, 0#32, 0#32, RdUpdate.ADDI.id, RamUpdate.NONE.id, PcUpdate.NONE.id⟩, by decide +kernel, .ADDI, .inr rfl, rfl⟩

/-- Decoding a word and the word that replaces it. -/
theorem silent_decode (dbg : Bool) (w : Word) (i j : Decoded) (hi : decodeWord dbg w = some i)
    (hj : decodeWord dbg (silent w) = some j) : i = j ∨ Inert i ∧ Inert j := by
  unfold silent at hj
  split at hj
  · rename_i h
    obtain ⟨i', q1, q2⟩ := system_decode dbg w h
    obtain ⟨j', q3, q4⟩ := nop_decode dbg
    have e1 := Option.some.inj (q1.symm.trans hi)
    have e2 := Option.some.inj (q3.symm.trans hj)
    exact .inr ⟨e1 ▸ q2, e2 ▸ q4⟩
  · exact .inl (Option.some.inj (hi.symm.trans hj))

theorem silent_program (dbg : Bool) (ws : List Word) (ds : List Decoded) (h : ws.map (decodeWord dbg) = ds.map some) :
    ∃ ds' : List Decoded, (ws.map silent).map (decodeWord dbg) = ds'.map some := by
  induction ws generalizing ds with
  | nil => exact ⟨[], rfl⟩
  | cons w ws ih =>
    cases ds with
    | nil => cases h
    | cons i ds =>
      obtain ⟨h1, h2⟩ := List.cons.inj h
      obtain ⟨ds', e⟩ := ih ds h2
      have : ∃ j, decodeWord dbg (silent w) = some j := by
        unfold silent
        split
        · obtain ⟨j, q, -⟩ := nop_decode dbg
          exact ⟨j, q⟩
        · exact ⟨i, h1⟩
      obtain ⟨j, hj⟩ := this
      refine ⟨j :: ds', ?_⟩
      show decodeWord dbg (silent w) :: _ = some j :: _
      rw [hj, e]

theorem image_sameBut (dbg : Bool) (romSize ramSize : Nat) (ws : List Word) (ds ds' : List Decoded) (data : List Word)
    (h : ws.map (decodeWord dbg) = ds.map some) (h' : (ws.map silent).map (decodeWord dbg) = ds'.map some) :
    SameBut (Debug.image romSize ramSize ds data) (Debug.image romSize ramSize ds' data) := by
  have l1 : ds.length = ws.length := by simpa using (congrArg List.length h).symm
  have l2 : ds'.length = ws.length := by simpa using (congrArg List.length h').symm
  refine ⟨rfl, ?_, fun k => ?_⟩
  · show (ds' ++ List.replicate (romSize - ds'.length) Decoded.zero).length =
      (ds ++ List.replicate (romSize - ds.length) Decoded.zero).length
    simp [l1, l2]
  · show (ds ++ List.replicate (romSize - ds.length) Decoded.zero)[k]? =
        (ds' ++ List.replicate (romSize - ds'.length) Decoded.zero)[k]? ∨
      ∃ i j, (ds ++ List.replicate (romSize - ds.length) Decoded.zero)[k]? = some i ∧
        (ds' ++ List.replicate (romSize - ds'.length) Decoded.zero)[k]? = some j ∧ Inert i ∧ Inert j
    by_cases hk : k < ws.length
    · rw [List.getElem?_append_left (by omega), List.getElem?_append_left (by omega),
        List.getElem?_eq_getElem (by omega : k < ds.length), List.getElem?_eq_getElem (by omega : k < ds'.length)]
      have a1 := congrArg (·[k]?) h
      have a2 := congrArg (·[k]?) h'
      simp only [List.getElem?_map, List.getElem?_eq_getElem hk, List.getElem?_eq_getElem (by omega : k < ds.length),
        List.getElem?_eq_getElem (by omega : k < ds'.length), Option.map_some] at a1 a2
      rcases silent_decode dbg _ _ _ (Option.some.inj a1) (Option.some.inj a2) with q | q
      · exact .inl (congrArg some q)
      · exact .inr ⟨_, _, rfl, rfl, q.1, q.2⟩
    · rw [List.getElem?_append_right (by omega), List.getElem?_append_right (by omega), l1, l2]
      exact .inl rfl

/-- Under encryption a program with system instructions and the same program with `nop` in their place have, after any
number of cycles, the same registers, RAM and program counter.  `d` is the exact result (C30_total: it always exists for
power-of-two memories and programs without multiplications and divisions). -/
theorem C83_encrypted (F : Fhe) (rand rand' : Nat → Nat → Nat → F.C.Rand) (dbg : Bool) (romSize ramSize threads threads' : Nat)
    (ws : List Word) (p q : Parser) (ds : List Decoded) (data : List Word) (vm vn : Interp F.B)
    (ht : 0 < threads) (ht' : 0 < threads')
    (hp : Parser.new.addAll dbg ws = some p) (hq : Parser.new.addAll dbg (ws.map silent) = some q)
    (hd : decodeProgram dbg p = some ds)
    (hvm : Interp.load F.C rand dbg romSize ramSize threads p data = some vm)
    (hvn : Interp.load F.C rand' dbg romSize ramSize threads' q data = some vn)
    (n : Nat) (hn : n < 2 ^ 32) (d : Debug) (hs : Spec.cycles n (Debug.image romSize ramSize ds data) = some d) :
    ∃ vm2 vn2, Interp.run n vm = some vm2 ∧ Interp.run n vn = some vn2 ∧
      vm2.registers.decrypt F.C (List.replicate 32 0#32) = some d.registers ∧
      vn2.registers.decrypt F.C (List.replicate 32 0#32) = some d.registers ∧
      vm2.decryptRam F.C (List.replicate d.ram.length 0#32) = some d.ram ∧
      vn2.decryptRam F.C (List.replicate d.ram.length 0#32) = some d.ram ∧
      (n ≠ 0 → F.decU vm2.pc = F.decU vn2.pc) := by
  obtain ⟨ds1, e1, hds⟩ := decodeProgram_words dbg ws p hp
  have : ds1 = ds := Option.some.inj (e1.symm.trans hd)
  subst this
  obtain ⟨ds', e2, hds'⟩ := decodeProgram_words dbg _ q hq
  have sb := image_sameBut dbg romSize ramSize ws ds1 ds' data hds hds'
  obtain ⟨d', hs', sb'⟩ := sb.cycles rfl n hs
  obtain ⟨vm2, r1, -, a1, a2, a3⟩ := C30_exact F rand dbg romSize ramSize threads p data vm ds1 ht hd hvm n hn d hs
  obtain ⟨vn2, r2, -, b1, b2, b3⟩ := C30_exact F rand' dbg romSize ramSize threads' q data vn ds' ht' e2 hvn n hn d' hs'
  have g1 : d'.registers = d.registers := by rw [sb'.same]
  have g2 : d'.ram = d.ram := by rw [sb'.same]
  have g3 : d'.pc = d.pc := by rw [sb'.same]
  rw [g1] at b1
  rw [g2] at b2
  exact ⟨vm2, vn2, r1, r2, a1, b1, a2, b2, fun h => by rw [a3 h, b3 h, g3]⟩

/-! ### The test VM -/

theorem system_undecoded (w : Word) (h : isSystem w) : decodeInst w = none := by
  have hop : extractBits w 7 = 0b1110011#32 := by
    have e : extractBits w 7 = (w.extractLsb' 0 7).setWidth 32 := by
      unfold extractBits
      bits32
    rw [e, (h : w.extractLsb' 0 7 = _)]
    rfl
  unfold decodeInst
  simp only [hop]
  rfl

/-- The test VM panics at any system instruction. -/
theorem C83_testvm (chk : Bool) (vm : TestVM) (w : Word) (hf : vm.rom.readWord chk vm.pc.toNat = some w) (h : isSystem w) :
    vm.run chk = none := by
  unfold TestVM.run
  rw [hf, Option.bind_some, system_undecoded w h]
  rfl

/-- So it completes no run that reaches one. -/
theorem C83_stops (chk : Bool) (vm v : TestVM) (k : Nat) (w : Word) (hk : k < vm.maxCycles) (hv : vm.steps chk k = some v)
    (hf : v.rom.readWord chk v.pc.toNat = some w) (h : isSystem w) : vm.execute chk = none := by
  unfold TestVM.execute
  obtain ⟨j, hj⟩ : ∃ j, vm.maxCycles = k + (j + 1) := ⟨vm.maxCycles - k - 1, by omega⟩
  rw [hj, steps_add, hv, Option.bind_some]
  show (v.run chk).bind _ = none
  rw [C83_testvm chk v w hf h]
  rfl

/-! ### Output of a guest that prints -/

/-- The encrypted VM completes a guest that prints, with the output of the guest that does not: of two guests
alike but for the system instructions, `q` having `nop` instead, the output of `p` under encryption is that of `q` in the
test VM.  Hypotheses as in C42, about `q`. -/
theorem C83_output (F : Fhe) (rand : Nat → Nat → Nat → F.C.Rand) (chk dbg phantomDebug : Bool)
    (threads n : Nat) (e : Elf) (p q : Phantom) (tape : List Byte) (ev : EncVM F.B) (vm0 vm1 vm2 : TestVM)
    (hfile : e.bytes.length < 2 ^ 63) (hq : Phantom.fromElf e = some q)
    (hpq : Silenced p q) (hbase : p.bootRam.offset = ramBase) (ht : 0 < threads) (hn : n < 2 ^ 32)
    (hev : p.encryptedVm F.C rand dbg phantomDebug threads tape n = some ev)
    (hvm : q.testVm chk n = some vm0) (hin : vm0.readInputTape chk tape = some vm1)
    (hex : ∀ k v, k < n → vm1.steps chk k = some v → v.Executes chk (encOk 4096))
    (hrun : vm1.execute chk = some vm2) :
    ∃ ev2, ev.execute F.C F.decU F.decP = some ev2 ∧ ev2.outputTape F.C chk = vm2.outputTape chk := by
  obtain ⟨h4, hl, parser, ds, bytes, hpa, hd, hds, hb, hv, ho, hro, hmc, hmir⟩ := encryptedVm_inv hev
  have hbq : q.bootRam.offset = ramBase := by rw [hpq.ram]; exact hbase
  have hlq : tape.length = q.input.size := by rw [hpq.input]; exact hl
  have hbb : copyInto q.bootRam.data q.bootRam.offset q.input.startAddr tape = some bytes := by
    rw [hpq.ram, hpq.input]; exact hb
  have h4q : q.bootRom.data.length % 4 = 0 := by rw [hpq.length]; exact h4
  obtain ⟨ds', hds'⟩ := silent_program dbg _ ds hds
  have hvm1 := testVm_ready hfile hq hbq hlq hbb hvm hin
  obtain ⟨hw, ha, hsp, hrl⟩ := setup_agree (chk := chk) (dbg := dbg) hfile hq hbq hlq h4q
    (by rw [hpq.code]; exact hds') hbb hvm hin
  have hsteps : vm1.steps chk n = some vm2 := by
    have : vm1.maxCycles = n := by rw [hvm1]
    rw [← this]; exact hrun
  obtain ⟨d1, hch1, a', w', f', l'⟩ := agree_both chk dbg n 10 vm1 vm2 _ hw (by rw [hvm1]; rfl) ha hsp hrl hex hsteps
  rw [hpq.romSize, hpq.ram] at hch1
  obtain ⟨d', hch, sb⟩ := SameBut.chain hch1
    (image_sameBut dbg (p.bootRom.size / 4) (p.bootRam.size / 4) _ ds ds' (packWords bytes) hds hds').symm rfl
  have gram : d'.ram = d1.ram := by rw [sb.same]
  obtain ⟨hruns, hcy⟩ := C29_start F rand dbg _ _ threads parser _ ev.interp ds ht hd hv
  have hcount : ev.interp.cycle.toNat + n < 2 ^ 32 := by rw [hcy]; simpa using hn
  have hfin : ∃ ev2, ev.execute F.C F.decU F.decP = some ev2 ∧ F.Runs ev2.interp d' ∧ ev2.output = ev.output ∧
      ev2.ramOffset = ev.ramOffset := by
    unfold EncVM.execute
    rw [hmc]
    cases phantomDebug with
    | false =>
      obtain ⟨i, e1, r1, -⟩ := hruns.run n hch.cycles hcount
      exact ⟨_, cycles_none n ev i hmir e1, r1, rfl, rfl⟩
    | true =>
      obtain ⟨i, e1, r1⟩ := cycles_debug hch ev hmir hruns hcount
      exact ⟨_, e1, r1, rfl, rfl⟩
  obtain ⟨ev2, e2, r2, o2, off2⟩ := hfin
  refine ⟨ev2, e2, ?_⟩
  have hdec : ev2.interp.decryptRam F.C (List.replicate (RAM_SIZE / 4) 0#32) = some d'.ram :=
    (C29_observe F ev2.interp d' r2).2.1 _ (by rw [List.length_replicate, gram, l']; rfl)
  have fout : vm2.output = p.output := by
    have := congrArg (·.2.2.1) f'
    rw [hvm1] at this; exact this.trans hpq.output
  have foff : vm2.ram.offset = p.bootRam.offset := by
    have := congrArg (·.2.2.2.2.1) f'
    rw [hvm1] at this; exact this.trans hbase.symm
  have fsz : vm2.ram.size = 4096 := by
    have := congrArg (·.2.2.2.2.2) f'
    rw [hvm1] at this; exact this
  unfold EncVM.outputTape TestVM.outputTape
  rw [hdec, Option.bind_some, o2, off2, ho, hro, fout]
  apply collect_congr
  intro i _
  refine congrArg _ (funext fun a => ?_)
  unfold TMem.readByte
  rw [foff]
  refine congrArg _ (funext fun k => ?_)
  unfold TMem.get
  rw [fsz, if_neg (by decide), a'.ram, gram, unpackWords_eq]
  rfl

/-! ### A guest that prints -/

/-- `lui x2,0x40; lw x1,0(x2); addi x10,x0,0; <w>; addi x1,x1,1; sw x1,4(x2); jal x0,0` with four input bytes at 0x40000 and
four output bytes after them. -/
def printElf (w : Word) : Elf :=
  { bytes := wordBytes [0x00040137#32, 0x00012083#32, 0x00000513#32, w, 0x00108093#32, 0x00112223#32, 0x0000006F#32] ++
      List.replicate 8 0#8
    segments := [⟨1, 5, 0, 0, 28, 28⟩, ⟨1, 6, 28, 0x40000, 8, 8⟩]
    sections := [(".inpdata", ⟨0x40000, 4⟩), (".outdata", ⟨0x40004, 4⟩)] }

def printGuest (w : Word) : Phantom :=
  (Phantom.fromElf (printElf w)).getD ⟨⟨[], 0, 0⟩, ⟨[], 0, 0⟩, ⟨0, 0⟩, ⟨0, 0⟩⟩

theorem print_elf : Phantom.fromElf (printElf ecall) = some (printGuest ecall) ∧
    Phantom.fromElf (printElf nop) = some (printGuest nop) := by
  have h1 : (Phantom.fromElf (printElf ecall)).isSome = true := by decide +kernel
  have h2 : (Phantom.fromElf (printElf nop)).isSome = true := by decide +kernel
  obtain ⟨x, hx⟩ := Option.isSome_iff_exists.mp h1
  obtain ⟨y, hy⟩ := Option.isSome_iff_exists.mp h2
  unfold printGuest
  rw [hx, hy]
  exact ⟨rfl, rfl⟩

theorem bootMemory_ext {a b : BootMemory} (h1 : a.data = b.data) (h2 : a.offset = b.offset) (h3 : a.size = b.size) : a = b := by
  cases a; cases b; cases h1; cases h2; cases h3; rfl

theorem print_silenced : Silenced (printGuest ecall) (printGuest nop) where
  code := by decide +kernel
  length := by decide +kernel
  romSize := by decide +kernel
  ram := by
    have h1 : (printGuest nop).bootRam.data = (printGuest ecall).bootRam.data := eq_of_beq (by decide +kernel)
    have h2 : (printGuest nop).bootRam.offset = (printGuest ecall).bootRam.offset := by decide +kernel
    have h3 : (printGuest nop).bootRam.size = (printGuest ecall).bootRam.size := by decide +kernel
    exact bootMemory_ext h1 h2 h3
  input := by decide +kernel
  output := by decide +kernel

def printStart (w : Word) : TestVM :=
  (((printGuest w).testVm true 7).bind fun vm => vm.readInputTape true exTape).getD exVm

theorem print_start (w : Word) (h : (((printGuest w).testVm true 7).bind fun vm => vm.readInputTape true exTape).isSome = true) :
    ∃ vm0, (printGuest w).testVm true 7 = some vm0 ∧ vm0.readInputTape true exTape = some (printStart w) := by
  obtain ⟨x, hx⟩ := Option.isSome_iff_exists.mp h
  have hs : printStart w = x := by unfold printStart; rw [hx]; rfl
  obtain ⟨vm0, h1, h2⟩ := Option.bind_eq_some_iff.mp hx
  exact ⟨vm0, h1, by rw [hs]; exact h2⟩

theorem print_step (k : Nat) (v : TestVM) (pc : Word) (x : Option Word) (hv : (printStart nop).steps true k = some v)
    (hf : ((printStart nop).steps true k).map exFacts = some (pc, x, (printStart nop).rom, 0x40000, 4096, true)) :
    v.pc = pc ∧ v.registers[2]? = x ∧ v.rom = (printStart nop).rom := by
  rw [hv, Option.map_some] at hf
  have h := Option.some.inj hf
  simp only [exFacts, Prod.mk.injEq] at h
  exact ⟨h.1, h.2.1, h.2.2.1⟩

theorem print_executes (k : Nat) (v : TestVM) (hk : k < 7) (hv : (printStart nop).steps true k = some v) :
    v.Executes true (encOk 4096) := by
  have : k = 0 ∨ k = 1 ∨ k = 2 ∨ k = 3 ∨ k = 4 ∨ k = 5 ∨ k = 6 := by omega
  rcases this with rfl | rfl | rfl | rfl | rfl | rfl | rfl
  · obtain ⟨h1, h2, h3⟩ := print_step 0 v 0#32 (some 0#32) hv (by decide +kernel)
    refine executes_plain (.lui 2 0x40) ?_ ?_ (fun _ => ⟨trivial, trivial⟩) <;> rw [h1, h3] <;> decide +kernel
  · obtain ⟨h1, h2, h3⟩ := print_step 1 v 4#32 (some 0x40000#32) hv (by decide +kernel)
    refine executes_access (.load .lw 1 2 0) 2 0 0x40000#32 (Or.inl ⟨1, rfl⟩) ?_ ?_ h2 ?_ <;>
      first | (rw [h1, h3]; decide +kernel) | decide
  · obtain ⟨h1, h2, h3⟩ := print_step 2 v 8#32 (some 0x40000#32) hv (by decide +kernel)
    refine executes_plain (.opImm .addi 10 0 0) ?_ ?_ (fun _ => ⟨trivial, trivial⟩) <;> rw [h1, h3] <;> decide +kernel
  · obtain ⟨h1, h2, h3⟩ := print_step 3 v 12#32 (some 0x40000#32) hv (by decide +kernel)
    refine executes_plain (.opImm .addi 0 0 0) ?_ ?_ (fun _ => ⟨trivial, trivial⟩) <;> rw [h1, h3] <;> decide +kernel
  · obtain ⟨h1, h2, h3⟩ := print_step 4 v 16#32 (some 0x40000#32) hv (by decide +kernel)
    refine executes_plain (.opImm .addi 1 1 1) ?_ ?_ (fun _ => ⟨trivial, trivial⟩) <;> rw [h1, h3] <;> decide +kernel
  · obtain ⟨h1, h2, h3⟩ := print_step 5 v 20#32 (some 0x40000#32) hv (by decide +kernel)
    refine executes_access (.store .sw 2 1 4) 2 4 0x40000#32 (Or.inr ⟨1, rfl⟩) ?_ ?_ h2 ?_ <;>
      first | (rw [h1, h3]; decide +kernel) | decide
  · obtain ⟨h1, h2, h3⟩ := print_step 6 v 24#32 (some 0x40000#32) hv (by decide +kernel)
    refine executes_plain (.jal 0 0) ?_ ?_ (fun _ => ⟨trivial, (by decide : -2 ^ 18 ≤ (0#20).toInt ∧ (0#20).toInt < 2 ^ 18)⟩) <;> rw [h1, h3] <;> decide +kernel

/-- So the two VMs differ on guests that print: this one is loaded by both; the encrypted VM completes it, with and without
the debug comparison and under any correct library, and the test VM panics. -/
theorem C83_differ (F : Fhe) (rand : Nat → Nat → Nat → F.C.Rand) (phantomDebug : Bool) :
    ∃ ev ev2 vm0 vm1,
      (printGuest ecall).encryptedVm F.C rand true phantomDebug 3 exTape 7 = some ev ∧
      ev.execute F.C F.decU F.decP = some ev2 ∧ ev2.outputTape F.C true = some [0xFF, 0xFF, 0, 0] ∧
      (printGuest ecall).testVm true 7 = some vm0 ∧ vm0.readInputTape true exTape = some vm1 ∧ vm1.execute true = none := by
  have hpa : ∃ q, Parser.new.addAll true (packWords (printGuest ecall).bootRom.data) = some q := by
    rw [← Option.isSome_iff_exists]; decide +kernel
  obtain ⟨q, hq⟩ := hpa
  obtain ⟨ev, hev⟩ := C42_setup F rand true phantomDebug 3 7 (printElf ecall) (printGuest ecall) exTape q print_elf.1
    (by decide +kernel) (by decide +kernel) hq (by decide +kernel) (by decide +kernel) (by decide +kernel)
  obtain ⟨vm0, h1, h2⟩ := print_start nop (by decide +kernel)
  obtain ⟨vm3, g1, g2⟩ := print_start ecall (by decide +kernel)
  have h3 : (((printStart nop).execute true).bind fun vm => vm.outputTape true) = some [0xFF, 0xFF, 0, 0] := by decide +kernel
  obtain ⟨vm2, h4, h5⟩ := Option.bind_eq_some_iff.mp h3
  obtain ⟨ev2, e1, e2⟩ := C83_output F rand true true phantomDebug 3 7 (printElf nop) (printGuest ecall)
    (printGuest nop) exTape ev vm0 (printStart nop) vm2 (by decide +kernel) print_elf.2 print_silenced
    (by decide +kernel) (by decide) (by decide) hev h1 h2 (fun k v hk hv => print_executes k v hk hv) h4
  exact ⟨ev, ev2, vm3, _, hev, e1, e2.trans h5, g1, g2, by decide +kernel⟩

example : isSystem ecall ∧ isSystem Boot.unimp ∧ ¬ isSystem nop ∧ silent ecall = nop := by decide +kernel

end Verif.Props
