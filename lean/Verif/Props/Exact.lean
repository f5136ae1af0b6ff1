import Verif.Spec.Interpreter
import Verif.Props.Mirror
/-
  Property C35, exactly: what a cycle of the mirror and of the encrypted VM does for every RV32I instruction
  in every state.
-/
namespace Verif.Props
open Spec Model

theorem Instr.isBase.not_mul {i : Instr} (h : i.isBase) : ∀ o rd rs1 rs2, i ≠ .mul o rd rs1 rs2 := by
  rintro o rd rs1 rs2 rfl; exact h

theorem execMirror_pc (words : Nat) (i : Instr) (s : Arch) : (execMirror words i s).pc = (exec i s).pc := by
  cases i <;> rfl

theorem execMirror_mem (words : Nat) (i : Instr) (s : Arch) (h : ∀ o a b m, i ≠ .store o a b m) :
    (execMirror words i s).mem = s.mem := by
  cases i with
  | store o a b m => exact absurd rfl (h o a b m)
  | load => rfl
  | branch o a b m => simp only [execMirror, exec]; split <;> rfl
  | _ => rfl

theorem load_x (s : Arch) (rd : Reg) (u v : Word) (h : rd ≠ 0#5 → v = u) (r : Reg) :
    ((s.setX rd u).next).x r = (s.setX rd v).x r := by
  by_cases h0 : rd = 0#5
  · subst h0; simp [Arch.x, Arch.next, Arch.setX]
  · rw [h h0]; rfl

theorem execMirror_x (words : Nat) (i : Instr) (s : Arch) (v : Word)
    (hv : (operands i).2.2 ≠ 0#5 → v = (execMirror words i s).reg (operands i).2.2) (r : Reg) :
    (execMirror words i s).x r = (s.setX (operands i).2.2 v).x r := by
  cases i with
  | load o rd rs1 imm =>
    refine load_x s rd _ v (fun h => ?_) r
    rw [hv h]
    simp [execMirror, Arch.next, Arch.setX, operands, h]
  | store o rs1 rs2 imm => simp [execMirror, Arch.next, Arch.x, Arch.setX, operands]
  | lui => exact exec_x _ s v hv r
  | auipc => exact exec_x _ s v hv r
  | jal => exact exec_x _ s v hv r
  | jalr => exact exec_x _ s v hv r
  | branch => exact exec_x _ s v hv r
  | opImm => exact exec_x _ s v hv r
  | shImm => exact exec_x _ s v hv r
  | op => exact exec_x _ s v hv r
  | mul => exact exec_x _ s v hv r

section
variable {d : Debug} {s : Arch} (hw : d.WF) (hs : d.Shows s)
include hw hs

theorem wordAt_index (k : Nat) (v : U32) (hv : d.ram[k]? = some v) :
    WordAt s.mem (BitVec.ofNat 32 (ramBase + 4 * k)) v := by
  have hk := (List.getElem?_eq_some_iff.mp hv).1
  have ht := hw.top
  have e : (BitVec.ofNat 32 (ramBase + 4 * k)).toNat = ramBase + 4 * k := by
    rw [BitVec.toNat_ofNat, Nat.mod_eq_of_lt (by omega)]
  refine hs.wordAt hw _ (by rw [e]; unfold ramBase; omega) (by rw [e]; omega) v ?_
  rw [e, show (ramBase + 4 * k - ramBase) / 4 = k by omega]
  exact hv

/-- Value of the destination register. -/
theorem rdVal_exact (i : Instr) (hi : i.isBase) (v : U32)
    (hv : d.ram[(cycleAddr i s).toNat / 4 % d.ram.length]? = some v) :
    ∃ r, (expectedRd i).evalPlain (romImm i) (s.x (operands i).2.1) (s.x (operands i).1) s.pc v = some r ∧
      ((operands i).2.2 ≠ 0#5 → r = (execMirror d.ram.length i s).reg (operands i).2.2) := by
  have hmul := Instr.isBase.not_mul hi
  by_cases hrd : (operands i).2.2 = 0#5
  · obtain ⟨r, hr⟩ := evalPlain_total _ (expectedRd_mem i hmul) (romImm i) (s.x (operands i).2.1)
      (s.x (operands i).1) s.pc v
    exact ⟨r, hr, fun h => absurd hrd h⟩
  · by_cases hl : ∃ o rd rs1 imm, i = .load o rd rs1 imm
    · obtain ⟨o, rd, rs1, imm, rfl⟩ := hl
      have wa := wordAt_index hw hs _ v hv
      refine ⟨_, C12_loads_partial o rd rs1 imm s.mem _ v _ _ _ _ wa, fun h => ?_⟩
      have ea : BitVec.ofNat 32 (ramBase + 4 * ((cycleAddr (.load o rd rs1 imm) s).toNat / 4 % d.ram.length))
          = ramWord d.ram.length (s.x rs1 + immI imm) := by
        unfold ramWord cycleAddr
        simp only [romImm, operands]
        rw [BitVec.add_comm (immI imm)]
      rw [ea]
      simp only [operands] at h
      simp [execMirror, Arch.next, Arch.setX, operands, h]
    · refine ⟨_, C10_rd_value i s v hrd (fun o rd rs1 imm h => hl ⟨o, rd, rs1, imm, h⟩) hmul, fun _ => ?_⟩
      cases i with
      | load o rd rs1 imm => exact absurd ⟨o, rd, rs1, imm, rfl⟩ hl
      | store => exact absurd rfl hrd
      | _ => rfl

/-- Contents of the RAM. -/
theorem ramVal_exact (i : Instr) (v : U32)
    (hv : d.ram[(cycleAddr i s).toNat / 4 % d.ram.length]? = some v) :
    ∀ k w, (d.ram.set ((cycleAddr i s).toNat / 4 % d.ram.length)
        ((expectedRam i).evalPlain (s.x (operands i).1) v (cycleAddr i s &&& 3#32)))[k]? = some w →
      ∀ j, j < 4 → (execMirror d.ram.length i s).mem (BitVec.ofNat 32 (ramBase + 4 * k + j)) = w.extractLsb' (8 * j) 8 := by
  intro k w hk j hj
  by_cases hst : ∃ o rs1 rs2 imm, i = .store o rs1 rs2 imm
  · obtain ⟨o, rs1, rs2, imm, rfl⟩ := hst
    have ht := hw.top
    have hlen : k < d.ram.length := by
      have := (List.getElem?_eq_some_iff.mp hk).1; simpa using this
    have hadr : cycleAddr (.store o rs1 rs2 imm) s = s.x rs1 + immI imm - 0x40000#32 := by
      unfold cycleAddr; simp only [romImm, operands]; rw [BitVec.add_comm (immI imm)]
    rw [hadr] at hk hv
    simp only [execMirror, Arch.next, operands] at hk ⊢
    generalize hA : s.x rs1 + immI imm = A at *
    generalize hB : s.x rs2 = B at *
    have hoff : (A - 0x40000#32).toNat % 4 = A.toNat % 4 := by
      rw [BitVec.toNat_sub]; simp; omega
    rw [and3, hoff] at hk
    have ew : ramWord d.ram.length A = BitVec.ofNat 32 (ramBase + 4 * ((A - 0x40000#32).toNat / 4 % d.ram.length)) := rfl
    generalize hidx : (A - 0x40000#32).toNat / 4 % d.ram.length = idx at *
    have hil : idx < d.ram.length := (List.getElem?_eq_some_iff.mp hv).1
    rw [ew]
    generalize hof : A.toNat % 4 = off at *
    have ho4 : off < 4 := by omega
    -- distance of a byte of the RAM from the place of the store
    have dist : ∀ o' : Nat, o' < 4 → (BitVec.ofNat 32 (ramBase + 4 * k + j) -
        (BitVec.ofNat 32 (ramBase + 4 * idx) + BitVec.ofNat 32 o')).toNat
          = if 4 * idx + o' ≤ 4 * k + j then 4 * k + j - (4 * idx + o') else 2 ^ 32 + (4 * k + j) - (4 * idx + o') := by
      intro o' h'
      have e1 : (BitVec.ofNat 32 (ramBase + 4 * k + j)).toNat = ramBase + 4 * k + j := by
        rw [BitVec.toNat_ofNat, Nat.mod_eq_of_lt (by omega)]
      have e2 : (BitVec.ofNat 32 (ramBase + 4 * idx) + BitVec.ofNat 32 o').toNat = ramBase + 4 * idx + o' := by
        rw [← BitVec.ofNat_add, BitVec.toNat_ofNat, Nat.mod_eq_of_lt (by omega)]
      rw [BitVec.toNat_sub, e1, e2]
      unfold ramBase at *
      split <;> omega
    have store : ∀ (o' n : Nat) (u : Word), o' + n ≤ 4 → 0 < n →
        storeBytes s.mem (BitVec.ofNat 32 (ramBase + 4 * idx) + BitVec.ofNat 32 o') u n (BitVec.ofNat 32 (ramBase + 4 * k + j))
          = if idx = k ∧ o' ≤ j ∧ j < o' + n then u.extractLsb' (8 * (j - o')) 8
            else s.mem (BitVec.ofNat 32 (ramBase + 4 * k + j)) := by
      intro o' n u h1 h2
      unfold storeBytes
      rw [dist o' (by omega)]
      by_cases hin : idx = k ∧ o' ≤ j ∧ j < o' + n
      · have hd : (if 4 * idx + o' ≤ 4 * k + j then 4 * k + j - (4 * idx + o') else 2 ^ 32 + (4 * k + j) - (4 * idx + o')) = j - o' := by
          rw [if_pos (by omega)]; omega
        rw [hd, if_pos (by omega), if_pos hin]
      · rw [if_neg hin, if_neg]
        unfold ramBase at ht
        split <;> omega
    by_cases hki : idx = k
    · subst hki
      rw [List.getElem?_set_self hlen] at hk
      have hk := Option.some.inj hk
      have old := hs.mem _ _ hv j hj
      have z0 : (BitVec.ofNat 32 (ramBase + 4 * idx) : Word) = BitVec.ofNat 32 (ramBase + 4 * idx) + BitVec.ofNat 32 0 := by simp
      have aligned : ∀ o' : Nat, o' < 4 → o' % o.size = 0 → o' + o.size ≤ 4 →
          (expectedRam (.store o rs1 rs2 imm)).evalPlain B v (BitVec.ofNat 32 o') = w →
          storeBytes s.mem (BitVec.ofNat 32 (ramBase + 4 * idx) + BitVec.ofNat 32 o') B o.size (BitVec.ofNat 32 (ramBase + 4 * idx + j))
            = w.extractLsb' (8 * j) 8 := by
        intro o' h1 h2 h3 h4
        have c := C14_store_bytes o rs1 rs2 imm B v o' h1 h2 j hj
        rw [h4] at c
        unfold byteOf at c
        rw [c, store o' o.size B h3 (by cases o <;> decide)]
        by_cases hin : o' ≤ j ∧ j < o' + o.size
        · rw [if_pos ⟨rfl, hin⟩, if_pos hin]
        · rw [if_neg (fun h => hin h.2), if_neg hin, old]
      cases o with
      | sb => exact aligned off ho4 (by simp [StoreOp.size]; omega) (by simp [StoreOp.size]; omega) hk
      | sh =>
        by_cases hev : off % 2 = 0
        · simp only [wordStore, if_pos hev]
          exact aligned off ho4 hev (by simp [StoreOp.size]; omega) hk
        · simp only [wordStore, if_neg hev]
          have hz : w = 0#32 := by
            have : off = 1 ∨ off = 3 := by omega
            rcases this with h | h
            · rw [h] at hk; rw [← hk]; exact (C14_misaligned_sh B v).1
            · rw [h] at hk; rw [← hk]; exact (C14_misaligned_sh B v).2
          rw [z0, store 0 4 _ (by omega) (by omega), if_pos ⟨rfl, by omega, by omega⟩, hz]
          simp
      | sw =>
        simp only [wordStore]
        rw [z0]
        exact aligned 0 (by omega) rfl (by simp [StoreOp.size]) hk
    · rw [List.getElem?_set_ne hki] at hk
      have old := hs.mem _ _ hk j hj
      have z0 : (BitVec.ofNat 32 (ramBase + 4 * idx) : Word) = BitVec.ofNat 32 (ramBase + 4 * idx) + BitVec.ofNat 32 0 := by simp
      cases o with
      | sb =>
        simp only [wordStore]
        rw [store off 1 B (by omega) (by omega), if_neg (fun h => hki h.1), old]
      | sh =>
        simp only [wordStore]
        split
        · rw [store off 2 B (by omega) (by omega), if_neg (fun h => hki h.1), old]
        · rw [z0, store 0 4 _ (by omega) (by omega), if_neg (fun h => hki h.1), old]
      | sw =>
        simp only [wordStore]
        rw [z0, store 0 4 _ (by omega) (by omega), if_neg (fun h => hki h.1), old]
  · have hns : ∀ o a b m, i ≠ .store o a b m := fun o a b m h => hst ⟨o, a, b, m, h⟩
    rw [C14_nonstore i hns, List.set_getElem?_self' hv] at hk
    rw [execMirror_mem _ i s hns]
    exact hs.mem _ _ hk j hj

end

/-- `C35_exact`, with what is loaded before the updates. -/
theorem exact_core (d : Debug) (s : Arch) (i : Instr) (dbg : Bool) (hw : d.WF) (hs : d.Shows s)
    (hf : (d.rom[d.pc.toNat / 4]?) = decodeWord dbg (encode i)) (hi : i.isBase) :
    ∃ d2, d.step = some d2 ∧ d2.WF ∧ d2.rom = d.rom ∧ d2.ram.length = d.ram.length ∧
      d2.Shows (execMirror d.ram.length i s) ∧
      ∃ dl, d.loaded = some dl ∧ dl.ins = entry i ∧ dl.ram = d.ram ∧
        d.ram[(cycleAddr i s).toNat / 4 % d.ram.length]? = some dl.ramVal := by
  have hpos := hw.pos
  have htop := hw.top
  have hmul := Instr.isBase.not_mul hi
  rw [decodeWord_encode] at hf
  have hins : d.rom[(d.pc >>> 2).toNat]? = some (entry i) := by rw [toNat_shift2]; exact hf
  have ha : d.registers[(entry i).rs1.toNat]? = some (s.x (operands i).2.1) := by
    show d.registers[((operands i).2.1.setWidth 32).toNat]? = _
    rw [reg_toNat]; exact hs.reg _
  have hb : d.registers[(entry i).rs2.toNat]? = some (s.x (operands i).1) := by
    show d.registers[((operands i).1.setWidth 32).toNat]? = _
    rw [reg_toNat]; exact hs.reg _
  have hrd : (entry i).rd.toNat = (operands i).2.2.toNat := by
    show ((operands i).2.2.setWidth 32).toNat = _
    rw [reg_toNat]
  have hix : (((entry i).imm + s.x (operands i).2.1 - (1#32 <<< 18)) >>> 2).toNat % d.ram.length
      = (cycleAddr i s).toNat / 4 % d.ram.length := by rw [toNat_shift2]; rfl
  obtain ⟨v, hv⟩ : ∃ v, d.ram[(((entry i).imm + s.x (operands i).2.1 - (1#32 <<< 18)) >>> 2).toNat % d.ram.length]? = some v :=
    ⟨_, List.getElem?_eq_getElem (Nat.mod_lt _ hpos)⟩
  have hv' := hv
  rw [hix] at hv'
  obtain ⟨d2, hd2⟩ := Debug.step_total (ro := expectedRam i) (po := expectedPc i) hins ha hb hv
    (expectedRd_mem i hmul) rfl rfl rfl (by rw [hrd, hw.regs]; exact (operands i).2.2.isLt)
  obtain ⟨dl, i', a', b', v', r, o, ro, po, hl, c⟩ := Debug.step_inv hd2
  have ei : i' = entry i := Option.some.inj (c.ins.symm.trans hins)
  subst ei
  have ea : a' = s.x (operands i).2.1 := Option.some.inj (c.rs1.symm.trans ha)
  subst ea
  have eb : b' = s.x (operands i).1 := Option.some.inj (c.rs2.symm.trans hb)
  subst eb
  have ev : v' = v := Option.some.inj (c.ram.symm.trans hv)
  subst ev
  have eo : o = expectedRd i := rdUpdate_inj _ _ c.opId
  have er : ro = expectedRam i := ramUpdate_inj _ _ c.mu
  have ep : po = expectedPc i := pcUpdate_inj _ _ c.pcu
  subst eo er ep
  obtain ⟨r', hr', hreg⟩ := rdVal_exact hw hs i hi v' hv'
  have hval := c.val
  rw [hs.pcEq] at hval
  have err : r' = r := Option.some.inj (hr'.symm.trans hval)
  subst err
  refine ⟨d2, hd2, ?_, ?_, ?_, ?_, dl, hl, ?_, ?_, ?_⟩
  · rw [c.result]
    exact ⟨by simp [hw.regs], by simp [hpos], by simpa using htop⟩
  · rw [c.result, c.loaded]
  · rw [c.result]; simp
  · rw [c.result]
    refine ⟨?_, fun r => ?_, ?_⟩
    · simp only [hs.pcEq]
      rw [execMirror_pc]
      exact C13_next_pc i s
    · rw [execMirror_x d.ram.length i s r' hreg r]
      simp only [hrd]
      exact hs.regs_set hw _ _ r
    · have := ramVal_exact hw hs i v' hv'
      rw [← hix] at this
      exact this
  · rw [c.loaded]
  · rw [c.loaded]
  · rw [c.loaded]; exact hv'

/-- One cycle of the mirror, for every RV32I instruction in every state. -/
theorem C35_exact (d : Debug) (s : Arch) (i : Instr) (dbg : Bool) (hw : d.WF) (hs : d.Shows s)
    (hf : (d.rom[d.pc.toNat / 4]?) = decodeWord dbg (encode i)) (hi : i.isBase) :
    ∃ d2, d.step = some d2 ∧ d2.WF ∧ d2.rom = d.rom ∧ d2.ram.length = d.ram.length ∧
      d2.Shows (execMirror d.ram.length i s) := by
  obtain ⟨d2, h1, h2, h3, h4, h5, -⟩ := exact_core d s i dbg hw hs hf hi
  exact ⟨d2, h1, h2, h3, h4, h5⟩

/-- Any number of cycles. -/
theorem C35_runs_exact (d : Debug) (n : Nat) (s s' : Arch) (fetch : Word → Option Instr) (dbg : Bool)
    (hw : d.WF) (hs : d.Shows s) (hb : ∀ pc i, fetch pc = some i → i.isBase)
    (hf : ∀ pc i, fetch pc = some i → (d.rom[pc.toNat / 4]?) = decodeWord dbg (encode i))
    (h : RunsWith fetch (execMirror d.ram.length) n s s') :
    ∃ d2, d.run n = some d2 ∧ d2.WF ∧ d2.rom = d.rom ∧ d2.ram.length = d.ram.length ∧ d2.Shows s' := by
  induction n generalizing d s with
  | zero => cases h; exact ⟨d, rfl, hw, rfl, rfl, hs⟩
  | succ n ih =>
    cases h with
    | succ h1 h3 =>
      rw [← hs.pcEq] at h1
      obtain ⟨d1, e1, w1, r1, l1, s1⟩ := C35_exact d s _ dbg hw hs (hf _ _ h1) (hb _ _ h1)
      obtain ⟨d2, e2, w2, r2, l2, s2⟩ := ih d1 _ w1 s1 (by rw [r1]; exact hf) (by rw [l1]; exact h3)
      exact ⟨d2, by show d.step.bind _ = _; rw [e1, Option.bind_some, e2], w2, r2.trans r1, l2.trans l1, s2⟩

/-! ### The encrypted cycle -/

theorem execEnc_x (words : Nat) (i : Instr) (s : Arch) (v : Word)
    (hv : (operands i).2.2 ≠ 0#5 → v = (execEnc words i s).reg (operands i).2.2) (r : Reg) :
    (execEnc words i s).x r = (s.setX (operands i).2.2 v).x r := by
  have same : (execEnc words i s = execMirror words i s) → (execEnc words i s).x r = (s.setX (operands i).2.2 v).x r := by
    intro h
    rw [h] at hv ⊢
    exact execMirror_x words i s v hv r
  cases i with
  | load o rd rs1 imm =>
    cases o with
    | lb =>
      refine load_x s rd _ v (fun h => ?_) r
      rw [hv h]
      simp [execEnc, Arch.next, Arch.setX, operands, h]
    | _ => exact same rfl
  | jal rd imm =>
    refine load_x s rd _ v (fun h => ?_) r
    rw [hv h]
    simp [execEnc, Arch.setX, operands, h]
  | _ => exact same rfl

theorem execEnc_mem (words : Nat) (i : Instr) (s : Arch) : (execEnc words i s).mem = (execMirror words i s).mem := by
  cases i with
  | load o rd rs1 imm => cases o <;> rfl
  | _ => rfl

theorem execEnc_pc (words : Nat) (i : Instr) (s : Arch) :
    (execEnc words i s).pc =
      (expectedPc i).evalPlain (cycleImm (romImm i)) (s.x (operands i).2.1) (s.x (operands i).1) s.pc := by
  have same : (cycleImm (romImm i) = romImm i ∨ expectedPc i = .NONE) → (execEnc words i s).pc = (exec i s).pc →
      (execEnc words i s).pc =
        (expectedPc i).evalPlain (cycleImm (romImm i)) (s.x (operands i).2.1) (s.x (operands i).1) s.pc := by
    intro h1 h2
    rw [h2, ← C13_next_pc i s]
    rcases h1 with h | h
    · rw [h]
    · rw [h]; simp only [PcUpdate.evalPlain]
  have j20 : i.encSupported s → (expectedPc i).id = PcUpdate.NONE.id ∨ cycleImm (romImm i) = romImm i := fun he =>
    (jump20 i s he)
  cases i with
  | load o rd rs1 imm => refine same (Or.inr rfl) ?_; cases o <;> simp only [execEnc, execMirror, exec, Arch.next, Arch.setX]
  | jal rd imm => simp only [execEnc, expectedPc, PcUpdate.evalPlain, romImm, cycleImm]
  | jalr rd rs1 imm =>
    refine same (Or.inl ?_) rfl
    rcases j20 trivial with h | h
    · simp [expectedPc, PcUpdate.id] at h
    · exact h
  | branch o rs1 rs2 imm =>
    refine same (Or.inl ?_) rfl
    rcases j20 trivial with h | h
    · cases o <;> simp [expectedPc, PcUpdate.id] at h
    · exact h
  | opImm o => exact same (Or.inr rfl) rfl
  | shImm o => exact same (Or.inr rfl) rfl
  | op o => exact same (Or.inr rfl) rfl
  | mul o => exact same (Or.inr rfl) rfl
  | _ => exact same (Or.inr rfl) rfl

theorem cycleRd_exact {d : Debug} {s : Arch} (hw : d.WF) (hs : d.Shows s) (i : Instr) (hi : i.isBase) (v : U32)
    (hv : d.ram[(cycleAddr i s).toNat / 4 % d.ram.length]? = some v) :
    ∃ r, cycleRd (expectedRd i) (romImm i) (s.x (operands i).2.1) (s.x (operands i).1) s.pc v = some r ∧
      ((operands i).2.2 ≠ 0#5 → r = (execEnc d.ram.length i s).reg (operands i).2.2) := by
  by_cases hlb : ∃ rd rs1 imm, i = .load .lb rd rs1 imm
  · obtain ⟨rd, rs1, imm, rfl⟩ := hlb
    obtain ⟨r, h1, h2⟩ := rdVal_exact hw hs (.load .lbu rd rs1 imm) trivial v hv
    refine ⟨r, h1, fun h => ?_⟩
    rw [h2 h]; rfl
  · obtain ⟨r, h1, h2⟩ := rdVal_exact hw hs i hi v hv
    refine ⟨r, ?_, fun h => ?_⟩
    · unfold cycleRd
      rw [if_neg, h1]
      intro hc
      apply hlb
      cases i with
      | load o rd rs1 imm => cases o <;> first | exact ⟨rd, rs1, imm, rfl⟩ | cases hc
      | opImm o _ _ _ => cases o <;> cases hc
      | shImm o _ _ _ => cases o <;> cases hc
      | op o _ _ _ => cases o <;> cases hc
      | mul o _ _ _ => cases o <;> cases hc
      | _ => cases hc
    · rw [h2 h]
      cases i with
      | load o rd rs1 imm =>
        cases o with
        | lb => exact absurd ⟨rd, rs1, imm, rfl⟩ hlb
        | _ => rfl
      | _ => rfl

/-- One encrypted cycle (`C29_exact`), for every RV32I instruction in every state of a machine whose RAM has a
power of two of words. -/
theorem C35_encrypted_exact (d : Debug) (s : Arch) (i : Instr) (dbg : Bool) (k : Nat) (hw : d.WF) (hs : d.Shows s)
    (hk : d.ram.length = 2 ^ k)
    (hf : (d.rom[d.pc.toNat % 2 ^ (bitsFor d.rom.length + 2) / 4]?) = decodeWord dbg (encode i)) (hi : i.isBase) :
    ∃ d2, Spec.cycle d = some d2 ∧ d2.WF ∧ d2.rom = d.rom ∧ d2.ram.length = d.ram.length ∧
      d2.Shows (execEnc d.ram.length i (s.wrapPc (bitsFor d.rom.length + 2))) := by
  have hpos := hw.pos
  have htop := hw.top
  have hmul := Instr.isBase.not_mul hi
  rw [decodeWord_encode] at hf
  generalize hbits : bitsFor d.rom.length + 2 = bits at *
  have hpclt : d.pc.toNat % 2 ^ bits < 2 ^ 32 := Nat.lt_of_le_of_lt (Nat.mod_le _ _) d.pc.isLt
  have epc : (BitVec.ofNat 32 (d.pc.toNat % 2 ^ bits)).toNat = d.pc.toNat % 2 ^ bits := by
    rw [BitVec.toNat_ofNat, Nat.mod_eq_of_lt hpclt]
  -- the state with the reduced program counter
  have hs' : ({ d with pc := BitVec.ofNat 32 (d.pc.toNat % 2 ^ bits) } : Debug).Shows (s.wrapPc bits) :=
    ⟨by rw [hs.pcEq]; rfl, hs.reg, hs.mem⟩
  have hw' : ({ d with pc := BitVec.ofNat 32 (d.pc.toNat % 2 ^ bits) } : Debug).WF := ⟨hw.regs, hw.pos, hw.top⟩
  have hpow : d.ram.length = 2 ^ bitsFor d.ram.length := by rw [hk, bitsFor_pow]
  generalize hsw : s.wrapPc bits = t at *
  have ha : d.registers[(entry i).rs1.toNat]? = some (t.x (operands i).2.1) := by
    show d.registers[((operands i).2.1.setWidth 32).toNat]? = _
    rw [reg_toNat]; exact hs'.reg _
  have hb : d.registers[(entry i).rs2.toNat]? = some (t.x (operands i).1) := by
    show d.registers[((operands i).1.setWidth 32).toNat]? = _
    rw [reg_toNat]; exact hs'.reg _
  have hrd : (entry i).rd.toNat = (operands i).2.2.toNat := by
    show ((operands i).2.2.setWidth 32).toNat = _
    rw [reg_toNat]
  obtain ⟨v, hv⟩ : ∃ v, d.ram[(cycleAddr i t).toNat / 4 % d.ram.length]? = some v :=
    ⟨_, List.getElem?_eq_getElem (Nat.mod_lt _ hpos)⟩
  obtain ⟨r, hr, hreg⟩ := cycleRd_exact hw' hs' i hi v hv
  have hram := ramVal_exact hw' hs' i v hv
  have hpc : t.pc = BitVec.ofNat 32 (d.pc.toNat % 2 ^ bits) := hs'.pcEq.symm
  rw [hpc] at hr
  have fo : (rdUpdateRv32iOpList.find? fun o => o.id == (entry i).rdu) = some (expectedRd i) := by
    have := expectedRd_mem i hmul
    show (rdUpdateRv32iOpList.find? fun o => o.id == (expectedRd i).id) = _
    generalize expectedRd i = o at this
    revert this
    cases o <;> decide
  have fr : (ramUpdateOpList.find? fun o => o.id == (entry i).mu) = some (expectedRam i) := by
    show (ramUpdateOpList.find? fun o => o.id == (expectedRam i).id) = _
    generalize expectedRam i = o
    cases o <;> decide
  have fp : (pcUpdateOpList.find? fun o => o.id == (entry i).pcu) = some (expectedPc i) := by
    show (pcUpdateOpList.find? fun o => o.id == (expectedPc i).id) = _
    generalize expectedPc i = o
    cases o <;> decide
  have hlt : (entry i).rd.toNat < d.registers.length := by rw [hrd, hw.regs]; exact (operands i).2.2.isLt
  have eaddr : (entry i).imm + t.x (operands i).2.1 - 0x40000#32 = cycleAddr i t := rfl
  have hc : ∃ d2, Spec.cycle d = some d2 ∧ d2.rom = d.rom ∧
      d2.registers = (d.registers.set (operands i).2.2.toNat r).set 0 0#32 ∧
      d2.ram = d.ram.set ((cycleAddr i t).toNat / 4 % d.ram.length)
        ((expectedRam i).evalPlain (t.x (operands i).1) v (cycleAddr i t &&& 3#32)) ∧
      d2.pc = (execEnc d.ram.length i t).pc := by
    unfold Spec.cycle
    simp only [hbits, epc, hf, Option.bind_some, ha, hb, eaddr]
    rw [← hpow]
    simp only [hv, Option.bind_some, fo, fr, fp]
    have hr' : cycleRd (expectedRd i) (entry i).imm (t.x (operands i).2.1) (t.x (operands i).1)
        (BitVec.ofNat 32 (d.pc.toNat % 2 ^ bits)) v = some r := hr
    rw [hr', Option.bind_some, if_pos hlt]
    refine ⟨_, rfl, rfl, by rw [hrd], rfl, ?_⟩
    rw [execEnc_pc, hpc]; rfl
  obtain ⟨d2, e1, e2, e3, e4, e5⟩ := hc
  refine ⟨d2, e1, ⟨by rw [e3]; simp [hw.regs], by rw [e4]; simp [hpos], by rw [e4]; simpa using htop⟩, e2,
    by rw [e4]; simp, e5, fun q => ?_, ?_⟩
  · rw [e3, execEnc_x d.ram.length i t r hreg q]
    exact hs'.regs_set hw' _ _ q
  · rw [e4, execEnc_mem]
    exact hram

/-- Any number of encrypted cycles. -/
theorem C35_encrypted_runs_exact (d : Debug) (n k : Nat) (s s' : Arch) (fetch : Word → Option Instr) (dbg : Bool)
    (hw : d.WF) (hs : d.Shows s) (hk : d.ram.length = 2 ^ k) (hb : ∀ pc i, fetch pc = some i → i.isBase)
    (hf : ∀ pc i, fetch pc = some i →
      (d.rom[pc.toNat % 2 ^ (bitsFor d.rom.length + 2) / 4]?) = decodeWord dbg (encode i))
    (h : RunsWith fetch (fun i s => execEnc d.ram.length i (s.wrapPc (bitsFor d.rom.length + 2))) n s s') :
    ∃ d2, Spec.cycles n d = some d2 ∧ d2.WF ∧ d2.rom = d.rom ∧ d2.ram.length = d.ram.length ∧ d2.Shows s' := by
  induction n generalizing d s with
  | zero => cases h; exact ⟨d, rfl, hw, rfl, rfl, hs⟩
  | succ n ih =>
    cases h with
    | succ h1 h3 =>
      rw [← hs.pcEq] at h1
      obtain ⟨d1, e1, w1, r1, l1, s1⟩ := C35_encrypted_exact d s _ dbg k hw hs hk (hf _ _ h1) (hb _ _ h1)
      obtain ⟨d2, e2, w2, r2, l2, s2⟩ := ih d1 _ w1 s1 (l1.trans hk) (by rw [r1]; exact hf)
        (by rw [l1, r1]; exact h3)
      exact ⟨d2, by show (Spec.cycle d).bind _ = _; rw [e1, Option.bind_some, e2], w2, r2.trans r1, l2.trans l1, s2⟩

/-- The encrypted VM under any correct library: what is decrypted after `n` cycles is the state that the machine
of `Spec/Interpreter` reaches. -/
theorem C35_library_exact (F : Fhe) (vm : Interp F.B) (d : Debug) (n k : Nat) (s s' : Arch)
    (fetch : Word → Option Instr) (dbg : Bool) (hvm : F.Runs vm d)
    (hw : d.WF) (hs : d.Shows s) (hk : d.ram.length = 2 ^ k) (hb : ∀ pc i, fetch pc = some i → i.isBase)
    (hf : ∀ pc i, fetch pc = some i →
      (d.rom[pc.toNat % 2 ^ (bitsFor d.rom.length + 2) / 4]?) = decodeWord dbg (encode i))
    (h : RunsWith fetch (fun i s => execEnc d.ram.length i (s.wrapPc (bitsFor d.rom.length + 2))) n s s')
    (hc : vm.cycle.toNat + n < 2 ^ 32) :
    ∃ vm2 regs ram, Interp.run n vm = some vm2 ∧
      vm2.registers.decrypt F.C (List.replicate 32 0#32) = some regs ∧ (∀ r : Reg, regs[r.toNat]? = some (s'.x r)) ∧
      vm2.decryptRam F.C (List.replicate (2 ^ k) 0#32) = some ram ∧ ram.length = 2 ^ k ∧
      (∀ (k : Nat) (w : Word), ram[k]? = some w → ∀ j, j < 4 →
        s'.mem (BitVec.ofNat 32 (ramBase + 4 * k + j)) = w.extractLsb' (8 * j) 8) ∧
      (n ≠ 0 → F.decU vm2.pc = s'.pc) := by
  obtain ⟨d2, e, w2, r2, l2, s2⟩ := C35_encrypted_runs_exact d n k s s' fetch dbg hw hs hk hb hf h
  obtain ⟨vm2, e1, r, cy⟩ := hvm.run n e hc
  obtain ⟨p1, p2, p3, -⟩ := C29_observe F vm2 d2 r
  refine ⟨vm2, d2.registers, d2.ram, e1, p1, s2.reg, p2 _ (by rw [l2, hk, List.length_replicate]), l2.trans hk, s2.mem,
    fun hn => ?_⟩
  rw [p3 ?_, s2.pcEq]
  intro h0
  have := congrArg BitVec.toNat h0
  rw [cy, BitVec.toNat_add, BitVec.toNat_ofNat, Nat.mod_eq_of_lt (by omega : n < 2 ^ 32),
    Nat.mod_eq_of_lt hc] at this
  simp at this
  omega

/-- In the situations of `C35_step_partial` the two instruction sets are the same. -/
theorem execMirror_supported (words : Nat) (i : Instr) (s : Arch) (ht : ramBase + 4 * words ≤ 2 ^ 32)
    (hi : i.supported s) (hwin : i.inWindow s ramBase (4 * words)) : execMirror words i s = exec i s := by
  have base : ∀ (a : Word) (n : Nat), 0 < n → n ≤ 4 → a.toNat % n = 0 → ramBase ≤ a.toNat →
      a.toNat + n ≤ ramBase + 4 * words → ramWord words a + BitVec.ofNat 32 (a.toNat % 4) = a := by
    intro a n h0 h1 h2 h3 h4
    apply BitVec.eq_of_toNat_eq
    have := a.isLt
    have e : (a - 0x40000#32).toNat = a.toNat - ramBase := by
      rw [BitVec.toNat_sub]; unfold ramBase at *; simp; omega
    unfold ramWord
    rw [e, ← BitVec.ofNat_add, BitVec.toNat_ofNat]
    have hq : (a.toNat - ramBase) / 4 % words = (a.toNat - ramBase) / 4 := Nat.mod_eq_of_lt (by omega)
    rw [hq]
    unfold ramBase at *
    omega
  cases i with
  | load o rd rs1 imm =>
    have hb := hwin _ _ rfl
    have h4 : (s.x rs1 + immI imm).toNat % 4 = 0 := hi
    have hsz : 0 < o.size ∧ o.size ≤ 4 ∧ (s.x rs1 + immI imm).toNat % o.size = 0 := by
      generalize s.x rs1 + immI imm = a at h4
      cases o <;> simp only [LoadOp.size] <;> omega
    have e := base _ _ hsz.1 hsz.2.1 hsz.2.2 hb.1 hb.2
    rw [h4] at e
    simp only [BitVec.ofNat_eq_ofNat, BitVec.add_zero] at e
    simp only [execMirror, exec, e]
  | store o rs1 rs2 imm =>
    have hb := hwin _ _ rfl
    have hal : (s.x rs1 + immI imm).toNat % o.size = 0 := hi
    have hsz : 0 < o.size ∧ o.size ≤ 4 := by cases o <;> simp [StoreOp.size]
    have e := base _ _ hsz.1 hsz.2 hal hb.1 hb.2
    have : wordStore o s.mem (ramWord words (s.x rs1 + immI imm)) ((s.x rs1 + immI imm).toNat % 4) (s.x rs2)
        = storeBytes s.mem (s.x rs1 + immI imm) (s.x rs2) o.size := by
      cases o with
      | sb => simp only [wordStore, e, StoreOp.size]
      | sh =>
        have : (s.x rs1 + immI imm).toNat % 4 % 2 = 0 := by simp only [StoreOp.size] at hal; omega
        simp only [wordStore, e, StoreOp.size, this, if_true]
      | sw =>
        simp only [StoreOp.size] at hal
        rw [hal] at e
        simp only [BitVec.ofNat_eq_ofNat, BitVec.add_zero] at e
        simp only [wordStore, e, StoreOp.size]
    simp only [execMirror, exec, this]
  | _ => rfl

/-- `lb x1, 1(x2)` at the first word `0x0000BBAA`: the manual loads `0xBB` sign-extended, the mirror `0xAA`
sign-extended, the encrypted VM `0xAA`. -/
def exBytes : Arch :=
  ⟨0#32, fun r => if r = 2#5 then 0x40000#32 else 0#32,
    fun a => if a = 0x40000#32 then 0xAA#8 else if a = 0x40001#32 then 0xBB#8 else 0#8⟩
example : (exec (.load .lb 1 2 1) exBytes).x 1#5 = 0xFFFFFFBB#32 ∧
    (execMirror 1 (.load .lb 1 2 1) exBytes).x 1#5 = 0xFFFFFFAA#32 ∧
    (execEnc 1 (.load .lb 1 2 1) exBytes).x 1#5 = 0x000000AA#32 := by decide
/-- An access beyond the end of the RAM wraps around. -/
example : ramWord 4 0x40010#32 = 0x40000#32 ∧ ramWord 4 0x3FFFC#32 = 0x4000C#32 := by decide
/-- A half word at an odd address clears the word. -/
example : (wordStore .sh exBytes.mem 0x40000#32 1 0x1234#32) 0x40000#32 = 0#8 := by decide
/-- A state which shows `exBytes`, so that the theorems apply. -/
example : exMirror.WF ∧ exMirror.Shows exBytes := by
  refine ⟨⟨by decide, by decide, by decide⟩, rfl, by decide, ?_⟩
  intro k w hk j hj
  have hk0 : k = 0 := by
    have := (List.getElem?_eq_some_iff.mp hk).1
    simp [exMirror] at this; exact this
  subst hk0
  have : w = 0x0000BBAA#32 := (Option.some.inj hk).symm
  subst this
  have : j = 0 ∨ j = 1 ∨ j = 2 ∨ j = 3 := by omega
  rcases this with rfl | rfl | rfl | rfl <;> decide

end Verif.Props
