import Verif.Spec.EveryWord
import Verif.Props.AllInstr
import Verif.Props.TinyGuests
/-
  C96: every program the encrypted VM accepts, every input, every number of cycles.
-/
namespace Verif.Props
open Model Model.Link Spec Boot ElfFile

/-- The words the parser takes are those that are executed as something. -/
theorem C96_accepted (w : Word) : Accepted w ↔ ∃ i, ReadsAs w i := by
  constructor
  · rintro (⟨i, rfl⟩ | ⟨f7, sh, rs1, rd, rfl⟩ | ⟨imm, rs1, f3, rd, rfl⟩ | h)
    · exact ⟨_, .own i⟩
    · exact ⟨_, .slli ..⟩
    · exact ⟨_, .jalr ..⟩
    · exact ⟨_, .system w h⟩
  · rintro ⟨i, h⟩
    cases h with
    | own => exact Or.inl ⟨_, rfl⟩
    | slli => exact Or.inr (Or.inl ⟨_, _, _, _, rfl⟩)
    | jalr => exact Or.inr (Or.inr (Or.inl ⟨_, _, _, _, rfl⟩))
    | system h => exact Or.inr (Or.inr (Or.inr (by assumption)))

/-- What the parser makes of a word: the parts of the instruction it is executed as, unless it is SYSTEM. -/
theorem reads_parts {w : Word} {i : Instr} (h : ReadsAs w i) (dbg : Bool) :
    (getOpid dbg w = some (expectedRd i, expectedRam i, expectedPc i) ∧
      getRegisters dbg w = some ((operands i).1.setWidth 32, (operands i).2.1.setWidth 32, (operands i).2.2.setWidth 32) ∧
      getImm dbg w = some (romImm i)) ∨ w.extractLsb' 0 7 = 0b1110011#7 ∧ i = .opImm .addi 0#5 0#5 0#12 := by
  cases h with
  | own => exact Or.inl ⟨C05_opid_legal .., C05_registers_legal .., C01_imm_legal ..⟩
  | slli f7 sh rs1 rd =>
    refine Or.inl ⟨C06_slli_ignores_funct7 .., ?_, C01_imm_shift _ _ _ _ _ _ (Or.inl rfl)⟩
    cases dbg <;> simp [getRegisters, getType, opcode_r, guardTy, getRs1, getRd, okRs1, okRd, rs1_r, rd_r] <;> exact ⟨rfl, rfl, rfl⟩
  | jalr imm rs1 f3 rd =>
    refine Or.inl ⟨C06_jalr_ignores_funct3 .., ?_, C01_imm_I _ _ _ _ _ _ (Or.inr (Or.inr rfl)) (fun h => absurd h.1 (by decide))⟩
    cases dbg <;> simp [getRegisters, getType, opcode_i, guardTy, getRs1, getRd, okRs1, okRd, rs1_i, rd_i] <;> exact ⟨rfl, rfl, rfl⟩
  | system h => exact Or.inr ⟨by assumption, rfl⟩

/-- The program memory of a word that is not SYSTEM is that of the instruction it is executed as. -/
theorem reads_entry {w : Word} {i : Instr} (h : ReadsAs w i) (dbg : Bool) :
    decodeWord dbg w = some (entry i) ∨ w.extractLsb' 0 7 = 0b1110011#7 ∧ i = .opImm .addi 0#5 0#5 0#12 := by
  rcases reads_parts h dbg with ⟨h1, h2, h3⟩ | h
  · left; unfold decodeWord; rw [h1, h2, h3]; rfl
  · exact Or.inr h

/-- A word is executed as one instruction only. -/
theorem C96_unique {w : Word} {i j : Instr} (h1 : ReadsAs w i) (h2 : ReadsAs w j) : i = j := by
  have none (k : Instr) (hs : w.extractLsb' 0 7 = 0b1110011#7)
      (h : getOpid false w = some (expectedRd k, expectedRam k, expectedPc k)) : False := by
    rw [(C06_system_is_nop false w hs).1] at h
    obtain ⟨h1, h2, h3⟩ : RdUpdate.NONE = expectedRd k ∧ RamUpdate.NONE = expectedRam k ∧ PcUpdate.NONE = expectedPc k := by
      simpa only [Option.some.injEq, Prod.mk.injEq] using h
    cases k with
    | branch o => cases o <;> cases h3
    | load o => cases o <;> cases h1
    | store o => cases o <;> cases h2
    | opImm o => cases o <;> cases h1
    | shImm o => cases o <;> cases h1
    | op o => cases o <;> cases h1
    | mul o => cases o <;> cases h1
    | _ => cases h1
  rcases reads_parts h1 false with ⟨a1, a2, a3⟩ | ⟨a1, a2⟩ <;> rcases reads_parts h2 false with ⟨b1, b2, b3⟩ | ⟨b1, b2⟩
  · have e1 := Option.some.inj (a1.symm.trans b1)
    have e2 := Option.some.inj (a2.symm.trans b2)
    have e3 := Option.some.inj (a3.symm.trans b3)
    rw [← rebuild_components i, ← rebuild_components j]
    simp only [Prod.mk.injEq] at e1 e2
    rw [e1.1, e1.2.1, e1.2.2, e2.1, e2.2.1, e2.2.2, e3]
  · exact (none i b1 a1).elim
  · exact (none j a1 b1).elim
  · rw [a2, b2]

theorem packWords_word {rom : List Byte} (h4 : rom.length % 4 = 0) {k : Nat} {w : Word} :
    (packWords rom)[k]? = some w ↔ CodeWord rom (4 * k) w := by
  have key (j : Nat) (hj : j < 4) : rom[4 * k + j]? = ((packWords rom)[k]?).map (fun w => w.extractLsb' (8 * j) 8) := by
    have := wordBytes_get (packWords rom) (4 * k + j)
    rw [wordBytes_packWords rom h4, show (4 * k + j) / 4 = k by omega, show (4 * k + j) % 4 = j by omega] at this
    exact this
  constructor
  · intro h j hj
    rw [key j hj, h]; rfl
  · intro h
    cases hw : (packWords rom)[k]? with
    | none => have := h 0 (by decide); rw [key 0 (by decide), hw] at this; cases this
    | some v =>
      have g (j : Nat) (hj : j < 4) : v.extractLsb' (8 * j) 8 = w.extractLsb' (8 * j) 8 := by
        have := h j hj
        rw [key j hj, hw] at this
        exact Option.some.inj this
      congr 1
      apply BitVec.eq_of_getLsbD_eq
      intro b hb
      have := congrArg (·.getLsbD (b % 8)) (g (b / 8) (by omega))
      simp only [BitVec.getLsbD_extractLsb', show b % 8 < 8 by omega, decide_true, Bool.true_and,
        show 8 * (b / 8) + b % 8 = b by omega] at this
      exact this

/-- For a program of accepted words there is a machine, and it knows what to do exactly when the program counter is in the program. -/
theorem C96_fetch (rom : List Byte) (bits : Nat) (h4 : rom.length % 4 = 0) (h : ∀ w ∈ packWords rom, Accepted w) :
    ∃ fetch, FetchWord rom bits fetch ∧ ∀ pc : Word, (fetch pc).isSome = true ↔ pc.toNat % 2 ^ bits / 4 < rom.length / 4 := by
  have hl := packWords_length rom h4
  have tot (k : Nat) (hk : k < rom.length / 4) : ∃ i w, CodeWord rom (4 * k) w ∧ ReadsAs w i := by
    have hk' : k < (packWords rom).length := by omega
    obtain ⟨i, hi⟩ := (C96_accepted _).mp (h _ (List.getElem_mem hk'))
    exact ⟨i, _, (packWords_word h4).mp (List.getElem?_eq_getElem hk'), hi⟩
  refine ⟨fun pc => if hk : pc.toNat % 2 ^ bits / 4 < rom.length / 4 then some (tot _ hk).choose else none, fun pc i => ?_, fun pc => ?_⟩
  · constructor
    · intro hi
      replace hi : (if hk : _ then _ else _ : Option Instr) = some i := hi
      split at hi
      · rename_i hk
        cases hi
        exact (tot _ hk).choose_spec
      · cases hi
    · rintro ⟨w, hw, hr⟩
      have hk : pc.toNat % 2 ^ bits / 4 < rom.length / 4 := by
        have := (List.getElem?_eq_some_iff.mp ((packWords_word h4).mpr hw)).1
        omega
      show (if hk : _ then _ else _ : Option Instr) = some i
      rw [dif_pos hk]
      obtain ⟨w', hw', hr'⟩ := (tot _ hk).choose_spec
      have e := Option.some.inj (((packWords_word h4).mpr hw').symm.trans ((packWords_word h4).mpr hw))
      subst e
      rw [C96_unique hr' hr]
  · show (if hk : _ then _ else _ : Option Instr).isSome = true ↔ _
    split <;> simp_all

/-- One encrypted cycle at any accepted word, in any state. -/
theorem every_exact (d : Debug) (s : Arch) (w : Word) (i : Instr) (dbg : Bool) (k : Nat) (hw : d.WF) (hs : d.Shows s)
    (hk : d.ram.length = 2 ^ k) (hr : ReadsAs w i)
    (hf : (d.rom[d.pc.toNat % 2 ^ (bitsFor d.rom.length + 2) / 4]?) = decodeWord dbg w) :
    ∃ d2, anyCycle d = some d2 ∧ d2.WF ∧ d2.rom = d.rom ∧ d2.ram.length = d.ram.length ∧
      d2.Shows (execAll d.ram.length i (s.wrapPc (bitsFor d.rom.length + 2))) := by
  rcases reads_entry hr dbg with he | ⟨hsys, rfl⟩
  · exact all_exact d s i dbg k hw hs hk (by rw [hf, he, decodeWord_encode])
  · have hl : (d.rom.map anyEntry).length = d.rom.length := List.length_map ..
    have epc : (BitVec.ofNat 32 (d.pc.toNat % 2 ^ (bitsFor d.rom.length + 2))).toNat = d.pc.toNat % 2 ^ (bitsFor d.rom.length + 2) := by
      rw [BitVec.toNat_ofNat, Nat.mod_eq_of_lt (Nat.lt_of_le_of_lt (Nat.mod_le _ _) d.pc.isLt)]
    have h0 : d.registers[0]? = some 0#32 := hs.reg 0#5
    have wr : Writes (anyEntry ⟨0#32, (0#5 : Reg).setWidth 32, (0#5 : Reg).setWidth 32, (0#5 : Reg).setWidth 32, RdUpdate.NONE.id,
        RamUpdate.NONE.id, PcUpdate.NONE.id⟩) ((0#5 : Reg).setWidth 32) (fun _ _ => 0#32) :=
      writes_of 0#32 RdUpdate.NONE.id 0#5 0#5 0#5 _ .NONE (by decide) (by decide) (zero_value 0#5 _ (.inl rfl))
    obtain ⟨d2, c, q1, q2, q3, -⟩ := wr.cycle (d := { d with rom := d.rom.map anyEntry }) k
      (BitVec.ofNat 32 (d.pc.toNat % 2 ^ (bitsFor d.rom.length + 2)))
      (by show _ = BitVec.ofNat 32 (d.pc.toNat % 2 ^ (bitsFor (d.rom.map anyEntry).length + 2)); rw [hl])
      (by show (d.rom.map anyEntry)[_]? = _
          rw [epc, List.getElem?_map, hf, C48_decode dbg w (by rw [← hsys]; exact BitVec.setWidth_eq_extractLsb' (by decide))]; rfl) hw.regs h0 hk
    have q2 : d2.registers = (d.registers.set (0#5 : Reg).toNat 0#32).set 0 0#32 := q2
    have q3 : d2.ram = d.ram := q3
    refine ⟨{ d2 with rom := d.rom }, anyCycle_of c, ⟨by show d2.registers.length = 32; rw [q2]; simp [hw.regs],
      by show 0 < d2.ram.length; rw [q3]; exact hw.pos, by show ramBase + 4 * d2.ram.length ≤ _; rw [q3]; exact hw.top⟩, rfl,
      by show d2.ram.length = _; rw [q3], ?_, fun q => ?_, ?_⟩
    · show d2.pc = _
      rw [q1, hs.pcEq]; rfl
    · show d2.registers[q.toNat]? = _
      rw [q2]
      exact hs.regs_set hw 0#5 _ q
    · show ∀ (k : Nat) (w : Word), d2.ram[k]? = some w → _
      rw [q3]; exact hs.mem

/-- A run of the encrypted VM over accepted words, under any correct library. -/
theorem C96_library (F : Fhe) (vm : Interp F.B) (d : Debug) (n k : Nat) (s s' : Arch)
    (fetch : Word → Option Instr) (dbg : Bool) (hvm : F.Runs vm d) (hw : d.WF) (hs : d.Shows s) (hk : d.ram.length = 2 ^ k)
    (hf : ∀ pc i, fetch pc = some i → ∃ w, ReadsAs w i ∧
      (d.rom[pc.toNat % 2 ^ (bitsFor d.rom.length + 2) / 4]?) = decodeWord dbg w)
    (h : RunsWith fetch (fun i s => execAll d.ram.length i (s.wrapPc (bitsFor d.rom.length + 2))) n s s')
    (hc : vm.cycle.toNat + n < 2 ^ 32) :
    ∃ vm2 regs ram, Interp.run n vm = some vm2 ∧
      vm2.registers.decrypt F.C (List.replicate 32 0#32) = some regs ∧ (∀ r : Reg, regs[r.toNat]? = some (s'.x r)) ∧
      vm2.decryptRam F.C (List.replicate (2 ^ k) 0#32) = some ram ∧ ram.length = 2 ^ k ∧
      (∀ (k : Nat) (w : Word), ram[k]? = some w → ∀ j, j < 4 →
        s'.mem (BitVec.ofNat 32 (ramBase + 4 * k + j)) = w.extractLsb' (8 * j) 8) ∧
      (n ≠ 0 → F.decU vm2.pc = s'.pc) := by
  have chain : ∀ (n : Nat) (d : Debug) (s : Arch), d.WF → d.Shows s → d.ram.length = 2 ^ k → (∀ pc i, fetch pc = some i →
      ∃ w, ReadsAs w i ∧ (d.rom[pc.toNat % 2 ^ (bitsFor d.rom.length + 2) / 4]?) = decodeWord dbg w) →
      RunsWith fetch (fun i s => execAll d.ram.length i (s.wrapPc (bitsFor d.rom.length + 2))) n s s' →
      ∃ d2, anyCycles n d = some d2 ∧ d2.ram.length = d.ram.length ∧ d2.Shows s' := by
    intro n
    induction n with
    | zero => intro d s hw hs hk hf h; cases h; exact ⟨d, rfl, rfl, hs⟩
    | succ n ih =>
      intro d s hw hs hk hf h
      cases h with
      | succ h1 h3 =>
        rw [← hs.pcEq] at h1
        obtain ⟨w, hr, hd⟩ := hf _ _ h1
        obtain ⟨d1, e1, w1, r1, l1, s1⟩ := every_exact d s w _ dbg k hw hs hk hr hd
        obtain ⟨d2, e2, l2, s2⟩ := ih d1 _ w1 s1 (l1.trans hk) (by rw [r1]; exact hf) (by rw [l1, r1]; exact h3)
        exact ⟨d2, by show (anyCycle d).bind _ = _; rw [e1]; exact e2, l2.trans l1, s2⟩
  obtain ⟨d2, e, l2, s2⟩ := chain n d s hw hs hk hf h
  obtain ⟨vm2, e1, r, cy⟩ := hvm.anyRun n e hc
  obtain ⟨p1, p2, p3, -⟩ := C29_observe F vm2 d2 r
  refine ⟨vm2, d2.registers, d2.ram, e1, p1, s2.reg, p2 _ (by rw [l2, hk, List.length_replicate]), l2.trans hk, s2.mem,
    fun hn => ?_⟩
  rw [p3 ?_, s2.pcEq]
  intro h0
  have := congrArg BitVec.toNat h0
  rw [cy, BitVec.toNat_add, BitVec.toNat_ofNat, Nat.mod_eq_of_lt (by omega : n < 2 ^ 32),
    Nat.mod_eq_of_lt hc] at this
  simp at this
  omega

theorem decodeWord_accepted {dbg : Bool} {w : Word} (h : (decodeWord dbg w).isSome = true) : Accepted w := by
  rw [← C06_accept_exact dbg]
  unfold decodeWord at h
  obtain ⟨x, hx⟩ := Option.isSome_iff_exists.mp h
  obtain ⟨_, -, hx⟩ := Option.bind_eq_some_iff.mp hx
  obtain ⟨_, -, hx⟩ := Option.bind_eq_some_iff.mp hx
  obtain ⟨o, ho, -⟩ := Option.map_eq_some_iff.mp hx
  rw [ho]; rfl

/-- A machine makes `n` steps or comes to a place where it does not know what to do. -/
theorem runs_or_leaves (fetch : Word → Option Instr) (step : Instr → Arch → Arch) (n : Nat) (s : Arch) :
    (∃ s', RunsWith fetch step n s s') ∨ ∃ m s', m < n ∧ RunsWith fetch step m s s' ∧ fetch s'.pc = none := by
  induction n generalizing s with
  | zero => exact Or.inl ⟨s, .zero s⟩
  | succ n ih =>
    cases hf : fetch s.pc with
    | none => exact Or.inr ⟨0, s, by omega, .zero s, hf⟩
    | some i =>
      rcases ih (step i s) with ⟨s', h⟩ | ⟨m, s', h1, h2, h3⟩
      · exact Or.inl ⟨s', .succ hf h⟩
      · exact Or.inr ⟨m + 1, s', by omega, .succ hf h2, h3⟩

/-- Every program the encrypted VM takes, every input and every number of cycles, without the comparison: there is a machine given by
the words of the program alone, which knows what to do wherever the program counter, reduced, is in the program.  Either it makes `n`
steps, and then the VM completes under any correct library with the declared part of its RAM as output; or it leaves the program. -/
theorem C96_encrypted (F : Fhe) (rand : Nat → Nat → Nat → F.C.Rand) (chk dbg : Bool) (threads n : Nat) (e : Elf)
    (p : Phantom) (tape : List Byte) (ev : EncVM F.B) (hp : Phantom.fromElf e = some p) (ht : 0 < threads) (hn : n < 2 ^ 32)
    (hev : p.encryptedVm F.C rand dbg false threads tape n = some ev)
    (hoff : p.bootRam.offset < 2 ^ 32) (hb : p.bootRam.offset ≤ p.output.startAddr)
    (he : p.output.startAddr + p.output.size ≤ p.bootRam.offset + 4096) :
    ∃ fetch bytes, FetchWord p.bootRom.data (bitsFor (p.bootRom.data.length / 4) + 2) fetch ∧
      (∀ pc : Word, (fetch pc).isSome = true ↔
        pc.toNat % 2 ^ (bitsFor (p.bootRom.data.length / 4) + 2) / 4 < p.bootRom.data.length / 4) ∧
      Placed p.bootRam.data (p.input.startAddr - p.bootRam.offset) tape bytes ∧
      ((∃ s' ev2, RunsWith fetch (fun i s => execAll 1024 i (s.wrapPc (bitsFor (p.bootRom.data.length / 4) + 2))) n
          (startState bytes) s' ∧ ev.execute F.C F.decU F.decP = some ev2 ∧
          ev2.outputTape F.C chk = some (ramBytes s' (p.output.startAddr - p.bootRam.offset) p.output.size)) ∨
       ∃ m s', m < n ∧ RunsWith fetch (fun i s => execAll 1024 i (s.wrapPc (bitsFor (p.bootRom.data.length / 4) + 2))) m
          (startState bytes) s' ∧
          p.bootRom.data.length / 4 ≤ s'.pc.toNat % 2 ^ (bitsFor (p.bootRom.data.length / 4) + 2) / 4) := by
  obtain ⟨-, -, -, -, bytes, -, -, -, hcp, -⟩ := encryptedVm_inv hev
  obtain ⟨-, hin⟩ := placed_copyInto hcp
  obtain ⟨d, hw, hs, hl, hr, hc, ho, hro, hmc, hmir, h4, hacc, hrom, hrl⟩ :=
    encrypted_words F rand dbg false threads n e p tape bytes ev hp ht hev hin
  obtain ⟨fetch, hf, hd⟩ := C96_fetch p.bootRom.data (bitsFor (p.bootRom.data.length / 4) + 2) h4
    (fun w h => decodeWord_accepted (hacc w h))
  refine ⟨fetch, bytes, hf, hd, hin, ?_⟩
  rcases runs_or_leaves fetch (fun i s => execAll 1024 i (s.wrapPc (bitsFor (p.bootRom.data.length / 4) + 2))) n (startState bytes) with
    ⟨s', hrun⟩ | ⟨m, s', h1, h2, h3⟩
  · left
    obtain ⟨i2, regs, ram, e1, -, -, e2, l2, m2, -⟩ := C96_library F ev.interp d n 10 (startState bytes) s' fetch dbg
      hr hw hs hl (fun pc i h => by
        obtain ⟨w, hcw, hra⟩ := (hf pc i).mp h
        exact ⟨w, hra, by rw [hrl]; exact hrom _ _ ((packWords_word h4).mpr hcw)⟩)
      (by rw [hl, hrl]; exact hrun) (by rw [hc]; simpa using hn)
    have hex := cycles_none (C := F.C) (decU := F.decU) (decP := F.decP) n ev i2 (by rw [hmir]; rfl) e1
    exact ⟨s', { ev with interp := i2 }, hrun, (congrArg (fun k => EncVM.cycles F.C F.decU F.decP k ev) hmc).trans hex,
      output_bytes F chk { ev with interp := i2 } ram s' p e2 l2 m2 ho hro hoff hb he⟩
  · right
    refine ⟨m, s', h1, h2, Nat.le_of_not_lt fun hlt => ?_⟩
    have := (hd s'.pc).mpr hlt
    rw [h3] at this
    cases this

/-- If the number of words is a power of two there is no leaving the program: the VM completes on every input for every number of
cycles. -/
theorem C96_total (F : Fhe) (rand : Nat → Nat → Nat → F.C.Rand) (chk dbg : Bool) (threads n : Nat) (e : Elf)
    (p : Phantom) (tape : List Byte) (ev : EncVM F.B) (hp : Phantom.fromElf e = some p) (ht : 0 < threads) (hn : n < 2 ^ 32)
    (hev : p.encryptedVm F.C rand dbg false threads tape n = some ev)
    (hoff : p.bootRam.offset < 2 ^ 32) (hb : p.bootRam.offset ≤ p.output.startAddr)
    (he : p.output.startAddr + p.output.size ≤ p.bootRam.offset + 4096) (k : Nat) (hk : p.bootRom.data.length = 4 * 2 ^ k) :
    ∃ fetch bytes s' ev2, FetchWord p.bootRom.data (k + 2) fetch ∧ (∀ pc : Word, (fetch pc).isSome = true) ∧
      Placed p.bootRam.data (p.input.startAddr - p.bootRam.offset) tape bytes ∧
      RunsWith fetch (fun i s => execAll 1024 i (s.wrapPc (k + 2))) n (startState bytes) s' ∧
      ev.execute F.C F.decU F.decP = some ev2 ∧
      ev2.outputTape F.C chk = some (ramBytes s' (p.output.startAddr - p.bootRam.offset) p.output.size) := by
  have h := C96_encrypted F rand chk dbg threads n e p tape ev hp ht hn hev hoff hb he
  have hq : p.bootRom.data.length / 4 = 2 ^ k := by omega
  rw [hq, bitsFor_pow] at h
  have hin (pc : Word) : pc.toNat % 2 ^ (k + 2) / 4 < 2 ^ k := by
    have := Nat.mod_lt pc.toNat (Nat.two_pow_pos (k + 2))
    rw [Nat.pow_add] at this ⊢
    omega
  obtain ⟨fetch, bytes, hf, hd, hpl, ⟨s', ev2, h1, h2, h3⟩ | ⟨m, s', -, -, h3⟩⟩ := h
  · exact ⟨fetch, bytes, s', ev2, hf, fun pc => (hd pc).mpr (hin pc), hpl, h1, h2, h3⟩
  · exact absurd h3 (Nat.not_le.mpr (hin _))

/-! ### A program of eight words that are not all instructions -/

/-- `lui x2,0x40; lw x1,0(x2); unimp; slli x1,x1,1` with `funct7` 1`; sw x1,4(x2); mul x3,x1,x1; jalr x0,0(x0)` with `funct3` 1`;
ecall`. -/
def oddElf : Elf :=
  { bytes := wordBytes [0x00040137#32, 0x00012083#32, 0xC0001073#32, 0x02109093#32, 0x00112223#32, 0x021081B3#32, 0x00001067#32,
      0x00000073#32] ++ List.replicate 8 0#8
    segments := [⟨1, 5, 0, 0, 32, 32⟩, ⟨1, 6, 32, 0x40000, 8, 8⟩]
    sections := [(".inpdata", ⟨0x40000, 4⟩), (".outdata", ⟨0x40004, 4⟩)] }

def oddGuest : Phantom := (Phantom.fromElf oddElf).getD ⟨⟨[], 0, 0⟩, ⟨[], 0, 0⟩, ⟨0, 0⟩, ⟨0, 0⟩⟩

theorem odd_elf : Phantom.fromElf oddElf = some oddGuest := by
  obtain ⟨x, hx⟩ := Option.isSome_iff_exists.mp (show (Phantom.fromElf oddElf).isSome = true by decide +kernel)
  unfold oddGuest
  rw [hx]; rfl

/-- It runs for any number of cycles on any input. -/
example (tape : List Byte) (hl : tape.length = 4) (dbg : Bool) (n : Nat) (hn : n < 2 ^ 32) : ∃ ev ev2 out,
    oddGuest.encryptedVm sampleFhe.C (fun _ _ _ => ()) dbg false 3 tape n = some ev ∧
    ev.execute sampleFhe.C sampleFhe.decU sampleFhe.decP = some ev2 ∧ ev2.outputTape sampleFhe.C true = some out ∧ out.length = 4 := by
  obtain ⟨q, hq⟩ : ∃ q, Parser.new.addAll dbg (packWords oddGuest.bootRom.data) = some q := by
    rw [← Option.isSome_iff_exists]; cases dbg <;> decide +kernel
  obtain ⟨ev, hev⟩ := C42_setup sampleFhe (fun _ _ _ => ()) dbg false 3 n oddElf oddGuest tape q odd_elf
    (by decide +kernel) (by decide +kernel) hq (hl.trans (by decide +kernel)) (by decide +kernel) (by decide +kernel)
  obtain ⟨_, _, s', ev2, -, -, -, -, h1, h2⟩ := C96_total sampleFhe (fun _ _ _ => ()) true dbg 3 n oddElf oddGuest tape ev odd_elf
    (by decide) hn hev (by decide +kernel) (by decide +kernel) (by decide +kernel) 3 (by decide +kernel)
  refine ⟨ev, ev2, _, hev, h1, h2, ?_⟩
  unfold ramBytes
  rw [List.length_map, List.length_range]
  decide +kernel

/-- Where the run of that program is after `n` cycles, on the input `x`. -/
structure OddAt (x : Word) (n k : Nat) (s : Arch) : Prop where
  lt : k < 7
  pc : s.pc = BitVec.ofNat 32 (4 * k)
  inp : LoadOp.lw.eval s.mem 0x40000#32 = x
  out : k = n ∧ k < 5 ∨ 5 ≤ n ∧ ∃ m, s.mem = storeBytes m 0x40004#32 (ShiftOp.slli.eval x 1) 4
  base : 1 ≤ k → s.x 2 = 0x40000#32
  loaded : k = 2 ∨ k = 3 → s.x 1 = x
  shifted : k = 4 → s.x 1 = ShiftOp.slli.eval x 1

/-- What is executed at the first seven words. -/
def oddCode : List Instr :=
  [.lui 2 0x40, .load .lw 1 2 0, .opImm .addi 0 0 0, .shImm .slli 1 1 1, .store .sw 2 1 4, .mul .mul 3 1 1, .jalr 0 0 0]

theorem odd_step {x : Word} {n k : Nat} {s : Arch} (h : OddAt x n k s) {i : Instr} (hi : oddCode[k]? = some i) :
    ∃ k', OddAt x (n + 1) k' (execAll 1024 i (s.wrapPc 5)) := by
  obtain ⟨lt, pc, inp, out, base, loaded, shifted⟩ := h
  have hw : s.wrapPc 5 = s := by
    unfold Arch.wrapPc
    rw [pc, BitVec.toNat_ofNat, Nat.mod_eq_of_lt (by omega : 4 * k < 2 ^ 32), Nat.mod_eq_of_lt (by omega), ← pc]
  rw [hw]
  have out' (h4 : k ≠ 4) : k + 1 = n + 1 ∧ k + 1 < 5 ∨ 5 ≤ n + 1 ∧ ∃ m, s.mem = storeBytes m 0x40004#32 (ShiftOp.slli.eval x 1) 4 := by
    rcases out with h | h
    · exact Or.inl (by omega)
    · exact Or.inr ⟨by omega, h.2⟩
  have next : s.pc + 4#32 = BitVec.ofNat 32 (4 * (k + 1)) := by
    rw [pc, BitVec.add_comm, ← BitVec.ofNat_add, Nat.mul_succ, Nat.add_comm]
  have : k = 0 ∨ k = 1 ∨ k = 2 ∨ k = 3 ∨ k = 4 ∨ k = 5 ∨ k = 6 := by omega
  rcases this with rfl | rfl | rfl | rfl | rfl | rfl | rfl <;> cases hi
  · exact ⟨1, by decide, next, inp, out' (by decide), fun _ => rfl, fun h => by omega, fun h => by omega⟩
  · refine ⟨2, by decide, next, inp, out' (by decide), fun _ => base (by decide), fun _ => ?_, fun h => by omega⟩
    show LoadOp.lw.eval s.mem (ramWord 1024 (s.x 2 + immI 0)) = x
    rw [base (by decide)]
    exact inp
  · exact ⟨3, by decide, next, inp, out' (by decide), fun _ => base (by decide), fun _ => loaded (Or.inl rfl), fun h => by omega⟩
  · refine ⟨4, by decide, next, inp, out' (by decide), fun _ => base (by decide), fun h => by omega, fun _ => ?_⟩
    show ShiftOp.slli.eval (s.x 1) 1 = _
    rw [loaded (Or.inr rfl)]
  · have hm : (execAll 1024 (.store .sw 2 1 4) s).mem = storeBytes s.mem 0x40004#32 (ShiftOp.slli.eval x 1) 4 := by
      show storeBytes s.mem (ramWord 1024 (s.x 2 + immI 4)) (s.x 1) 4 = _
      rw [base (by decide), shifted rfl]
      rfl
    refine ⟨5, by decide, next, ?_, Or.inr ⟨?_, _, hm⟩, fun _ => base (by decide), fun h => by omega, fun h => by omega⟩
    · rw [hm]; exact inp
    · rcases out with h | h <;> omega
  · exact ⟨6, by decide, next, inp, out' (by decide), fun _ => base (by decide), fun h => by omega, fun h => by omega⟩
  · refine ⟨0, by decide, ?_, inp, Or.inr ?_, fun h => by omega, fun h => by omega, fun h => by omega⟩
    · show (0#32 + immI 0) &&& 0xFFFFFFFE#32 = _
      decide
    · rcases out with h | h
      · omega
      · exact ⟨by omega, h.2⟩

theorem double (x : Word) : ShiftOp.slli.eval x 1 = x + x := by
  apply BitVec.eq_of_toNat_eq
  show (BitVec.ofNat 32 (x.toNat * 2 ^ 1)).toNat = _
  rw [BitVec.toNat_ofNat, BitVec.toNat_add]
  congr 1
  omega

theorem odd_code {bits : Nat} (hb : 5 ≤ bits) {fetch : Word → Option Instr} (hf : FetchWord oddGuest.bootRom.data bits fetch)
    (k : Nat) (i : Instr) (h : oddCode[k]? = some i) (hk : k < 7) : fetch (BitVec.ofNat 32 (4 * k)) = some i := by
  have rd : ∀ k, k < 7 → ∃ w i, oddCode[k]? = some i ∧ ReadsAs w i ∧ (packWords oddGuest.bootRom.data)[k]? = some w := by
    intro k hk
    have : k = 0 ∨ k = 1 ∨ k = 2 ∨ k = 3 ∨ k = 4 ∨ k = 5 ∨ k = 6 := by omega
    rcases this with rfl | rfl | rfl | rfl | rfl | rfl | rfl
    · exact ⟨_, _, rfl, .own _, by decide +kernel⟩
    · exact ⟨_, _, rfl, .own _, by decide +kernel⟩
    · exact ⟨0xC0001073#32, _, rfl, .system _ (by decide), by decide +kernel⟩
    · exact ⟨_, _, rfl, .slli 1 1 1 1, by decide +kernel⟩
    · exact ⟨_, _, rfl, .own _, by decide +kernel⟩
    · exact ⟨_, _, rfl, .own _, by decide +kernel⟩
    · exact ⟨_, _, rfl, .jalr 0 0 1 0, by decide +kernel⟩
  obtain ⟨w, i', a1, a2, a3⟩ := rd k hk
  cases Option.some.inj (a1.symm.trans h)
  refine (hf _ _).mpr ⟨w, ?_, a2⟩
  rw [BitVec.toNat_ofNat, Nat.mod_eq_of_lt (by omega : 4 * k < 2 ^ 32), Nat.mod_eq_of_lt (Nat.lt_of_lt_of_le (by omega : 4 * k < 2 ^ 5) (Nat.pow_le_pow_right (by decide) hb)), Nat.mul_div_cancel_left _ (by decide)]
  exact (packWords_word (by decide +kernel)).mp a3

/-- From the fifth cycle on, whatever the number of cycles, the encrypted VM returns twice the input. -/
theorem C96_odd (F : Fhe) (rand : Nat → Nat → Nat → F.C.Rand) (chk dbg : Bool) (threads n : Nat) (ht : 0 < threads) (h5 : 5 ≤ n)
    (hn : n < 2 ^ 32) (x : Word) : ∃ ev ev2, oddGuest.encryptedVm F.C rand dbg false threads (fourBytes x) n = some ev ∧
      ev.execute F.C F.decU F.decP = some ev2 ∧ ev2.outputTape F.C chk = some (fourBytes (x + x)) := by
  obtain ⟨q, hq⟩ : ∃ q, Parser.new.addAll dbg (packWords oddGuest.bootRom.data) = some q := by
    rw [← Option.isSome_iff_exists]; cases dbg <;> decide +kernel
  obtain ⟨ev, hev⟩ := C42_setup F rand dbg false threads n oddElf oddGuest (fourBytes x) q odd_elf
    (by decide +kernel) (by decide +kernel) hq ((by decide +kernel : 4 = oddGuest.input.size)) (by decide +kernel) (by decide +kernel)
  obtain ⟨fetch, bytes, s', ev2, hf, -, hin, hrun, h1, h2⟩ := C96_total F rand chk dbg threads n oddElf oddGuest (fourBytes x) ev odd_elf
    ht hn hev (by decide +kernel) (by decide +kernel) (by decide +kernel) 3 (by decide +kernel)
  refine ⟨ev, ev2, hev, h1, ?_⟩
  have hat : oddGuest.input.startAddr - oddGuest.bootRam.offset = 0 := by decide +kernel
  rw [hat] at hin
  have x0 : LoadOp.lw.eval (startState bytes).mem 0x40000#32 = x := by
    refine word_load fun i b hb => ?_
    have hi := (List.getElem?_eq_some_iff.mp hb).1
    have hi : i < 4 := hi
    rw [show (0x40000 + i) = ramBase + i from rfl, startState_mem _ _ (by unfold ramBase; omega), List.getD_eq_getElem?_getD]
    have := hin.2.2.1 i hi
    rw [Nat.zero_add] at this
    rw [this, hb]; rfl
  have all : ∀ n : Nat, ∃ s k, RunsWith fetch (fun i s => execAll 1024 i (s.wrapPc 5)) n (startState bytes) s ∧ OddAt x n k s := by
    intro n
    induction n with
    | zero =>
      exact ⟨_, 0, .zero _, by decide, rfl, x0, Or.inl ⟨rfl, by decide⟩, fun h => by omega, fun h => by omega, fun h => by omega⟩
    | succ n ih =>
      obtain ⟨s, k, hr, ho⟩ := ih
      obtain ⟨i, hi⟩ : ∃ i, oddCode[k]? = some i := ⟨_, List.getElem?_eq_getElem ho.lt⟩
      obtain ⟨k', ho'⟩ := odd_step ho hi
      exact ⟨_, k', runsWith_append hr (.succ (by rw [ho.pc]; exact odd_code (by decide) hf k i hi ho.lt) (.zero _)), ho'⟩
  obtain ⟨s, k, hr, ho⟩ := all n
  cases runsWith_unique hr hrun
  rcases ho.out with h | ⟨-, m, hm⟩
  · omega
  · have := stored_bytes m (ShiftOp.slli.eval x 1) .sw _ hm
    rw [h2, show oddGuest.output.startAddr - oddGuest.bootRam.offset = 0x40004 - ramBase by decide +kernel,
      show oddGuest.output.size = StoreOp.sw.size by decide +kernel, this, double]
    rfl

end Verif.Props
