import Verif.Spec.AllInstr
import Verif.Props.MulDiv
import Verif.Props.Limit
/-
  C94: all of RV32IM on both VMs, from the object files of a guest to its output.
-/
namespace Verif.Props
open Model Model.Link Spec Boot ElfFile

theorem entry_rv32i (i : Instr) (hi : i.isBase) : Rv32i (entry i) := by
  have r (x : Reg) : (x.setWidth 32 : U32).toNat < 32 := by rw [reg_toNat]; exact x.isLt
  exact ⟨r _, r _, r _, ⟨_, expectedRd_mem i (Instr.isBase.not_mul hi), rfl⟩,
    ⟨expectedRam i, by cases expectedRam i <;> decide, rfl⟩, ⟨expectedPc i, by cases expectedPc i <;> decide, rfl⟩⟩

/-- One encrypted cycle at an RV32IM instruction, in any state. -/
theorem all_exact (d : Debug) (s : Arch) (i : Instr) (dbg : Bool) (k : Nat) (hw : d.WF) (hs : d.Shows s) (hk : d.ram.length = 2 ^ k)
    (hf : (d.rom[d.pc.toNat % 2 ^ (bitsFor d.rom.length + 2) / 4]?) = decodeWord dbg (encode i)) :
    ∃ d2, anyCycle d = some d2 ∧ d2.WF ∧ d2.rom = d.rom ∧ d2.ram.length = d.ram.length ∧
      d2.Shows (execAll d.ram.length i (s.wrapPc (bitsFor d.rom.length + 2))) := by
  have hl : (d.rom.map anyEntry).length = d.rom.length := List.length_map ..
  by_cases hi : i.isBase
  · have hs' : ({ d with rom := d.rom.map anyEntry } : Debug).Shows s := ⟨hs.pcEq, hs.reg, hs.mem⟩
    obtain ⟨d2, e1, e2, -, e4, e5⟩ := C35_encrypted_exact { d with rom := d.rom.map anyEntry } s i dbg k ⟨hw.regs, hw.pos, hw.top⟩ hs' hk
      (by show (d.rom.map anyEntry)[d.pc.toNat % 2 ^ (bitsFor (d.rom.map anyEntry).length + 2) / 4]? = _
          rw [hl, List.getElem?_map, hf, decodeWord_encode, Option.map_some, C87_own _ (entry_rv32i i hi)]) hi
    refine ⟨{ d2 with rom := d.rom }, anyCycle_of e1, ⟨e2.regs, e2.pos, e2.top⟩, rfl, e4, ?_⟩
    have e5 : d2.Shows (execEnc d.ram.length i (s.wrapPc (bitsFor (d.rom.map anyEntry).length + 2))) := e5
    rw [hl] at e5
    have : execAll d.ram.length i (s.wrapPc (bitsFor d.rom.length + 2)) = execEnc d.ram.length i (s.wrapPc (bitsFor d.rom.length + 2)) := by
      cases i with
      | mul => exact hi.elim
      | _ => rfl
    rw [this]
    exact ⟨e5.pcEq, e5.reg, e5.mem⟩
  · obtain ⟨o, rd, rs1, rs2, rfl⟩ : ∃ o rd rs1 rs2, i = .mul o rd rs1 rs2 := by
      cases i with
      | mul o rd rs1 rs2 => exact ⟨o, rd, rs1, rs2, rfl⟩
      | _ => exact absurd trivial hi
    have epc : (BitVec.ofNat 32 (d.pc.toNat % 2 ^ (bitsFor d.rom.length + 2))).toNat = d.pc.toNat % 2 ^ (bitsFor d.rom.length + 2) := by
      rw [BitVec.toNat_ofNat, Nat.mod_eq_of_lt (Nat.lt_of_le_of_lt (Nat.mod_le _ _) d.pc.isLt)]
    have h0 : d.registers[0]? = some 0#32 := hs.reg 0#5
    obtain ⟨d2, c, q1, q2, q3, -⟩ := (mul_writes o rd rs1 rs2).cycle (d := { d with rom := d.rom.map anyEntry }) k
      (BitVec.ofNat 32 (d.pc.toNat % 2 ^ (bitsFor d.rom.length + 2)))
      (by show _ = BitVec.ofNat 32 (d.pc.toNat % 2 ^ (bitsFor (d.rom.map anyEntry).length + 2)); rw [hl])
      (by show (d.rom.map anyEntry)[_]? = _
          rw [epc, List.getElem?_map, hf, decodeWord_encode]; rfl) hw.regs h0 hk
    have q2 : d2.registers = (d.registers.set rd.toNat (encMulDiv o (s.wrapPc (bitsFor d.rom.length + 2)).pc (s.x rs1))).set 0 0#32 := by
      rw [q2, reg_toNat]
      show (d.registers.set _ (encMulDiv o _ ((d.registers[rs1.toNat]?).getD 0#32))).set _ _ = _
      rw [hs.reg rs1, Option.getD_some, hs.pcEq]
      rfl
    have q3 : d2.ram = d.ram := q3
    refine ⟨{ d2 with rom := d.rom }, anyCycle_of c, ⟨by show d2.registers.length = 32; rw [q2]; simp [hw.regs],
      by show 0 < d2.ram.length; rw [q3]; exact hw.pos, by show ramBase + 4 * d2.ram.length ≤ _; rw [q3]; exact hw.top⟩, rfl,
      by show d2.ram.length = _; rw [q3], ?_, fun q => ?_, ?_⟩
    · show d2.pc = _
      rw [q1, hs.pcEq]; rfl
    · show d2.registers[q.toNat]? = _
      rw [q2]
      exact hs.regs_set hw rd _ q
    · show ∀ (k : Nat) (w : Word), d2.ram[k]? = some w → _
      rw [q3]; exact hs.mem

/-- A run of the encrypted VM over RV32IM instructions, under any correct library. -/
theorem C94_library (F : Fhe) (vm : Interp F.B) (d : Debug) (n k : Nat) (s s' : Arch)
    (fetch : Word → Option Instr) (dbg : Bool) (hvm : F.Runs vm d) (hw : d.WF) (hs : d.Shows s) (hk : d.ram.length = 2 ^ k)
    (hf : ∀ pc i, fetch pc = some i →
      (d.rom[pc.toNat % 2 ^ (bitsFor d.rom.length + 2) / 4]?) = decodeWord dbg (encode i))
    (h : RunsWith fetch (fun i s => execAll d.ram.length i (s.wrapPc (bitsFor d.rom.length + 2))) n s s')
    (hc : vm.cycle.toNat + n < 2 ^ 32) :
    ∃ vm2 regs ram, Interp.run n vm = some vm2 ∧
      vm2.registers.decrypt F.C (List.replicate 32 0#32) = some regs ∧ (∀ r : Reg, regs[r.toNat]? = some (s'.x r)) ∧
      vm2.decryptRam F.C (List.replicate (2 ^ k) 0#32) = some ram ∧ ram.length = 2 ^ k ∧
      (∀ (k : Nat) (w : Word), ram[k]? = some w → ∀ j, j < 4 →
        s'.mem (BitVec.ofNat 32 (ramBase + 4 * k + j)) = w.extractLsb' (8 * j) 8) ∧
      (n ≠ 0 → F.decU vm2.pc = s'.pc) := by
  have chain : ∀ (n : Nat) (d : Debug) (s : Arch), d.WF → d.Shows s → d.ram.length = 2 ^ k → (∀ pc i, fetch pc = some i →
      (d.rom[pc.toNat % 2 ^ (bitsFor d.rom.length + 2) / 4]?) = decodeWord dbg (encode i)) →
      RunsWith fetch (fun i s => execAll d.ram.length i (s.wrapPc (bitsFor d.rom.length + 2))) n s s' →
      ∃ d2, anyCycles n d = some d2 ∧ d2.ram.length = d.ram.length ∧ d2.Shows s' := by
    intro n
    induction n with
    | zero => intro d s hw hs hk hf h; cases h; exact ⟨d, rfl, rfl, hs⟩
    | succ n ih =>
      intro d s hw hs hk hf h
      cases h with
      | succ h1 h3 =>
        rw [← hs.pcEq] at h1
        obtain ⟨d1, e1, w1, r1, l1, s1⟩ := all_exact d s _ dbg k hw hs hk (hf _ _ h1)
        obtain ⟨d2, e2, l2, s2⟩ := ih d1 _ w1 s1 (l1.trans hk) (by rw [r1]; exact hf) (by rw [l1, r1]; exact h3)
        exact ⟨d2, by show (anyCycle d).bind _ = _; rw [e1]; exact e2, l2.trans l1, s2⟩
  obtain ⟨d2, e, l2, s2⟩ := chain n d s hw hs hk hf h
  obtain ⟨vm2, e1, r, cy⟩ := hvm.anyRun n e hc
  obtain ⟨p1, p2, p3, -⟩ := C29_observe F vm2 d2 r
  refine ⟨vm2, d2.registers, d2.ram, e1, p1, s2.reg, p2 _ (by rw [l2, hk, List.length_replicate]), l2.trans hk, s2.mem,
    fun hn => ?_⟩
  rw [p3 ?_, s2.pcEq]
  intro h0
  have := congrArg BitVec.toNat h0
  rw [cy, BitVec.toNat_add, BitVec.toNat_ofNat, Nat.mod_eq_of_lt (by omega : n < 2 ^ 32),
    Nat.mod_eq_of_lt hc] at this
  simp at this
  omega

/-- The encrypted VM without the comparison: for every ELF file that loads, every input tape and every number of cycles, if the words
met are RV32IM instructions then the VM completes, under any correct library, and its output tape is the declared part of the RAM of the
state that `execAll` leads to. -/
theorem C94_encrypted (F : Fhe) (rand : Nat → Nat → Nat → F.C.Rand) (chk dbg : Bool) (threads n : Nat) (e : Elf)
    (p : Phantom) (tape bytes : List Byte) (ev : EncVM F.B) (fetch : Word → Option Instr) (s' : Arch)
    (hp : Phantom.fromElf e = some p) (ht : 0 < threads) (hn : n < 2 ^ 32)
    (hev : p.encryptedVm F.C rand dbg false threads tape n = some ev)
    (hin : Placed p.bootRam.data (p.input.startAddr - p.bootRam.offset) tape bytes)
    (hf : ∀ pc i, fetch pc = some i →
      InstrAt p.bootRom.data (4 * (pc.toNat % 2 ^ (bitsFor (p.bootRom.data.length / 4) + 2) / 4)) i)
    (hrun : RunsWith fetch (fun i s => execAll 1024 i (s.wrapPc (bitsFor (p.bootRom.data.length / 4) + 2))) n
      (startState bytes) s')
    (hoff : p.bootRam.offset < 2 ^ 32) (hb : p.bootRam.offset ≤ p.output.startAddr)
    (he : p.output.startAddr + p.output.size ≤ p.bootRam.offset + 4096) :
    ∃ ev2, ev.execute F.C F.decU F.decP = some ev2 ∧
      ev2.outputTape F.C chk = some (ramBytes s' (p.output.startAddr - p.bootRam.offset) p.output.size) := by
  obtain ⟨d, hw, hs, hl, hr, hc, ho, hro, hmc, hmir, hrom, hrl⟩ :=
    encrypted_start F rand dbg false threads n e p tape bytes ev hp ht hev hin
  obtain ⟨i2, regs, ram, e1, -, -, e2, l2, m2, -⟩ := C94_library F ev.interp d n 10 (startState bytes) s' fetch dbg
    hr hw hs hl (fun pc i h => by rw [hrl]; exact hrom _ _ (hf pc i h))
    (by rw [hl, hrl]; exact hrun) (by rw [hc]; simpa using hn)
  have hex := cycles_none (C := F.C) (decU := F.decU) (decP := F.decP) n ev i2 (by rw [hmir]; rfl) e1
  exact ⟨{ ev with interp := i2 }, (congrArg (fun k => EncVM.cycles F.C F.decU F.decP k ev) hmc).trans hex,
    output_bytes F chk { ev with interp := i2 } ram s' p e2 l2 m2 ho hro hoff hb he⟩

/-- Two instructions: `x5 = 7; x6 = x5 / x5` leaves 4, the program counter, in `x6`. -/
example : ∃ s', RunsWith (fun pc => if pc = 0#32 then some (.opImm .addi 5 0 7) else if pc = 4#32 then some (.mul .divu 6 5 5) else none)
    (fun i s => execAll 1024 i (s.wrapPc 20)) 2 ⟨0#32, fun _ => 0#32, fun _ => 0#8⟩ s' ∧ s'.x 5 = 7#32 ∧ s'.x 6 = 4#32 ∧ s'.pc = 8#32 :=
  ⟨_, .succ rfl (.succ rfl (.zero _)), by decide, by decide, by decide⟩

end Verif.Props
