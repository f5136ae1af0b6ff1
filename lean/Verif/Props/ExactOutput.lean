import Verif.Spec.Start
import Verif.Props.Exact
import Verif.Props.EndToEnd
/-
  C70: what the encrypted VM, and the test VM, compute for a guest, from the ELF file to the output tape, with no
  restriction to what the two have in common.
-/
namespace Verif.Props
open Model Spec

theorem packWords_instr {rom : List Byte} (h4 : rom.length % 4 = 0) {k : Nat} {i : Instr} (h : InstrAt rom (4 * k) i) :
    (packWords rom)[k]? = some (encode i) := by
  have g : ∀ j, j < 4 → ((packWords rom)[k]?).map (fun w => w.extractLsb' (8 * j) 8) =
      some ((encode i).extractLsb' (8 * j) 8) := by
    intro j hj
    have := h j hj
    rw [← wordBytes_packWords rom h4, wordBytes_get] at this
    rw [show (4 * k + j) / 4 = k by omega, show (4 * k + j) % 4 = j by omega] at this
    exact this
  cases hw : (packWords rom)[k]? with
  | none => have := g 0 (by decide); rw [hw] at this; cases this
  | some w =>
    rw [hw] at g
    have g' : ∀ j, j < 4 → w.extractLsb' (8 * j) 8 = (encode i).extractLsb' (8 * j) 8 :=
      fun j hj => Option.some.inj (g j hj)
    congr 1
    have e0 := g' 0 (by decide); have e1 := g' 1 (by decide); have e2 := g' 2 (by decide); have e3 := g' 3 (by decide)
    apply BitVec.eq_of_getLsbD_eq
    intro b hb
    have key : ∀ j, w.extractLsb' (8 * j) 8 = (encode i).extractLsb' (8 * j) 8 → 8 * j ≤ b → b < 8 * j + 8 →
        w.getLsbD b = (encode i).getLsbD b := by
      intro j e h1 h2
      have := congrArg (·.getLsbD (b - 8 * j)) e
      simp only [BitVec.getLsbD_extractLsb', show b - 8 * j < 8 by omega, decide_true, Bool.true_and,
        show 8 * j + (b - 8 * j) = b by omega] at this
      exact this
    rcases (show b / 8 = 0 ∨ b / 8 = 1 ∨ b / 8 = 2 ∨ b / 8 = 3 by omega) with h | h | h | h
    · exact key 0 e0 (by omega) (by omega)
    · exact key 1 e1 (by omega) (by omega)
    · exact key 2 e2 (by omega) (by omega)
    · exact key 3 e3 (by omega) (by omega)

theorem startState_mem (bytes : List Byte) (k : Nat) (hk : ramBase + k < 2 ^ 32) :
    (startState bytes).mem (BitVec.ofNat 32 (ramBase + k)) = bytes.getD k 0#8 := by
  show (if ramBase ≤ (BitVec.ofNat 32 (ramBase + k)).toNat then _ else _) = _
  rw [BitVec.toNat_ofNat, Nat.mod_eq_of_lt hk, if_pos (by omega), Nat.add_sub_cancel_left]

theorem startState_x (bytes : List Byte) (r : Reg) : (startState bytes).x r = 0#32 := by
  unfold Arch.x startState; split <;> rfl

theorem placed_unique {a b c : List Byte} {at_ : Nat} {src : List Byte} (h1 : Placed a at_ src b) (h2 : Placed a at_ src c) :
    b = c := by
  apply List.ext_getElem?
  intro k
  by_cases hk : k < at_ ∨ at_ + src.length ≤ k
  · rw [h1.2.2.2 k hk, h2.2.2.2 k hk]
  · have e : k = at_ + (k - at_) := by omega
    rw [e, h1.2.2.1 (k - at_) (by omega), h2.2.2.1 (k - at_) (by omega)]

/-- The mirror at the start, whatever the length of its program. -/
theorem image_start (k : Nat) (ds : List Decoded) (bytes : List Byte) (hb : bytes.length = 4096) :
    (Debug.image k 1024 ds (packWords bytes)).WF ∧ (Debug.image k 1024 ds (packWords bytes)).Shows (startState bytes) ∧
      (Debug.image k 1024 ds (packWords bytes)).ram.length = 2 ^ 10 := by
  have hpk := packWords_length bytes (by rw [hb])
  have hrl : (packWords bytes).length = 1024 := by omega
  have hram : (Debug.image k 1024 ds (packWords bytes)).ram = packWords bytes := by
    simp [Debug.image, hrl]
  refine ⟨⟨List.length_replicate, by rw [hram, hrl]; decide, by rw [hram, hrl]; decide⟩,
    ⟨rfl, fun r => ?_, fun k w hk j hj => ?_⟩, by rw [hram, hrl]⟩
  · rw [startState_x]
    show (List.replicate 32 0#32)[r.toNat]? = _
    rw [List.getElem?_replicate, if_pos r.isLt]
  · rw [hram] at hk
    have hk' : k < 1024 := by
      have := (List.getElem?_eq_some_iff.mp hk).1; omega
    rw [Nat.add_assoc, startState_mem _ _ (by unfold ramBase; omega)]
    have := wordBytes_get (packWords bytes) (4 * k + j)
    rw [wordBytes_packWords bytes (by rw [hb]), show (4 * k + j) / 4 = k by omega, show (4 * k + j) % 4 = j by omega,
      hk, Option.map_some] at this
    rw [List.getD_eq_getElem?_getD, this]; rfl

/-- The encrypted VM after set-up: it corresponds to a mirror that shows the start state. -/
theorem encrypted_words (F : Fhe) (rand : Nat → Nat → Nat → F.C.Rand) (dbg phantomDebug : Bool) (threads n : Nat) (e : Elf)
    (p : Phantom) (tape bytes : List Byte) (ev : EncVM F.B)
    (hp : Phantom.fromElf e = some p) (ht : 0 < threads)
    (hev : p.encryptedVm F.C rand dbg phantomDebug threads tape n = some ev)
    (hin : Placed p.bootRam.data (p.input.startAddr - p.bootRam.offset) tape bytes) :
    ∃ d : Debug, d.WF ∧ d.Shows (startState bytes) ∧ d.ram.length = 2 ^ 10 ∧ F.Runs ev.interp d ∧ ev.interp.cycle = 0#32 ∧
      ev.output = p.output ∧ ev.ramOffset = p.bootRam.offset ∧ ev.maxCycles = n ∧
      (ev.mirror = if phantomDebug then some d else none) ∧
      p.bootRom.data.length % 4 = 0 ∧ (∀ w ∈ packWords p.bootRom.data, (decodeWord dbg w).isSome = true) ∧
      (∀ (k : Nat) (w : Word), (packWords p.bootRom.data)[k]? = some w → d.rom[k]? = decodeWord dbg w) ∧
      d.rom.length = p.bootRom.data.length / 4 := by
  obtain ⟨z1, z2, -⟩ := C39_zero e p hp
  obtain ⟨_, txt, _, -, -, -, -, -, r1, r2, r3, -⟩ := C39_rom e p hp
  obtain ⟨h4, hl, parser, ds, bytes', hpa, hd, hds, hcp, hv, ho, hro, hmc, hmir⟩ := encryptedVm_inv hev
  obtain ⟨hlo, hpl⟩ := placed_copyInto hcp
  have hbb : bytes' = bytes := placed_unique hpl hin
  subst hbb
  have hbl : bytes'.length = 4096 := hpl.2.1.trans z2
  have hrs : p.bootRam.size / 4 = 1024 := by omega
  have hdl : ds.length = (packWords p.bootRom.data).length := by
    have := congrArg List.length hds
    simpa using this.symm
  have hroml := packWords_length p.bootRom.data h4
  have hrom : (Debug.image (p.bootRom.size / 4) 1024 ds (packWords bytes')).rom = ds := by
    have : p.bootRom.size / 4 - ds.length = 0 := by omega
    simp [Debug.image, this]
  obtain ⟨hruns, hcy⟩ := C29_start F rand dbg _ _ threads parser _ ev.interp ds ht hd hv
  rw [hrs] at hruns hmir
  obtain ⟨i1, i2, i3⟩ := image_start (p.bootRom.size / 4) ds bytes' hbl
  refine ⟨Debug.image (p.bootRom.size / 4) 1024 ds (packWords bytes'), i1, i2, i3, hruns, hcy, ho, hro, hmc, hmir, h4, fun w hw => ?_,
    fun k w hw => ?_, by rw [hrom]; omega⟩
  · have := List.mem_map_of_mem (f := decodeWord dbg) hw
    rw [hds] at this
    obtain ⟨x, -, e⟩ := List.mem_map.mp this
    rw [← e]; rfl
  · rw [hrom]
    have h1 := congrArg (·[k]?) hds
    simp only [List.getElem?_map, hw, Option.map_some] at h1
    cases hdk : ds[k]? with
    | none => rw [hdk] at h1; cases h1
    | some x => rw [hdk] at h1; exact (Option.some.inj h1).symm

/-- The same for words that are instructions. -/
theorem encrypted_start (F : Fhe) (rand : Nat → Nat → Nat → F.C.Rand) (dbg phantomDebug : Bool) (threads n : Nat) (e : Elf)
    (p : Phantom) (tape bytes : List Byte) (ev : EncVM F.B)
    (hp : Phantom.fromElf e = some p) (ht : 0 < threads)
    (hev : p.encryptedVm F.C rand dbg phantomDebug threads tape n = some ev)
    (hin : Placed p.bootRam.data (p.input.startAddr - p.bootRam.offset) tape bytes) :
    ∃ d : Debug, d.WF ∧ d.Shows (startState bytes) ∧ d.ram.length = 2 ^ 10 ∧ F.Runs ev.interp d ∧ ev.interp.cycle = 0#32 ∧
      ev.output = p.output ∧ ev.ramOffset = p.bootRam.offset ∧ ev.maxCycles = n ∧
      (ev.mirror = if phantomDebug then some d else none) ∧
      (∀ k i, InstrAt p.bootRom.data (4 * k) i → d.rom[k]? = decodeWord dbg (encode i)) ∧
      d.rom.length = p.bootRom.data.length / 4 := by
  obtain ⟨d, h1, h2, h3, h4, h5, h6, h7, h8, h9, h10, -, h11, h12⟩ :=
    encrypted_words F rand dbg phantomDebug threads n e p tape bytes ev hp ht hev hin
  exact ⟨d, h1, h2, h3, h4, h5, h6, h7, h8, h9, fun k i h => h11 k _ (packWords_instr h10 h), h12⟩

/-- The output tape of a VM whose RAM decrypts to `ram`. -/
theorem output_bytes (F : Fhe) (chk : Bool) (ev : EncVM F.B) (ram : List Word) (s' : Arch) (p : Phantom)
    (e2 : ev.interp.decryptRam F.C (List.replicate (2 ^ 10) 0#32) = some ram) (l2 : ram.length = 2 ^ 10)
    (m2 : ∀ (k : Nat) (w : Word), ram[k]? = some w → ∀ j, j < 4 →
      s'.mem (BitVec.ofNat 32 (ramBase + 4 * k + j)) = w.extractLsb' (8 * j) 8)
    (ho : ev.output = p.output) (hro : ev.ramOffset = p.bootRam.offset)
    (hoff : p.bootRam.offset < 2 ^ 32) (hb : p.bootRam.offset ≤ p.output.startAddr)
    (he : p.output.startAddr + p.output.size ≤ p.bootRam.offset + 4096) :
    ev.outputTape F.C chk = some (ramBytes s' (p.output.startAddr - p.bootRam.offset) p.output.size) := by
  unfold EncVM.outputTape ramBytes
  rw [show RAM_SIZE / 4 = 2 ^ 10 from rfl, e2, Option.bind_some]
  simp only [ho, hro]
  apply collect_map_some
  intro i hi
  have hi := List.mem_range.mp hi
  unfold usizeAdd usizeSub RAM_SIZE
  rw [if_pos (by omega), Option.bind_some, if_pos (by omega), Option.bind_some, unpackWords_eq,
    Nat.mod_eq_of_lt (by omega), wordBytes_get]
  have hq : (p.output.startAddr + i - p.bootRam.offset) / 4 < ram.length := by rw [l2]; omega
  have := m2 _ _ (List.getElem?_eq_getElem hq) ((p.output.startAddr + i - p.bootRam.offset) % 4) (Nat.mod_lt _ (by decide))
  rw [List.getElem?_eq_getElem hq, Option.map_some, ← this]
  exact congrArg (fun k => some (s'.mem (BitVec.ofNat 32 k))) (by omega)

/-- The encrypted VM: for every ELF file that loads, every input tape and every number of cycles, if the
instructions met are RV32I then the VM completes, under any correct library, and its output tape is the
declared part of the RAM of the state that `execEnc` leads to. -/
theorem C70_encrypted (F : Fhe) (rand : Nat → Nat → Nat → F.C.Rand) (chk dbg : Bool) (threads n : Nat) (e : Elf)
    (p : Phantom) (tape bytes : List Byte) (ev : EncVM F.B) (fetch : Word → Option Instr) (s' : Arch)
    (hp : Phantom.fromElf e = some p) (ht : 0 < threads) (hn : n < 2 ^ 32)
    (hev : p.encryptedVm F.C rand dbg false threads tape n = some ev)
    (hin : Placed p.bootRam.data (p.input.startAddr - p.bootRam.offset) tape bytes)
    (hf : ∀ pc i, fetch pc = some i → i.isBase ∧
      InstrAt p.bootRom.data (4 * (pc.toNat % 2 ^ (bitsFor (p.bootRom.data.length / 4) + 2) / 4)) i)
    (hrun : RunsWith fetch (fun i s => execEnc 1024 i (s.wrapPc (bitsFor (p.bootRom.data.length / 4) + 2))) n
      (startState bytes) s')
    (hoff : p.bootRam.offset < 2 ^ 32) (hb : p.bootRam.offset ≤ p.output.startAddr)
    (he : p.output.startAddr + p.output.size ≤ p.bootRam.offset + 4096) :
    ∃ ev2, ev.execute F.C F.decU F.decP = some ev2 ∧
      ev2.outputTape F.C chk = some (ramBytes s' (p.output.startAddr - p.bootRam.offset) p.output.size) := by
  obtain ⟨d, hw, hs, hl, hr, hc, ho, hro, hmc, hmir, hrom, hrl⟩ :=
    encrypted_start F rand dbg false threads n e p tape bytes ev hp ht hev hin
  obtain ⟨i2, regs, ram, e1, -, -, e2, l2, m2, -⟩ := C35_library_exact F ev.interp d n 10 (startState bytes) s' fetch dbg
    hr hw hs hl (fun pc i h => (hf pc i h).1) (fun pc i h => by rw [hrl]; exact hrom _ _ (hf pc i h).2)
    (by rw [hl, hrl]; exact hrun) (by rw [hc]; simpa using hn)
  have hex := cycles_none (C := F.C) (decU := F.decU) (decP := F.decP) n ev i2 (by rw [hmir]; rfl) e1
  exact ⟨{ ev with interp := i2 }, (congrArg (fun k => EncVM.cycles F.C F.decU F.decP k ev) hmc).trans hex,
    output_bytes F chk { ev with interp := i2 } ram s' p e2 l2 m2 ho hro hoff hb he⟩

theorem both_exact (d : Debug) (s : Arch) (i : Instr) (dbg : Bool) (k : Nat) (hw : d.WF) (hs : d.Shows s)
    (hf : (d.rom[d.pc.toNat / 4]?) = decodeWord dbg (encode i)) (hk : d.ram.length = 2 ^ k) (hi : i.plainBase) :
    ∃ d2, bothStep d d2 ∧ d2.WF ∧ d2.rom = d.rom ∧ d2.ram.length = d.ram.length ∧
      d2.Shows (execMirror d.ram.length i s) := by
  have hb : i.isBase := by cases i <;> first | trivial | exact hi
  obtain ⟨d2, h1, h2, h3, h4, h5, dl, h6, h7, h8, h9⟩ := exact_core d s i dbg hw hs hf hb
  obtain ⟨dl', i', a', b', v', r, o, ro, po, hl, c⟩ := Debug.step_inv h1
  have e : dl' = dl := Option.some.inj (hl.symm.trans h6)
  subst e
  have sup : Supported dl' := by
    refine ⟨fun hlb => ?_, ?_, ?_⟩
    · rw [h7] at hlb
      have : expectedRd i = .LB := rdUpdate_inj _ _ hlb
      exfalso
      cases i with
      | load o rd rs1 imm => cases o <;> first | exact hi | cases this
      | opImm o _ _ _ => cases o <;> cases this
      | shImm o _ _ _ => cases o <;> cases this
      | op o _ _ _ => cases o <;> cases this
      | mul o _ _ _ => cases o <;> cases this
      | _ => cases this
    · rw [h7]
      cases i with
      | jal rd imm => exact jump20 (.jal rd imm) s hi
      | jalr rd rs1 imm => exact jump20 (.jalr rd rs1 imm) s trivial
      | branch o rs1 rs2 imm => exact jump20 (.branch o rs1 rs2 imm) s trivial
      | _ => left; rfl
    · left; rw [h8]; exact ⟨k, hk⟩
  exact ⟨d2, ⟨(c.supported sup).eq, h1, dl', h6, sup⟩, h2, h3, h4, h5⟩

theorem both_chain (n : Nat) (d : Debug) (s s' : Arch) (k : Nat) (fetch : Word → Option Instr) (dbg : Bool)
    (hw : d.WF) (hs : d.Shows s) (hk : d.ram.length = 2 ^ k)
    (hf : ∀ pc i, fetch pc = some i → i.plainBase ∧ (d.rom[pc.toNat / 4]?) = decodeWord dbg (encode i))
    (h : RunsWith fetch (execMirror d.ram.length) n s s') :
    ∃ d2, Chain bothStep n d d2 ∧ d2.ram.length = d.ram.length ∧ d2.Shows s' := by
  induction n generalizing d s with
  | zero => cases h; exact ⟨d, .zero d, rfl, hs⟩
  | succ n ih =>
    cases h with
    | succ h1 h3 =>
      rw [← hs.pcEq] at h1
      obtain ⟨d1, e1, w1, r1, l1, s1⟩ := both_exact d s _ dbg k hw hs (hf _ _ h1).2 hk (hf _ _ h1).1
      obtain ⟨d2, e2, l2, s2⟩ := ih d1 _ w1 s1 (by rw [l1, hk]) (by rw [r1]; exact hf) (by rw [l1]; exact h3)
      exact ⟨d2, .succ e1 e2, l2.trans l1, s2⟩

/-- With the debug comparison or without: a program without LB and without long jumps, which stays inside its text
section, runs to the end, and the output tape is that of the machine `execMirror`. -/
theorem C70_debug (F : Fhe) (rand : Nat → Nat → Nat → F.C.Rand) (chk dbg phantomDebug : Bool) (threads n : Nat) (e : Elf)
    (p : Phantom) (tape bytes : List Byte) (ev : EncVM F.B) (fetch : Word → Option Instr) (s' : Arch)
    (hp : Phantom.fromElf e = some p) (ht : 0 < threads) (hn : n < 2 ^ 32)
    (hev : p.encryptedVm F.C rand dbg phantomDebug threads tape n = some ev)
    (hin : Placed p.bootRam.data (p.input.startAddr - p.bootRam.offset) tape bytes)
    (hf : ∀ pc i, fetch pc = some i → i.plainBase ∧ InstrAt p.bootRom.data (4 * (pc.toNat / 4)) i)
    (hrun : RunsWith fetch (execMirror 1024) n (startState bytes) s')
    (hoff : p.bootRam.offset < 2 ^ 32) (hb : p.bootRam.offset ≤ p.output.startAddr)
    (he : p.output.startAddr + p.output.size ≤ p.bootRam.offset + 4096) :
    ∃ ev2, ev.execute F.C F.decU F.decP = some ev2 ∧
      ev2.outputTape F.C chk = some (ramBytes s' (p.output.startAddr - p.bootRam.offset) p.output.size) := by
  obtain ⟨d, hw, hs, hl, hr, hc, ho, hro, hmc, hmir, hrom, -⟩ :=
    encrypted_start F rand dbg phantomDebug threads n e p tape bytes ev hp ht hev hin
  obtain ⟨d', hch, l2, s2⟩ := both_chain n d (startState bytes) s' 10 fetch dbg hw hs hl
    (fun pc i h => ⟨(hf pc i h).1, hrom _ _ (hf pc i h).2⟩) (by rw [hl]; exact hrun)
  have hcount : ev.interp.cycle.toNat + n < 2 ^ 32 := by rw [hc]; simpa using hn
  have hfin : ∃ ev2, ev.execute F.C F.decU F.decP = some ev2 ∧ F.Runs ev2.interp d' ∧ ev2.output = ev.output ∧
      ev2.ramOffset = ev.ramOffset := by
    unfold EncVM.execute
    rw [hmc]
    cases phantomDebug with
    | false =>
      obtain ⟨i, e1, r1, -⟩ := hr.run n hch.cycles hcount
      exact ⟨_, cycles_none n ev i hmir e1, r1, rfl, rfl⟩
    | true =>
      obtain ⟨i, e1, r1⟩ := cycles_debug hch ev hmir hr hcount
      exact ⟨_, e1, r1, rfl, rfl⟩
  obtain ⟨ev2, e2, r2, o2, off2⟩ := hfin
  refine ⟨ev2, e2, ?_⟩
  have hdec : ev2.interp.decryptRam F.C (List.replicate (2 ^ 10) 0#32) = some d'.ram :=
    (C29_observe F ev2.interp d' r2).2.1 _ (by rw [List.length_replicate, l2, hl])
  exact output_bytes F chk ev2 d'.ram s' p hdec (l2.trans hl) s2.mem (o2.trans ho) (off2.trans hro) hoff hb he

/-- The test VM with the tape in place. -/
theorem test_start {chk : Bool} {n : Nat} {e : Elf} {p : Phantom} {tape bytes : List Byte} {vm0 vm1 : TestVM}
    (hfile : e.bytes.length < 2 ^ 63) (hp : Phantom.fromElf e = some p) (hbase : p.bootRam.offset = ramBase)
    (hvm : p.testVm chk n = some vm0) (hrd : vm0.readInputTape chk tape = some vm1)
    (hin : Placed p.bootRam.data (p.input.startAddr - ramBase) tape bytes) (hlo : ramBase ≤ p.input.startAddr)
    (hlen : tape.length = p.input.size) :
    vm1 = { registers := List.replicate 32 0#32, rom := ⟨p.bootRom.data, 0, p.bootRom.size⟩
            ram := ⟨bytes, ramBase, 4096⟩, pc := 0#32, input := p.input
            output := p.output, maxCycles := n } ∧ vm1.WF ∧ vm1.Shows (startState bytes) := by
  obtain ⟨z1, z2, -⟩ := C39_zero e p hp
  obtain ⟨bytes', hcp⟩ : ∃ b, copyInto p.bootRam.data p.bootRam.offset p.input.startAddr tape = some b := by
    unfold copyInto
    rw [hbase, if_pos ⟨hlo, hin.1⟩]
    exact ⟨_, rfl⟩
  have hbb : bytes' = bytes := placed_unique (placed_copyInto hcp).2 (by rw [hbase]; exact hin)
  subst hbb
  have hvm1 := testVm_ready hfile hp hbase hlen hcp hvm hrd
  have hbl : bytes'.length = 4096 := hin.2.1.trans z2
  refine ⟨hvm1, ?_, ?_⟩
  · rw [hvm1]
    exact ⟨by simp, hbl, by simp, by simp [ramBase]⟩
  · rw [hvm1]
    refine ⟨rfl, fun r => ?_, fun k hk => ?_⟩
    · rw [startState_x]
      show (List.replicate 32 0#32)[r.toNat]? = _
      rw [List.getElem?_replicate, if_pos r.isLt]
    · have hk : k < 4096 := hk
      show bytes'[k]? = some ((startState bytes').mem (BitVec.ofNat 32 (ramBase + k)))
      rw [startState_mem _ _ (by unfold ramBase; omega), List.getD_eq_getElem?_getD,
        List.getElem?_eq_getElem (by omega)]
      rfl

/-- What it returns. -/
theorem test_output {chk : Bool} {vm : TestVM} {s : Arch} {p : Phantom} (hs : vm.Shows s) (hout : vm.output = p.output)
    (hoff : vm.ram.offset = ramBase) (hsz : vm.ram.size = 4096)
    (hb : ramBase ≤ p.output.startAddr) (he : p.output.startAddr + p.output.size ≤ ramBase + 4096) :
    vm.outputTape chk = some (ramBytes s (p.output.startAddr - ramBase) p.output.size) := by
  unfold TestVM.outputTape ramBytes
  rw [hout]
  apply collect_map_some
  intro i hi
  have hi := List.mem_range.mp hi
  have hR : ramBase = 262144 := rfl
  unfold usizeAdd TMem.readByte usizeSub TMem.get
  have := hs.mem (p.output.startAddr + i - ramBase) (by omega)
  rw [if_pos (by omega), Option.bind_some, hoff, if_pos (by omega), Option.bind_some, if_neg (by omega), hsz,
    Nat.mod_eq_of_lt (by omega), this, hoff]
  exact congrArg (fun k => some (s.mem (BitVec.ofNat 32 k))) (by omega)

/-- The test VM: while no instruction is one that stops it and accesses stay in the RAM, it follows the manual. -/
theorem C70_testvm (chk : Bool) (n : Nat) (e : Elf) (p : Phantom) (tape bytes : List Byte) (vm0 vm1 : TestVM)
    (fetch : Word → Option Instr) (s' : Arch)
    (hfile : e.bytes.length < 2 ^ 63) (hp : Phantom.fromElf e = some p) (hbase : p.bootRam.offset = ramBase)
    (hvm : p.testVm chk n = some vm0) (hrd : vm0.readInputTape chk tape = some vm1)
    (hin : Placed p.bootRam.data (p.input.startAddr - ramBase) tape bytes) (hlo : ramBase ≤ p.input.startAddr)
    (hlen : tape.length = p.input.size) (h4 : p.bootRom.data.length % 4 = 0)
    (hf : ∀ pc i, fetch pc = some i → pc.toNat % 4 = 0 ∧ InstrAt p.bootRom.data pc.toNat i)
    (hrun : Runs fetch (fun i s => ¬ stuck i s chk ramBase ∧ i.inWindow s ramBase 4096) n (startState bytes) s')
    (hb : ramBase ≤ p.output.startAddr) (he : p.output.startAddr + p.output.size ≤ ramBase + 4096) :
    ∃ vm2, vm1.execute chk = some vm2 ∧
      vm2.outputTape chk = some (ramBytes s' (p.output.startAddr - ramBase) p.output.size) := by
  obtain ⟨_, txt, _, -, -, -, -, -, r1, r2, r3, -⟩ := C39_rom e p hp
  obtain ⟨hvm1, hw, hs⟩ := test_start hfile hp hbase hvm hrd hin hlo hlen
  obtain ⟨vm2, e1, w2, f2, s2⟩ := C36_runs chk vm1 n (startState bytes) s' fetch hw hs
    (fun pc i h => by
      obtain ⟨ha, hi⟩ := hf pc i h
      have hroml := packWords_length p.bootRom.data h4
      have hlt := (List.getElem?_eq_some_iff.mp (hi 3 (by decide))).1
      rw [hvm1, readWord_words chk (packWords p.bootRom.data) _ _ (wordBytes_packWords _ h4).symm rfl
        (show p.bootRom.size = _ by omega) ha (show _ ≤ p.bootRom.size by omega) pc.isLt]
      exact packWords_instr h4 (by rw [show 4 * (pc.toNat / 4) = pc.toNat by omega]; exact hi))
    (by rw [hvm1]; exact hrun)
  have hmc : vm1.maxCycles = n := by rw [hvm1]
  refine ⟨vm2, by unfold TestVM.execute; rw [hmc]; exact e1, ?_⟩
  have fout : vm2.output = p.output := by
    have := congrArg (·.2.2.1) f2
    rw [hvm1] at this; exact this
  have foff : vm2.ram.offset = ramBase := by
    have := congrArg (·.2.2.2.2.1) f2
    rw [hvm1] at this; exact this
  have fsz : vm2.ram.size = 4096 := by
    have := congrArg (·.2.2.2.2.2) f2
    rw [hvm1] at this; exact this
  exact test_output s2 fout foff fsz hb he

end Verif.Props
