import Verif.Props.Loader
/-
  C41 for the encrypted VM, and C42: the encrypted VM and the test VM produce the same output tape.
-/
namespace Verif.Props
open Model Spec

section setup
variable {B : Backend} {C : Cipher B} {rand : Nat → Nat → Nat → C.Rand}

theorem alloc_some (B : Backend) (size : Nat) (h : 0 < size) :
    ∃ m, Memory.alloc B 32 size = some m ∧ m.bits.length = 32 ∧ m.size = size := by
  unfold Memory.alloc
  rw [if_neg (by omega)]
  exact ⟨_, rfl, by simp, rfl⟩

theorem encrypt_some (m : Memory B) (r : Nat → Nat → C.Rand) (data : List Word) (hb : m.bits.length = 32)
    (hl : data.length ≤ m.size) : ∃ m', m.encrypt C r data = some m' := by
  unfold Memory.encrypt
  rw [hb, if_neg (by decide), if_pos (by omega)]
  exact ⟨_, rfl⟩

/-- Building the interpreter never panics when the memories are not empty and large enough. -/
theorem load_total (dbg : Bool) (romSize ramSize threads : Nat) (p : Parser) (ds : List Decoded) (data : List Word)
    (hd : decodeProgram dbg p = some ds) (h1 : 0 < romSize) (h2 : 0 < ramSize) (h3 : ds.length ≤ romSize)
    (h4 : data.length ≤ ramSize) :
    ∃ vm, Interp.load C rand dbg romSize ramSize threads p data = some vm := by
  obtain ⟨rom, a1, b1, c1⟩ := alloc_some B romSize h1
  obtain ⟨regs, a2, -, -⟩ := alloc_some B 32 (by decide)
  obtain ⟨ram, a3, b3, c3⟩ := alloc_some B ramSize h2
  have col (i : Nat) (f : Decoded → Word) : ∃ m', rom.encrypt C (rand i)
      ((List.range romSize).map fun i => (ds[i]?).elim 0#32 f) = some m' :=
    encrypt_some _ _ _ b1 (by simp [c1])
  obtain ⟨m0, e0⟩ := col 0 Decoded.rs1
  obtain ⟨m1, e1⟩ := col 1 Decoded.rs2
  obtain ⟨m2, e2⟩ := col 2 Decoded.rd
  obtain ⟨m3, e3⟩ := col 3 Decoded.imm
  obtain ⟨m4, e4⟩ := col 4 Decoded.rdu
  obtain ⟨m5, e5⟩ := col 5 Decoded.mu
  obtain ⟨m6, e6⟩ := col 6 Decoded.pcu
  obtain ⟨m7, e7⟩ := encrypt_some (C := C) ram (rand 7) data b3 (by omega)
  unfold Interp.load Interp.new
  rw [a1, a2, a3]
  simp only [Option.bind_some, Option.map_some]
  unfold Interp.encryptInstructions
  rw [← length_decodeProgram dbg p ds hd] at *
  simp only [Nat.not_lt.mpr h3, if_false, hd, Option.bind_some, e0, e1, e2, e3, e4, e5, e6, Option.map_some]
  unfold Interp.encryptRam
  simp only [c3, h4, if_true, e7, Option.map_some]
  exact ⟨_, rfl⟩

theorem encryptedVm_inv {dbg phantomDebug : Bool} {threads : Nat} {p : Phantom} {tape : List Byte} {n : Nat}
    {ev : EncVM B} (h : p.encryptedVm C rand dbg phantomDebug threads tape n = some ev) :
    p.bootRom.data.length % 4 = 0 ∧ tape.length = p.input.size ∧ ∃ parser ds bytes,
      Parser.new.addAll dbg (packWords p.bootRom.data) = some parser ∧
      decodeProgram dbg parser = some ds ∧ (packWords p.bootRom.data).map (decodeWord dbg) = ds.map some ∧
      copyInto p.bootRam.data p.bootRam.offset p.input.startAddr tape = some bytes ∧
      Interp.load C rand dbg (p.bootRom.size / 4) (p.bootRam.size / 4) threads parser (packWords bytes)
        = some ev.interp ∧
      ev.output = p.output ∧ ev.ramOffset = p.bootRam.offset ∧ ev.maxCycles = n ∧
      (ev.mirror = if phantomDebug then
        some (Debug.image (p.bootRom.size / 4) (p.bootRam.size / 4) ds (packWords bytes)) else none) := by
  unfold Phantom.encryptedVm at h
  split at h
  · next h4 =>
    obtain ⟨parser, hp, h⟩ := Option.bind_eq_some_iff.mp h
    split at h
    · next hl =>
      obtain ⟨bytes, hb, h⟩ := Option.bind_eq_some_iff.mp h
      obtain ⟨vm, hv, h⟩ := Option.bind_eq_some_iff.mp h
      obtain ⟨ds, hd, hds⟩ := decodeProgram_words dbg _ parser hp
      refine ⟨h4, hl, parser, ds, bytes, hp, hd, hds, hb, ?_⟩
      cases phantomDebug with
      | false => cases h; exact ⟨hv, rfl, rfl, rfl, rfl⟩
      | true =>
        simp only [if_true] at h
        obtain ⟨d, h1, h⟩ := Option.bind_eq_some_iff.mp h
        obtain ⟨d2, h2, h⟩ := Option.map_eq_some_iff.mp h
        cases h
        refine ⟨hv, rfl, rfl, rfl, ?_⟩
        have l1 : p.bootRom.size / 4 = ds.length := by
          unfold Debug.setInstructions at h1
          split at h1
          · next hc =>
            rw [length_decodeProgram dbg parser ds hd, ← hc]; simp [Debug.new]
          · cases h1
        have l2 : p.bootRam.size / 4 = (packWords bytes).length := by
          have hdr : d.ram = List.replicate (p.bootRam.size / 4) 0#32 := by
            unfold Debug.setInstructions at h1
            split at h1
            · obtain ⟨x, -, rfl⟩ := Option.map_eq_some_iff.mp h1; rfl
            · cases h1
          unfold Debug.setRam at h2
          split at h2
          · next hc => rw [← hc, hdr]; simp
          · cases h2
        have hm := C29_start_mirror dbg parser ds (packWords bytes) hd
        rw [← l1, ← l2, h1, Option.bind_some, h2] at hm
        exact hm
    · cases h
  · cases h

end setup

/-- Encrypted VM, input: after set-up the encrypted RAM decrypts to the boot image with the tape at the
declared address. -/
theorem C41_encrypted_input (F : Fhe) (rand : Nat → Nat → Nat → F.C.Rand) (dbg phantomDebug : Bool)
    (threads n : Nat) (p : Phantom) (tape : List Byte) (ev : EncVM F.B) (ht : 0 < threads)
    (hs : p.bootRam.size = p.bootRam.data.length) (h4 : p.bootRam.size % 4 = 0)
    (h : p.encryptedVm F.C rand dbg phantomDebug threads tape n = some ev) :
    tape.length = p.input.size ∧ p.bootRam.offset ≤ p.input.startAddr ∧
    ∃ ram, ev.interp.decryptRam F.C (List.replicate (p.bootRam.size / 4) 0#32) = some ram ∧
      Placed p.bootRam.data (p.input.startAddr - p.bootRam.offset) tape (wordBytes ram) := by
  obtain ⟨-, hl, parser, ds, bytes, -, hd, -, hb, hv, -⟩ := encryptedVm_inv h
  obtain ⟨hlo, hpl⟩ := placed_copyInto hb
  have hbl : bytes.length % 4 = 0 := by rw [hpl.2.1, ← hs]; exact h4
  have hpk := packWords_length bytes hbl
  have hlen : (packWords bytes).length = p.bootRam.size / 4 := by
    have := hpl.2.1; omega
  obtain ⟨hr, -⟩ := C29_start F rand dbg _ _ threads parser _ ev.interp ds ht hd hv
  have hi : (Debug.image (p.bootRom.size / 4) (p.bootRam.size / 4) ds (packWords bytes)).ram = packWords bytes := by
    simp [Debug.image, hlen]
  refine ⟨hl, hlo, packWords bytes, ?_, by rw [wordBytes_packWords bytes hbl]; exact hpl⟩
  have := (C29_observe F ev.interp _ hr).2.1 (List.replicate (p.bootRam.size / 4) 0#32) (by rw [hi]; simp [hlen])
  rw [this, hi]

/-- Encrypted VM, output: the declared range of the decrypted RAM. -/
theorem C41_encrypted_output (F : Fhe) (chk : Bool) (ev : EncVM F.B) (ram : List Word) (out : List Byte)
    (hr : ev.interp.decryptRam F.C (List.replicate 1024 0#32) = some ram) (hl : ram.length = 1024)
    (hoff : ev.ramOffset < 2 ^ 32) (hb : ev.ramOffset ≤ ev.output.startAddr)
    (he : ev.output.startAddr + ev.output.size ≤ ev.ramOffset + 4096)
    (h : ev.outputTape F.C chk = some out) :
    Range (wordBytes ram) (ev.output.startAddr - ev.ramOffset) ev.output.size out := by
  unfold EncVM.outputTape at h
  rw [show RAM_SIZE / 4 = 1024 from rfl, hr, Option.bind_some] at h
  obtain ⟨h1, h2⟩ := collect_range _ _ _ h
  have hw := wordBytes_length ram
  refine ⟨by omega, h1, fun i hi => ?_⟩
  rw [h2 i hi]
  unfold usizeAdd usizeSub RAM_SIZE
  rw [if_pos (by omega), Option.bind_some, if_pos (by omega), Option.bind_some, unpackWords_eq,
    Nat.mod_eq_of_lt (by omega)]
  exact congrArg (fun k => (wordBytes ram)[k]?) (by omega)

/-! ### C38: the restriction to supported steps is needed -/

/-- The claim without it. -/
def AlwaysAgree : Prop :=
  ∀ (chk dbg : Bool) (vm vm' : TestVM) (d : Debug), vm.WF → vm.registers[0]? = some 0#32 → Agree vm d →
    SameProgram chk dbg vm.rom d.rom → vm.Executes chk (fun _ _ => True) → vm.run chk = some vm' →
    ∃ d', d.step = some d' ∧ Agree vm' d'

/-- `lbu x1, 1(x2)`, as in `exMirror`. -/
def exByte : TestVM :=
  { registers := [0, 0, 0x40000] ++ List.replicate 29 0
    rom := ⟨wordBytes [encode (.load .lbu 1 2 1)], 0, 4⟩
    ram := ⟨wordBytes [0x0000BBAA#32], 0x40000, 4⟩
    pc := 0#32, input := ⟨0, 0⟩, output := ⟨0, 0⟩, maxCycles := 1 }

/-- The two VMs disagree on a byte load at an address that is not a multiple of four. -/
theorem C38_unsupported_differ : ¬ AlwaysAgree := by
  intro h
  have hx : ∃ vm', exByte.run true = some vm' ∧ vm'.registers[1]? = some 0xBB#32 := by
    refine ⟨(exByte.run true).getD exByte, ?_, ?_⟩ <;> decide +kernel
  obtain ⟨vm', h1, h2⟩ := hx
  obtain ⟨d', h3, h4⟩ := h true true exByte vm' exMirror
    ⟨by decide, by decide, by decide, by decide⟩ rfl
    ⟨rfl, rfl, by decide +kernel, rfl⟩
    (sameProgram_words true true [encode (.load .lbu 1 2 1)] _ _ rfl rfl rfl (by
      intro k w hk
      have hk0 : k = 0 := by
        have := (List.getElem?_eq_some_iff.mp hk).1
        simpa using this
      subst hk0
      have : w = encode (.load .lbu 1 2 1) := (Option.some.inj hk).symm
      subst this
      decide +kernel))
    ⟨by decide, fun s hs => ⟨.load .lbu 1 2 1, by decide +kernel, trivial⟩⟩ h1
  have h5 : exMirror.step.bind (fun d => d.registers[1]?) = some 0xAA#32 := by decide +kernel
  rw [h3, Option.bind_some, h4.regs, h2] at h5
  exact absurd h5 (by decide)

/-! ### C42 -/

theorem cycles_none {B : Backend} {C : Cipher B} {decU : B.Uint → U32} {decP : B.Prep → U32} (n : Nat) :
    ∀ (ev : EncVM B) (i : Interp B), ev.mirror = none → Interp.run n ev.interp = some i →
    EncVM.cycles C decU decP n ev = some { ev with interp := i } := by
  induction n with
  | zero => intro ev i hm h; cases h; rfl
  | succ n ih =>
    intro ev i hm h
    obtain ⟨i1, h1, h2⟩ := Option.bind_eq_some_iff.mp h
    show (EncVM.cycle C decU decP ev).bind _ = _
    have e : EncVM.cycle C decU decP ev = some { ev with interp := i1 } := by
      unfold EncVM.cycle
      simp only [hm, h1, Option.map_some]
    rw [e, Option.bind_some]
    exact ih { ev with interp := i1 } i hm h2

theorem cycles_debug {F : Fhe} {n : Nat} {d d' : Debug} (hc : Chain bothStep n d d') : ∀ (ev : EncVM F.B),
    ev.mirror = some d → F.Runs ev.interp d → ev.interp.cycle.toNat + n < 2 ^ 32 →
    ∃ i, EncVM.cycles F.C F.decU F.decP n ev = some { ev with interp := i, mirror := some d' } ∧ F.Runs i d' := by
  induction hc with
  | zero d =>
    intro ev hm hr _
    refine ⟨ev.interp, ?_, hr⟩
    rw [← hm]; rfl
  | @succ n d d1 d2 h _ ih =>
    intro ev hm hr hn
    obtain ⟨-, hs, dl, hl, sup⟩ := h
    have hne : ev.interp.cycle ≠ 0xFFFFFFFF#32 := by
      intro hc; rw [hc] at hn; simp at hn; omega
    obtain ⟨i1, e1, r1⟩ := C52_debug_passes F ev.interp d dl d1 hr hs hl sup hne
    have hcy : i1.cycle = ev.interp.cycle + 1#32 := by
      unfold cycleDebug at e1
      obtain ⟨t, -, e1⟩ := Option.bind_eq_some_iff.mp e1
      obtain ⟨_, -, e1⟩ := Option.bind_eq_some_iff.mp e1
      obtain ⟨_, -, e1⟩ := Option.bind_eq_some_iff.mp e1
      split at e1
      · have := congrArg Prod.fst (Option.some.inj e1)
        have h2 : i1 = ev.interp.next t := this.symm
        rw [h2]; rfl
      · cases e1
    have e : EncVM.cycle F.C F.decU F.decP ev = some { ev with interp := i1, mirror := some d1 } := by
      unfold EncVM.cycle
      simp only [hm, e1, Option.map_some]
    obtain ⟨i2, e2, r2⟩ := ih { ev with interp := i1, mirror := some d1 } rfl r1 (by
      show i1.cycle.toNat + n < 2 ^ 32
      rw [hcy, BitVec.toNat_add, Nat.mod_eq_of_lt] <;> simp <;> omega)
    exact ⟨i2, by show (EncVM.cycle F.C F.decU F.decP ev).bind _ = _; rw [e, Option.bind_some, e2], r2⟩

/-- The test VM after set-up: registers and program counter zero, the RAM image with the tape copied in. -/
theorem testVm_ready {chk : Bool} {n : Nat} {e : Elf} {p : Phantom} {tape bytes : List Byte} {vm0 vm1 : TestVM}
    (hfile : e.bytes.length < 2 ^ 63) (hp : Phantom.fromElf e = some p) (hbase : p.bootRam.offset = ramBase)
    (hl : tape.length = p.input.size)
    (hb : copyInto p.bootRam.data p.bootRam.offset p.input.startAddr tape = some bytes)
    (hvm : p.testVm chk n = some vm0) (hin : vm0.readInputTape chk tape = some vm1) :
    vm1 = { registers := List.replicate 32 0#32, rom := ⟨p.bootRom.data, 0, p.bootRom.size⟩
            ram := ⟨bytes, ramBase, 4096⟩, pc := 0#32, input := p.input
            output := p.output, maxCycles := n } := by
  obtain ⟨z1, z2, -⟩ := C39_zero e p hp
  obtain ⟨_, txt, _, -, -, -, -, -, r1, r2, r3, -⟩ := C39_rom e p hp
  have hromlt : p.bootRom.size < 2 ^ 63 := by
    obtain ⟨txt', -, -, -, hsl, -, hsz, -⟩ := fromElf_inv hp
    have := (slice_get hsl).1
    omega
  have hvm0 : vm0 = { registers := List.replicate 32 0#32, rom := ⟨p.bootRom.data, 0, p.bootRom.size⟩
                      ram := ⟨p.bootRam.data, ramBase, 4096⟩, pc := 0#32, input := p.input
                      output := p.output, maxCycles := n } := by
    have key (b : BootMemory) (hs : b.size = b.data.length) (hlt : b.size < 2 ^ 63) :
        (TMem.new b.offset b.size).loadMemory chk b.offset b.data = some ⟨b.data, b.offset, b.size⟩ := by
      unfold TMem.loadMemory TMem.new usizeSub usizeAdd
      simp only [Nat.le_refl, if_true, Nat.sub_self, Option.bind_some, Nat.zero_add]
      rw [if_pos (by omega), Option.bind_some, if_pos ⟨by omega, by simp; omega⟩]
      simp [hs]
    unfold Phantom.testVm TestVM.init at hvm
    rw [key _ (r2.trans r3.symm) hromlt, key _ (z1.trans z2.symm) (by rw [z1]; decide), hbase, r1, z1] at hvm
    simpa using hvm.symm
  have := test_input_eq chk vm0 tape bytes (by rw [hvm0]; exact hl) (by rw [hvm0, z2]; decide)
    (by rw [hvm0]; rw [hbase] at hb; exact hb)
  rw [this] at hin
  rw [← Option.some.inj hin, hvm0]

/-- Both VMs start in agreeing states. -/
theorem setup_agree {chk dbg : Bool} {n : Nat} {e : Elf} {p : Phantom} {tape bytes : List Byte} {vm0 vm1 : TestVM}
    {ds : List Decoded}
    (hfile : e.bytes.length < 2 ^ 63) (hp : Phantom.fromElf e = some p) (hbase : p.bootRam.offset = ramBase)
    (hl : tape.length = p.input.size) (h4 : p.bootRom.data.length % 4 = 0)
    (hds : (packWords p.bootRom.data).map (decodeWord dbg) = ds.map some)
    (hb : copyInto p.bootRam.data p.bootRam.offset p.input.startAddr tape = some bytes)
    (hvm : p.testVm chk n = some vm0) (hin : vm0.readInputTape chk tape = some vm1) :
    vm1.WF ∧ Agree vm1 (Debug.image (p.bootRom.size / 4) (p.bootRam.size / 4) ds (packWords bytes)) ∧
    SameProgram chk dbg vm1.rom (Debug.image (p.bootRom.size / 4) (p.bootRam.size / 4) ds (packWords bytes)).rom ∧
    (Debug.image (p.bootRom.size / 4) (p.bootRam.size / 4) ds (packWords bytes)).ram.length = 2 ^ 10 := by
  obtain ⟨z1, z2, -⟩ := C39_zero e p hp
  obtain ⟨_, txt, _, -, -, -, -, -, r1, r2, r3, -⟩ := C39_rom e p hp
  have hvm1 := testVm_ready hfile hp hbase hl hb hvm hin
  have c := copyInto_get hb
  have hbl : bytes.length = 4096 := c.2.2.1.trans z2
  have hpk := packWords_length bytes (by rw [hbl])
  have hw : vm1.WF := by
    rw [hvm1]
    exact ⟨by simp, hbl, by simp, by simp [ramBase]⟩
  have hlen : (packWords bytes).length = p.bootRam.size / 4 := by omega
  have hram : (Debug.image (p.bootRom.size / 4) (p.bootRam.size / 4) ds (packWords bytes)).ram = packWords bytes := by
    simp [Debug.image, hlen]
  have ha : Agree vm1 (Debug.image (p.bootRom.size / 4) (p.bootRam.size / 4) ds (packWords bytes)) := by
    refine ⟨by rw [hvm1]; rfl, by rw [hvm1]; rfl, ?_, by rw [hvm1]⟩
    rw [hram, wordBytes_packWords bytes (by rw [hbl]), hvm1]
  have hromw := wordBytes_packWords p.bootRom.data h4
  have hroml := packWords_length p.bootRom.data h4
  refine ⟨hw, ha, ?_, by rw [hram]; omega⟩
  rw [hvm1]
  refine sameProgram_words chk dbg (packWords p.bootRom.data) _ _ hromw.symm rfl ?_ fun k w hk => ?_
  · show p.bootRom.size = _
    omega
  · have h1 := congrArg (·[k]?) hds
    simp only [List.getElem?_map, hk, Option.map_some] at h1
    have h2 : k < ds.length := by
      cases hdk : ds[k]? with
      | none => rw [hdk] at h1; cases h1
      | some x => exact (List.getElem?_eq_some_iff.mp hdk).1
    show (ds ++ _)[k]? = _
    rw [List.getElem?_append_left h2]
    rw [List.getElem?_eq_getElem h2] at h1 ⊢
    exact (Option.some.inj h1).symm

/-- Whatever the program, input tape and number of cycles: when the test VM completes, staying inside
the program and within what the encrypted VM supports, the encrypted VM completes as well, with or
without the debug comparison and under any correct library, and returns the same output tape (or both
panic while extracting it). -/
theorem C42_output (F : Fhe) (rand : Nat → Nat → Nat → F.C.Rand) (chk dbg phantomDebug : Bool)
    (threads n : Nat) (e : Elf) (p : Phantom) (tape : List Byte) (ev : EncVM F.B) (vm0 vm1 vm2 : TestVM)
    (hfile : e.bytes.length < 2 ^ 63) (hp : Phantom.fromElf e = some p) (hbase : p.bootRam.offset = ramBase)
    (ht : 0 < threads) (hn : n < 2 ^ 32)
    (hev : p.encryptedVm F.C rand dbg phantomDebug threads tape n = some ev)
    (hvm : p.testVm chk n = some vm0) (hin : vm0.readInputTape chk tape = some vm1)
    (hex : ∀ k v, k < n → vm1.steps chk k = some v → v.Executes chk (encOk 4096))
    (hrun : vm1.execute chk = some vm2) :
    ∃ ev2, ev.execute F.C F.decU F.decP = some ev2 ∧ ev2.outputTape F.C chk = vm2.outputTape chk := by
  obtain ⟨h4, hl, parser, ds, bytes, hpa, hd, hds, hb, hv, ho, hro, hmc, hmir⟩ := encryptedVm_inv hev
  have hvm1 := testVm_ready hfile hp hbase hl hb hvm hin
  obtain ⟨hw, ha, hsp, hrl⟩ := setup_agree (chk := chk) (dbg := dbg) hfile hp hbase hl h4 hds hb hvm hin
  have hsteps : vm1.steps chk n = some vm2 := by
    have : vm1.maxCycles = n := by rw [hvm1]
    rw [← this]; exact hrun
  obtain ⟨d', hch, a', w', f', l'⟩ := agree_both chk dbg n 10 vm1 vm2 _ hw (by rw [hvm1]; rfl) ha hsp hrl hex hsteps
  obtain ⟨hruns, hcy⟩ := C29_start F rand dbg _ _ threads parser _ ev.interp ds ht hd hv
  have hcount : ev.interp.cycle.toNat + n < 2 ^ 32 := by rw [hcy]; simpa using hn
  -- the encrypted VM after execution
  have hfin : ∃ ev2, ev.execute F.C F.decU F.decP = some ev2 ∧ F.Runs ev2.interp d' ∧ ev2.output = ev.output ∧
      ev2.ramOffset = ev.ramOffset := by
    unfold EncVM.execute
    rw [hmc]
    cases phantomDebug with
    | false =>
      obtain ⟨i, e1, r1, -⟩ := hruns.run n hch.cycles hcount
      exact ⟨_, cycles_none n ev i hmir e1, r1, rfl, rfl⟩
    | true =>
      obtain ⟨i, e1, r1⟩ := cycles_debug hch ev hmir hruns hcount
      exact ⟨_, e1, r1, rfl, rfl⟩
  obtain ⟨ev2, e2, r2, o2, off2⟩ := hfin
  refine ⟨ev2, e2, ?_⟩
  have hdec : ev2.interp.decryptRam F.C (List.replicate (RAM_SIZE / 4) 0#32) = some d'.ram :=
    (C29_observe F ev2.interp d' r2).2.1 _ (by rw [List.length_replicate, l']; rfl)
  have fout : vm2.output = p.output := by
    have := congrArg (·.2.2.1) f'
    rw [hvm1] at this; exact this
  have foff : vm2.ram.offset = p.bootRam.offset := by
    have := congrArg (·.2.2.2.2.1) f'
    rw [hvm1] at this; exact this.trans hbase.symm
  have fsz : vm2.ram.size = 4096 := by
    have := congrArg (·.2.2.2.2.2) f'
    rw [hvm1] at this; exact this
  unfold EncVM.outputTape TestVM.outputTape
  rw [hdec, Option.bind_some, o2, off2, ho, hro, fout]
  apply collect_congr
  intro i _
  refine congrArg _ (funext fun a => ?_)
  unfold TMem.readByte
  rw [foff]
  refine congrArg _ (funext fun k => ?_)
  unfold TMem.get
  rw [fsz, if_neg (by decide), a'.ram, unpackWords_eq]
  rfl

/-- `C42_setup` for any library, correct or not. -/
theorem setup_total {B : Backend} (C : Cipher B) (rand : Nat → Nat → Nat → C.Rand) (dbg phantomDebug : Bool)
    (threads n : Nat) (e : Elf) (p : Phantom) (tape : List Byte) (parser : Parser)
    (hp : Phantom.fromElf e = some p) (h4 : p.bootRom.data.length % 4 = 0) (h0 : p.bootRom.data ≠ [])
    (hpa : Parser.new.addAll dbg (packWords p.bootRom.data) = some parser)
    (hl : tape.length = p.input.size) (hb : p.bootRam.offset ≤ p.input.startAddr)
    (he : p.input.startAddr + p.input.size ≤ p.bootRam.offset + 4096) :
    ∃ ev, p.encryptedVm C rand dbg phantomDebug threads tape n = some ev := by
  obtain ⟨z1, z2, -⟩ := C39_zero e p hp
  obtain ⟨_, txt, _, -, -, -, -, -, r1, r2, r3, -⟩ := C39_rom e p hp
  obtain ⟨ds, hd, hds⟩ := decodeProgram_words dbg _ parser hpa
  have hpk := packWords_length p.bootRom.data h4
  have hdl : ds.length = (packWords p.bootRom.data).length := by
    have := congrArg List.length hds
    simpa using this.symm
  have hne : 0 < p.bootRom.data.length := List.length_pos_iff.mpr h0
  obtain ⟨bytes, hbytes⟩ : ∃ bytes, copyInto p.bootRam.data p.bootRam.offset p.input.startAddr tape = some bytes := by
    unfold copyInto
    rw [if_pos ⟨hb, by omega⟩]
    exact ⟨_, rfl⟩
  have c := copyInto_get hbytes
  have hbl : bytes.length = 4096 := c.2.2.1.trans z2
  have hpb := packWords_length bytes (by rw [hbl])
  obtain ⟨vm, hv⟩ := load_total (C := C) (rand := rand) dbg (p.bootRom.size / 4) (p.bootRam.size / 4) threads
    parser ds (packWords bytes) hd (by omega) (by omega) (by omega) (by omega)
  unfold Phantom.encryptedVm
  rw [if_pos h4, hpa, Option.bind_some, if_pos hl, hbytes, Option.bind_some, hv, Option.bind_some]
  cases phantomDebug with
  | false => exact ⟨_, rfl⟩
  | true =>
    have hm := C29_start_mirror dbg parser ds (packWords bytes) hd
    have l1 : ds.length = p.bootRom.size / 4 := by omega
    have l2 : (packWords bytes).length = p.bootRam.size / 4 := by omega
    rw [l1, l2] at hm
    obtain ⟨d, h1, h2⟩ := Option.bind_eq_some_iff.mp hm
    rw [if_pos rfl, h1, Option.bind_some, h2]
    exact ⟨_, rfl⟩

/-- Setting up the encrypted VM never panics when the text section is a non-empty sequence of words the
parser accepts and the input section lies in the RAM. -/
theorem C42_setup (F : Fhe) (rand : Nat → Nat → Nat → F.C.Rand) (dbg phantomDebug : Bool)
    (threads n : Nat) (e : Elf) (p : Phantom) (tape : List Byte) (parser : Parser)
    (hp : Phantom.fromElf e = some p) (h4 : p.bootRom.data.length % 4 = 0) (h0 : p.bootRom.data ≠ [])
    (hpa : Parser.new.addAll dbg (packWords p.bootRom.data) = some parser)
    (hl : tape.length = p.input.size) (hb : p.bootRam.offset ≤ p.input.startAddr)
    (he : p.input.startAddr + p.input.size ≤ p.bootRam.offset + 4096) :
    ∃ ev, p.encryptedVm F.C rand dbg phantomDebug threads tape n = some ev :=
  setup_total F.C rand dbg phantomDebug threads n e p tape parser hp h4 h0 hpa hl hb he

/-! ### A complete run -/

/-- `lui x2,0x40; lw x1,0(x2); addi x1,x1,1; sw x1,4(x2); jal x0,0`, four input bytes at 0x40000 and
four output bytes after them. -/
def exElf3 : Elf :=
  { bytes := wordBytes [0x00040137#32, 0x00012083#32, 0x00108093#32, 0x00112223#32, 0x0000006F#32] ++ List.replicate 8 0#8
    segments := [⟨1, 5, 0, 0, 20, 20⟩, ⟨1, 6, 20, 0x40000, 8, 8⟩]
    sections := [(".inpdata", ⟨0x40000, 4⟩), (".outdata", ⟨0x40004, 4⟩)] }

def exTape : List Byte := [0xFE, 0xFF, 0, 0]

def exPhantom : Phantom :=
  (Phantom.fromElf exElf3).getD ⟨⟨[], 0, 0⟩, ⟨[], 0, 0⟩, ⟨0, 0⟩, ⟨0, 0⟩⟩

theorem ex_elf : Phantom.fromElf exElf3 = some exPhantom := by
  have : (Phantom.fromElf exElf3).isSome = true := by decide +kernel
  obtain ⟨x, hx⟩ := Option.isSome_iff_exists.mp this
  unfold exPhantom
  rw [hx]; rfl

/-- The test VM with the input tape. -/
def exStart : TestVM := ((exPhantom.testVm true 6).bind fun vm => vm.readInputTape true exTape).getD exVm

/-- What the steps below need to know about a state. -/
def exFacts (v : TestVM) : Word × Option Word × TMem × Nat × Nat × Bool :=
  (v.pc, v.registers[2]?, v.rom, v.ram.offset, v.ram.size, true)

theorem executes_plain {v : TestVM} {chk : Bool} (i : Instr) (hpc : v.pc.toNat + 4 ≤ v.rom.size)
    (hr : v.rom.readWord chk v.pc.toNat = some (encode i)) (ho : ∀ s, encOk 4096 i s) :
    v.Executes chk (encOk 4096) :=
  ⟨hpc, fun s _ => ⟨i, hr, ho s⟩⟩

theorem executes_access {v : TestVM} {chk : Bool} (i : Instr) (rs1 : Reg) (imm : BitVec 12) (x : Word)
    (hi : (∃ rd, i = .load .lw rd rs1 imm) ∨ ∃ rs2, i = .store .sw rs1 rs2 imm)
    (hpc : v.pc.toNat + 4 ≤ v.rom.size)
    (hr : v.rom.readWord chk v.pc.toNat = some (encode i)) (hx : v.registers[rs1.toNat]? = some x)
    (h4 : (x + immI imm).toNat % 4 = 0) : v.Executes chk (encOk 4096) := by
  refine ⟨hpc, fun s hs => ⟨i, hr, ?_⟩⟩
  have e : s.x rs1 = x := Option.some.inj ((hs.reg rs1).symm.trans hx)
  rcases hi with ⟨rd, rfl⟩ | ⟨rs2, rfl⟩
  · refine ⟨?_, trivial⟩
    show (s.x rs1 + immI imm).toNat % 4 = 0
    rw [e]; exact h4
  · refine ⟨?_, trivial⟩
    show (s.x rs1 + immI imm).toNat % 4 = 0
    rw [e]; exact h4

theorem ex_step (k : Nat) (v : TestVM) (pc : Word) (x : Option Word) (hv : exStart.steps true k = some v)
    (hf : (exStart.steps true k).map exFacts = some (pc, x, exStart.rom, 0x40000, 4096, true)) :
    v.pc = pc ∧ v.registers[2]? = x ∧ v.rom = exStart.rom ∧ v.ram.offset = 0x40000 ∧ v.ram.size = 4096 := by
  rw [hv, Option.map_some] at hf
  have h := Option.some.inj hf
  simp only [exFacts, Prod.mk.injEq] at h
  exact ⟨h.1, h.2.1, h.2.2.1, h.2.2.2.1, h.2.2.2.2.1⟩

theorem ex_executes (k : Nat) (v : TestVM) (hk : k < 6) (hv : exStart.steps true k = some v) :
    v.Executes true (encOk 4096) := by
  have : k = 0 ∨ k = 1 ∨ k = 2 ∨ k = 3 ∨ k = 4 ∨ k = 5 := by omega
  rcases this with rfl | rfl | rfl | rfl | rfl | rfl
  · obtain ⟨h1, h2, h3, h4, h5⟩ := ex_step 0 v 0#32 (some 0#32) hv (by decide +kernel)
    refine executes_plain (.lui 2 0x40) ?_ ?_ (fun _ => ⟨trivial, trivial⟩) <;> rw [h1, h3] <;> decide +kernel
  · obtain ⟨h1, h2, h3, h4, h5⟩ := ex_step 1 v 4#32 (some 0x40000#32) hv (by decide +kernel)
    refine executes_access (.load .lw 1 2 0) 2 0 0x40000#32 (Or.inl ⟨1, rfl⟩) ?_ ?_ h2 ?_ <;>
      first | (rw [h1, h3]; decide +kernel) | decide
  · obtain ⟨h1, h2, h3, h4, h5⟩ := ex_step 2 v 8#32 (some 0x40000#32) hv (by decide +kernel)
    refine executes_plain (.opImm .addi 1 1 1) ?_ ?_ (fun _ => ⟨trivial, trivial⟩) <;> rw [h1, h3] <;> decide +kernel
  · obtain ⟨h1, h2, h3, h4, h5⟩ := ex_step 3 v 12#32 (some 0x40000#32) hv (by decide +kernel)
    refine executes_access (.store .sw 2 1 4) 2 4 0x40000#32 (Or.inr ⟨1, rfl⟩) ?_ ?_ h2 ?_ <;>
      first | (rw [h1, h3]; decide +kernel) | decide
  · obtain ⟨h1, h2, h3, h4, h5⟩ := ex_step 4 v 16#32 (some 0x40000#32) hv (by decide +kernel)
    refine executes_plain (.jal 0 0) ?_ ?_ (fun _ => ⟨trivial, (by decide : -2 ^ 18 ≤ (0#20).toInt ∧ (0#20).toInt < 2 ^ 18)⟩) <;> rw [h1, h3] <;> decide +kernel
  · obtain ⟨h1, h2, h3, h4, h5⟩ := ex_step 5 v 16#32 (some 0x40000#32) hv (by decide +kernel)
    refine executes_plain (.jal 0 0) ?_ ?_ (fun _ => ⟨trivial, (by decide : -2 ^ 18 ≤ (0#20).toInt ∧ (0#20).toInt < 2 ^ 18)⟩) <;> rw [h1, h3] <;> decide +kernel

/-- The encrypted VM increments the 32-bit number on its input tape. -/
example (phantomDebug : Bool) : ∃ ev ev2,
    exPhantom.encryptedVm sampleFhe.C (fun _ _ _ => ()) true phantomDebug 3 exTape 6 = some ev ∧
    ev.execute sampleFhe.C sampleFhe.decU sampleFhe.decP = some ev2 ∧
    ev2.outputTape sampleFhe.C true = some [0xFF, 0xFF, 0, 0] := by
  have hpa : ∃ q, Parser.new.addAll true (packWords exPhantom.bootRom.data) = some q := by
    rw [← Option.isSome_iff_exists]; decide +kernel
  obtain ⟨q, hq⟩ := hpa
  obtain ⟨ev, hev⟩ := C42_setup sampleFhe (fun _ _ _ => ()) true phantomDebug 3 6 exElf3 exPhantom exTape q ex_elf
    (by decide +kernel) (by decide +kernel) hq (by decide +kernel) (by decide +kernel) (by decide +kernel)
  have h0 : ∃ vm0, exPhantom.testVm true 6 = some vm0 ∧ vm0.readInputTape true exTape = some exStart := by
    have : ((exPhantom.testVm true 6).bind fun vm => vm.readInputTape true exTape).isSome = true := by decide +kernel
    obtain ⟨x, hx⟩ := Option.isSome_iff_exists.mp this
    have hs : exStart = x := by unfold exStart; rw [hx]; rfl
    obtain ⟨vm0, h1, h2⟩ := Option.bind_eq_some_iff.mp hx
    exact ⟨vm0, h1, by rw [hs]; exact h2⟩
  obtain ⟨vm0, h1, h2⟩ := h0
  have h3 : ((exStart.execute true).bind fun vm => vm.outputTape true) = some [0xFF, 0xFF, 0, 0] := by decide +kernel
  obtain ⟨vm2, h4, h5⟩ := Option.bind_eq_some_iff.mp h3
  obtain ⟨ev2, e1, e2⟩ := C42_output sampleFhe (fun _ _ _ => ()) true true phantomDebug 3 6 exElf3 exPhantom exTape ev
    vm0 exStart vm2 (by decide +kernel) ex_elf (by decide +kernel) (by decide) (by decide) hev h1 h2
    (fun k v hk hv => ex_executes k v hk hv) h4
  exact ⟨ev, ev2, hev, e1, e2.trans h5⟩

end Verif.Props
