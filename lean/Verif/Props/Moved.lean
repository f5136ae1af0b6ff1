import Verif.Props.ChooseCycles
import Verif.Spec.Moved
/-
  Property C104: ELF files whose RAM does not begin at 0x40000.  The loader takes the beginning from the first segment
  (compiler/src/interpreter.rs:215-218) and so does the test VM (testvm.rs:192), while the encrypted VM subtracts a constant from every address
  (fhevm/src/ram_offset.rs:17-60, as the mirror does in fhevm/src/debug.rs:100).
-/
namespace Verif.Props
open Model Spec

/-! ### The byte that an access meets -/

/-- For every address: the test VM and the encrypted VM access the same byte of the RAM if and only if the RAM begins at a multiple of
4096. -/
theorem C104_byte (base : Nat) (a : Word) (ht : base + 4096 ≤ 2 ^ 32) :
    (ramByte base 4096 a).toNat - base = (ramByte ramBase 4096 a).toNat - ramBase ↔ base % 4096 = 0 := by
  have := a.isLt
  unfold ramByte ramBase
  rw [BitVec.toNat_ofNat, BitVec.toNat_ofNat]
  split <;> split <;> omega

theorem moved_add (base r : Nat) :
    BitVec.ofNat 32 (ramBase + r) - BitVec.ofNat 32 ramBase + BitVec.ofNat 32 base = BitVec.ofNat 32 (base + r) := by
  apply BitVec.eq_of_toNat_eq
  unfold ramBase
  simp only [BitVec.toNat_add, BitVec.toNat_sub, BitVec.toNat_ofNat]
  omega

/-- Where the test VM finds the byte of an address. -/
theorem moved_byte {base : Nat} (ht : base + 4096 ≤ 2 ^ 32) (h0 : base % 4096 = 0) (a : Word) :
    ramByte ramBase 4096 a - BitVec.ofNat 32 ramBase + BitVec.ofNat 32 base = ramByte base 4096 a := by
  have := a.isLt
  unfold ramByte
  rw [moved_add]
  congr 2
  unfold ramBase
  split <;> split <;> omega

theorem moved_load {base : Nat} (ht : base + 4096 ≤ 2 ^ 32) (h0 : base % 4096 = 0) (s : Arch) :
    (fun b => (s.moved base).mem (ramByte ramBase 4096 b)) = fun b => s.mem (ramByte base 4096 b) := by
  funext b
  show s.mem _ = _
  rw [moved_byte ht h0]

theorem moved_store {base : Nat} (ht : base + 4096 ≤ 2 ^ 32) (h0 : base % 4096 = 0) (m : Word → Byte) (a v : Word) (n : Nat) (b : Word) :
    storeEach (ramByte base 4096) m a v n (b - BitVec.ofNat 32 ramBase + BitVec.ofNat 32 base) =
      storeEach (ramByte ramBase 4096) (fun b => m (b - BitVec.ofNat 32 ramBase + BitVec.ofNat 32 base)) a v n b := by
  induction n with
  | zero => rfl
  | succ n ih =>
    unfold storeEach
    rw [ih]
    have : (b - BitVec.ofNat 32 ramBase + BitVec.ofNat 32 base = ramByte base 4096 (a + BitVec.ofNat 32 n)) ↔
        b = ramByte ramBase 4096 (a + BitVec.ofNat 32 n) := by
      rw [← moved_byte ht h0]
      generalize ramByte ramBase 4096 (a + BitVec.ofNat 32 n) = c
      generalize BitVec.ofNat 32 ramBase = p
      generalize BitVec.ofNat 32 base = q
      constructor
      · intro h
        have h := congrArg (fun x => x - q + p) h
        simpa using h
      · rintro rfl; rfl
    simp only [this]

/-- Every instruction in every state: a step of the test VM is the same wherever the RAM is, if it begins at a multiple of 4096. -/
theorem C104_step (base : Nat) (i : Instr) (s : Arch) (ht : base + 4096 ≤ 2 ^ 32) (h0 : base % 4096 = 0) :
    (execTest base 4096 i s).moved base = execTest ramBase 4096 i (s.moved base) := by
  cases i with
  | load o rd rs1 imm =>
    show _ = (Arch.setX (s.moved base) rd (o.eval (fun b => (s.moved base).mem (ramByte ramBase 4096 b)) (s.x rs1 + immI imm))).next
    rw [moved_load ht h0]
    rfl
  | store o rs1 rs2 imm =>
    have := funext (moved_store ht h0 s.mem (s.x rs1 + immI imm) (s.x rs2) o.size)
    exact congrArg (fun m => ({ s with mem := m } : Arch).next) this
  | branch o rs1 rs2 imm =>
    simp only [execTest, exec]
    split <;> split <;> first | rfl | contradiction
  | _ => rfl

/-- A run at one place is a run at the other. -/
theorem moved_runs {fetch : Word → Option Instr} {ok ok' : Instr → Arch → Prop} {base n : Nat} {s s' : Arch} (ht : base + 4096 ≤ 2 ^ 32)
    (h0 : base % 4096 = 0) (hm : ∀ i s, ok i s → ok' i (s.moved base)) (h : RunsIf fetch ok (execTest base 4096) n s s') :
    RunsIf fetch ok' (execTest ramBase 4096) n (s.moved base) (s'.moved base) := by
  induction h with
  | zero s => exact .zero _
  | @succ n i s s' hi ho _ ih =>
    refine .succ (i := i) hi (hm _ _ ho) ?_
    rw [← C104_step base i s ht h0]
    exact ih

theorem start_moved {base : Nat} {bytes : List Byte} (ht : base + 4096 ≤ 2 ^ 32) (hl : bytes.length = 4096) :
    (startAt base bytes).moved base = startState bytes := by
  unfold startAt startState Arch.moved
  congr 1
  funext a
  have := a.isLt
  have hn : (a - BitVec.ofNat 32 ramBase + BitVec.ofNat 32 base).toNat = (a.toNat + 2 ^ 32 - ramBase + base) % 2 ^ 32 := by
    simp only [BitVec.toNat_add, BitVec.toNat_sub, BitVec.toNat_ofNat, show ramBase = 262144 from rfl]
    omega
  have z (k : Nat) (h : 4096 ≤ k) : bytes.getD k 0#8 = 0#8 := by
    rw [List.getD_eq_getElem?_getD, List.getElem?_eq_none (by omega)]; rfl
  show (if base ≤ (a - BitVec.ofNat 32 ramBase + BitVec.ofNat 32 base).toNat then _ else _) = _
  rw [hn]
  by_cases hw : ramBase ≤ a.toNat ∧ a.toNat < ramBase + 4096
  · have hw' : (a.toNat + 2 ^ 32 - ramBase + base) % 2 ^ 32 = base + (a.toNat - ramBase) := by
      unfold ramBase at hw ⊢; omega
    rw [hw', if_pos (by omega), if_pos hw.1, Nat.add_sub_cancel_left]
  · have e2 : (if ramBase ≤ a.toNat then bytes.getD (a.toNat - ramBase) 0#8 else 0#8) = 0#8 := by
      split
      · exact z _ (by omega)
      · rfl
    rw [e2]
    split
    · exact z _ (by simp only [show ramBase = 262144 from rfl] at *; omega)
    · rfl

theorem bytes_moved {base : Nat} (s : Arch) (addr size : Nat) (hb : base ≤ addr) :
    ramBytes (s.moved base) (addr - base) size = bytesAt s addr size := by
  refine List.map_congr_left fun i _ => ?_
  show s.mem _ = _
  rw [moved_add]
  congr 2
  omega

/-! ### The test VM -/

theorem start_base {chk : Bool} {n : Nat} {e : Elf} {p : Phantom} {tape bytes : List Byte}
    (hfile : e.bytes.length < 2 ^ 63) (hp : Phantom.fromElf e = some p) (ht : p.bootRam.offset + 4096 ≤ 2 ^ 32)
    (hb : copyInto p.bootRam.data p.bootRam.offset p.input.startAddr tape = some bytes) (hlen : tape.length = p.input.size) :
    ∃ vm0 vm1 : TestVM, p.testVm chk n = some vm0 ∧ vm0.readInputTape chk tape = some vm1 ∧
    vm1 = { registers := List.replicate 32 0#32, rom := ⟨p.bootRom.data, 0, p.bootRom.size⟩
            ram := ⟨bytes, p.bootRam.offset, 4096⟩, pc := 0#32, input := p.input
            output := p.output, maxCycles := n } ∧ vm1.WF ∧ vm1.Shows (startAt p.bootRam.offset bytes) := by
  obtain ⟨z1, z2, -⟩ := C39_zero e p hp
  obtain ⟨_, txt, _, -, -, -, -, -, r1, r2, r3, -⟩ := C39_rom e p hp
  have hromlt : p.bootRom.size < 2 ^ 63 := by
    obtain ⟨txt', -, -, -, hsl, -, hsz, -⟩ := fromElf_inv hp
    have := (slice_get hsl).1
    omega
  have key (b : BootMemory) (hs : b.size = b.data.length) (hlt : b.size < 2 ^ 63) :
      (TMem.new b.offset b.size).loadMemory chk b.offset b.data = some ⟨b.data, b.offset, b.size⟩ := by
    unfold TMem.loadMemory TMem.new usizeSub usizeAdd
    simp only [Nat.le_refl, if_true, Nat.sub_self, Option.bind_some, Nat.zero_add]
    rw [if_pos (by omega), Option.bind_some, if_pos ⟨by omega, by simp; omega⟩]
    simp [hs]
  have hvm : p.testVm chk n = some { registers := List.replicate 32 0#32, rom := ⟨p.bootRom.data, 0, p.bootRom.size⟩
                                     ram := ⟨p.bootRam.data, p.bootRam.offset, 4096⟩, pc := 0#32, input := p.input
                                     output := p.output, maxCycles := n } := by
    unfold Phantom.testVm TestVM.init
    rw [key _ (r2.trans r3.symm) hromlt, key _ (z1.trans z2.symm) (by rw [z1]; decide), r1, z1]
    rfl
  have hbl : bytes.length = 4096 := by rw [(copyInto_get hb).2.2.1, z2]
  refine ⟨_, _, hvm, test_input_eq chk _ tape bytes hlen (by show p.bootRam.data.length < _; omega) hb, rfl, ?_, ?_⟩
  · exact ⟨by simp, hbl, by simp, ht⟩
  · refine ⟨rfl, fun r => ?_, fun k hk => ?_⟩
    · show (List.replicate 32 0#32)[r.toNat]? = some ((startAt p.bootRam.offset bytes).x r)
      rw [List.getElem?_replicate, if_pos r.isLt]
      unfold Arch.x startAt
      simp
    · have hk : k < 4096 := hk
      show bytes[k]? = some (if p.bootRam.offset ≤ (BitVec.ofNat 32 (p.bootRam.offset + k)).toNat then _ else _)
      rw [BitVec.toNat_ofNat, Nat.mod_eq_of_lt (by omega), if_pos (by omega), Nat.add_sub_cancel_left, List.getD_eq_getElem?_getD,
        List.getElem?_eq_getElem (by omega)]
      rfl

theorem output_base {chk : Bool} {vm : TestVM} {s : Arch} {p : Phantom} (hs : vm.Shows s) (hout : vm.output = p.output)
    (hoff : vm.ram.offset = p.bootRam.offset) (hsz : vm.ram.size = 4096) (ht : p.bootRam.offset + 4096 ≤ 2 ^ 32)
    (hb : p.bootRam.offset ≤ p.output.startAddr) (he : p.output.startAddr + p.output.size ≤ p.bootRam.offset + 4096) :
    vm.outputTape chk = some (bytesAt s p.output.startAddr p.output.size) := by
  unfold TestVM.outputTape bytesAt
  rw [hout]
  apply collect_map_some
  intro i hi
  have hi := List.mem_range.mp hi
  unfold usizeAdd TMem.readByte usizeSub TMem.get
  have := hs.mem (p.output.startAddr + i - p.bootRam.offset) (by omega)
  rw [if_pos (by omega), Option.bind_some, hoff, if_pos (by omega), Option.bind_some, if_neg (by omega), hsz,
    Nat.mod_eq_of_lt (by omega), this, hoff]
  exact congrArg (fun k => some (s.mem (BitVec.ofNat 32 k))) (by omega)

/-- The test VM on any ELF file, wherever its RAM is: when it completes and what it returns, as C97 for RAM at 0x40000. -/
theorem C104_testvm (chk : Bool) (n : Nat) (e : Elf) (p : Phantom) (tape : List Byte) (hfile : e.bytes.length < 2 ^ 63)
    (hp : Phantom.fromElf e = some p) (ht : p.bootRam.offset + 4096 ≤ 2 ^ 32) (hlen : tape.length = p.input.size)
    (hlo : p.bootRam.offset ≤ p.input.startAddr) (hhi : p.input.startAddr + p.input.size ≤ p.bootRam.offset + 4096)
    (hb : p.bootRam.offset ≤ p.output.startAddr) (he : p.output.startAddr + p.output.size ≤ p.bootRam.offset + 4096) :
    ∃ fetch bytes vm0 vm1, FetchTest p.bootRom.data fetch ∧ Placed p.bootRam.data (p.input.startAddr - p.bootRam.offset) tape bytes ∧
      p.testVm chk n = some vm0 ∧ vm0.readInputTape chk tape = some vm1 ∧
      ((∃ vm2, vm1.execute chk = some vm2) ↔ ∃ s', RunsIf fetch (fun i s => ¬ stuck i s chk p.bootRam.offset)
        (execTest p.bootRam.offset 4096) n (startAt p.bootRam.offset bytes) s') ∧
      ∀ vm2, vm1.execute chk = some vm2 →
        ∃ s', RunsIf fetch (fun i s => ¬ stuck i s chk p.bootRam.offset) (execTest p.bootRam.offset 4096) n
            (startAt p.bootRam.offset bytes) s' ∧
          vm2.outputTape chk = some (bytesAt s' p.output.startAddr p.output.size) := by
  obtain ⟨z1, z2, -⟩ := C39_zero e p hp
  obtain ⟨_, txt, _, -, -, -, -, -, r1, r2, r3, -⟩ := C39_rom e p hp
  obtain ⟨bytes, hcp⟩ : ∃ b, copyInto p.bootRam.data p.bootRam.offset p.input.startAddr tape = some b := by
    unfold copyInto
    rw [if_pos ⟨hlo, by omega⟩]
    exact ⟨_, rfl⟩
  have hin := (placed_copyInto hcp).2
  obtain ⟨vm0, vm1, e0, e1, hvm1, hw, hs⟩ := start_base (chk := chk) (n := n) hfile hp ht hcp hlen
  obtain ⟨fetch, hf, -⟩ := C97_fetch p.bootRom.data
  have hrom : vm1.rom = ⟨p.bootRom.data, 0, p.bootRom.size⟩ := by rw [hvm1]
  have hoff : vm1.ram.offset = p.bootRam.offset := by rw [hvm1]
  have hsz : vm1.ram.size = 4096 := by rw [hvm1]
  have hmc : vm1.maxCycles = n := by rw [hvm1]
  have hout : vm1.output = p.output := by rw [hvm1]
  obtain ⟨a1, a2⟩ := C97_steps chk n vm1 (startAt p.bootRam.offset bytes) fetch hw hs (by rw [hrom])
    (by rw [hrom]; exact r2.trans r3.symm) (by rw [hrom]; exact hf)
  rw [hoff, hsz] at a1 a2
  refine ⟨fetch, bytes, vm0, vm1, hf, hin, e0, e1, by unfold TestVM.execute; rw [hmc]; exact a1, fun vm2 h2 => ?_⟩
  unfold TestVM.execute at h2
  rw [hmc] at h2
  obtain ⟨f2, s', hr, hs'⟩ := a2 vm2 h2
  exact ⟨s', hr, output_base hs' ((congrArg (·.2.2.1) f2).trans hout) ((congrArg (·.2.2.2.2.1) f2).trans hoff)
    ((congrArg (·.2.2.2.2.2) f2).trans hsz) ht hb he⟩

/-! ### Both VMs -/

theorem stuck_moved {i : Instr} {s : Arch} {chk : Bool} {base : Nat} (h : ¬ stuck i s chk base) :
    ¬ stuck i (s.moved base) false ramBase := by
  rintro (h1 | h1 | h1 | ⟨h1, -⟩)
  · exact h (Or.inl (by cases i <;> exact h1))
  · exact h (Or.inr (Or.inl (by cases i <;> exact h1)))
  · exact h (Or.inr (Or.inr (Or.inl (by cases i <;> exact h1))))
  · cases h1

/-- Every ELF file whose RAM begins at a multiple of 4096, every tape and number of cycles: if the run of the test VM stays inside the
program and every step of it is the same on both VMs, then both complete under any correct library, and with the same output. -/
theorem C104_output (F : Fhe) (rand : Nat → Nat → Nat → F.C.Rand) (chk dbg : Bool) (threads n : Nat) (e : Elf)
    (p : Phantom) (tape : List Byte) (ev : EncVM F.B) (hfile : e.bytes.length < 2 ^ 63) (hp : Phantom.fromElf e = some p) (ht : 0 < threads)
    (hn : n < 2 ^ 32) (hev : p.encryptedVm F.C rand dbg false threads tape n = some ev) (htop : p.bootRam.offset + 4096 ≤ 2 ^ 32)
    (h0 : p.bootRam.offset % 4096 = 0) (hlen : tape.length = p.input.size)
    (hlo : p.bootRam.offset ≤ p.input.startAddr) (hhi : p.input.startAddr + p.input.size ≤ p.bootRam.offset + 4096)
    (hb : p.bootRam.offset ≤ p.output.startAddr) (he : p.output.startAddr + p.output.size ≤ p.bootRam.offset + 4096) :
    ∃ fetch bytes, FetchTest p.bootRom.data fetch ∧ Placed p.bootRam.data (p.input.startAddr - p.bootRam.offset) tape bytes ∧
      ∀ s', RunsIf fetch (fun i s => (¬ stuck i s chk p.bootRam.offset ∧ s.pc.toNat < p.bootRom.data.length) ∧
            sameStep i (s.moved p.bootRam.offset))
          (execTest p.bootRam.offset 4096) n (startAt p.bootRam.offset bytes) s' →
        ∃ vm0 vm1 vm2 ev2, p.testVm chk n = some vm0 ∧ vm0.readInputTape chk tape = some vm1 ∧ vm1.execute chk = some vm2 ∧
          ev.execute F.C F.decU F.decP = some ev2 ∧
          vm2.outputTape chk = some (bytesAt s' p.output.startAddr p.output.size) ∧
          ev2.outputTape F.C chk = some (bytesAt s' p.output.startAddr p.output.size) := by
  obtain ⟨ft, bytes, vm0, vm1, hft, hin, e0, e1, hx, ho⟩ := C104_testvm chk n e p tape hfile hp htop hlen hlo hhi hb he
  obtain ⟨fw, bytes', hfw, hd, hin', halt⟩ := C96_encrypted F rand chk dbg threads n e p tape ev hp ht hn hev (by omega) hb he
  have hsame : bytes' = bytes := placed_unique hin' hin
  subst hsame
  have hbl : bytes'.length = 4096 := hin.2.1.trans (C39_zero e p hp).2.1
  refine ⟨ft, bytes', hft, hin, fun s' hr => ?_⟩
  have h4 : p.bootRom.data.length % 4 = 0 := (encryptedVm_inv hev).1
  have hmv := moved_runs (ok' := fun i s => (¬ stuck i s false ramBase ∧ s.pc.toNat < p.bootRom.data.length) ∧ sameStep i s) htop h0
    (fun i s h => ⟨⟨stuck_moved h.1.1, h.1.2⟩, h.2⟩) hr
  rw [start_moved htop hbl] at hmv
  have hrun := C99_runs h4 hft hfw hd hmv
  have hif := runsIf_mono (fun _ _ h => h.1.1) hr
  obtain ⟨vm2, e2⟩ := hx.mpr ⟨s', hif⟩
  obtain ⟨t, hr2, o2⟩ := ho vm2 e2
  cases runsIf_unique hif hr2
  rcases halt with ⟨u, ev2, a1, a2, a3⟩ | ⟨m, u, a1, a2, a3⟩
  · cases runsWith_unique hrun a1
    rw [bytes_moved s' _ _ hb] at a3
    exact ⟨vm0, vm1, vm2, ev2, e0, e1, e2, a2, o2, a3⟩
  · exact absurd ((hd _).mp (runsWith_leaves a1 hrun a2)) (Nat.not_lt.mpr a3)

/-! ### A program that copies its input -/

theorem lw_byte (m : Word → Byte) (a : Word) (j : Nat) (hj : j < 4) :
    (LoadOp.lw.eval m a).extractLsb' (8 * j) 8 = m (a + BitVec.ofNat 32 j) := by
  show (BitVec.ofNat 32 ((m a).toNat + 256 * ((m (a + 1#32)).toNat + 256 * ((m (a + 1#32 + 1#32)).toNat +
    256 * ((m (a + 1#32 + 1#32 + 1#32)).toNat + 256 * 0))))).extractLsb' (8 * j) 8 = _
  have e2 : a + 1#32 + 1#32 = a + 2#32 := by rw [BitVec.add_assoc]; rfl
  have e3 : a + 1#32 + 1#32 + 1#32 = a + 3#32 := by rw [e2, BitVec.add_assoc]; rfl
  rw [e3, e2]
  have b0 := (m a).isLt
  have b1 := (m (a + 1#32)).isLt
  have b2 := (m (a + 2#32)).isLt
  have b3 := (m (a + 3#32)).isLt
  apply BitVec.eq_of_toNat_eq
  rw [BitVec.extractLsb'_toNat, BitVec.toNat_ofNat, Nat.shiftRight_eq_div_pow]
  have : j = 0 ∨ j = 1 ∨ j = 2 ∨ j = 3 := by omega
  rcases this with rfl | rfl | rfl | rfl
  · rw [show a + BitVec.ofNat 32 0 = a from BitVec.add_zero a]; omega
  · show _ = (m (a + 1#32)).toNat; omega
  · show _ = (m (a + 2#32)).toNat; omega
  · show _ = (m (a + 3#32)).toNat; omega

theorem loop_base (base : Nat) (s : Arch) : execTest base 4096 (.jal 0#5 0#20) s = s := loop_step s

/-- `lui x1,hi; lw x2,lo(x1); sw x2,lo+4(x1); j .` with the RAM at that address: the first word of the RAM is copied to the second. -/
theorem copy_runs {base : Nat} {hi : BitVec 20} {lo lo4 : BitVec 12} {fetch : Word → Option Instr} (bytes : List Byte) (chk : Bool)
    (ht : base + 4096 ≤ 2 ^ 32) (h4 : base % 4 = 0) (ha : (immU hi + immI lo) = BitVec.ofNat 32 base)
    (ha4 : (immU hi + immI lo4) = BitVec.ofNat 32 (base + 4)) (f0 : fetch 0#32 = some (.lui 1 hi)) (f1 : fetch 4#32 = some (.load .lw 2 1 lo))
    (f2 : fetch 8#32 = some (.store .sw 1 2 lo4)) (f3 : fetch 12#32 = some (.jal 0 0)) (n : Nat) :
    ∃ s', RunsIf fetch (fun i s => (¬ stuck i s chk base ∧ s.pc.toNat < 16) ∧ sameStep i (s.moved base)) (execTest base 4096) (n + 3)
      (startAt base bytes) s' ∧ bytesAt s' (base + 4) 4 = bytesAt (startAt base bytes) base 4 := by
  have tb : (BitVec.ofNat 32 base).toNat = base := by rw [BitVec.toNat_ofNat, Nat.mod_eq_of_lt (by omega)]
  have tb4 : (BitVec.ofNat 32 (base + 4)).toNat = base + 4 := by rw [BitVec.toNat_ofNat, Nat.mod_eq_of_lt (by omega)]
  generalize h0 : startAt base bytes = s0
  have p0 : s0.pc = 0#32 := by rw [← h0]; rfl
  have w0 : (Instr.lui 1 hi).inWindow s0 base 4096 := by intro _ _ h; cases h
  have k0 : ¬ stuck (.lui 1 hi) s0 chk base := by
    rintro (⟨t, h, -⟩ | h | h | ⟨-, ⟨_, _, h, -⟩ | ⟨-, h⟩⟩)
    · cases h
    · exact h
    · exact h
    · cases h
    · rw [p0] at h; exact absurd h (by decide)
  generalize h1 : execTest base 4096 (.lui 1 hi) s0 = s1
  rw [C97_window _ _ _ _ ht w0] at h1
  have p1 : s1.pc = 4#32 := by rw [← h1]; show s0.pc + 4#32 = _; rw [p0]; rfl
  have x1 : s1.x 1 = immU hi := by rw [← h1]; rfl
  have m1 : s1.mem = s0.mem := by rw [← h1]; rfl
  have w1 : (Instr.load .lw 2 1 lo).inWindow s1 base 4096 := by
    intro a k h
    cases h
    rw [x1, ha, tb]
    show base ≤ base ∧ base + 4 ≤ _
    omega
  have k1 : ¬ stuck (.load .lw 2 1 lo) s1 chk base := by
    rintro (⟨t, h, -⟩ | h | h | ⟨-, ⟨_, _, h, h'⟩ | ⟨-, h⟩⟩)
    · cases h
    · refine h ?_
      show (s1.x 1 + immI lo).toNat % 4 = 0
      rw [x1, ha, tb]; exact h4
    · exact h
    · have := (w1 _ _ h).1
      omega
    · rw [p1] at h; exact absurd h (by decide)
  generalize h2 : execTest base 4096 (.load .lw 2 1 lo) s1 = s2
  rw [C97_window _ _ _ _ ht w1] at h2
  have p2 : s2.pc = 8#32 := by rw [← h2]; show s1.pc + 4#32 = _; rw [p1]; rfl
  have y2 : s2.x 1 = immU hi := by rw [← h2]; exact x1
  have x2 : s2.x 2 = LoadOp.lw.eval s0.mem (BitVec.ofNat 32 base) := by
    rw [← h2, ← ha, ← x1, ← m1]; rfl
  have w2 : (Instr.store .sw 1 2 lo4).inWindow s2 base 4096 := by
    intro a k h
    cases h
    rw [y2, ha4, tb4]
    show base ≤ base + 4 ∧ base + 4 + 4 ≤ _
    omega
  have k2 : ¬ stuck (.store .sw 1 2 lo4) s2 chk base := by
    rintro (⟨t, h, -⟩ | h | h | ⟨-, ⟨_, _, h, h'⟩ | ⟨-, h⟩⟩)
    · cases h
    · refine h ?_
      show (s2.x 1 + immI lo4).toNat % 4 = 0
      rw [y2, ha4, tb4]; omega
    · exact h
    · have := (w2 _ _ h).1
      omega
    · rw [p2] at h; exact absurd h (by decide)
  generalize h3 : execTest base 4096 (.store .sw 1 2 lo4) s2 = s3
  have h3' := h3
  rw [C97_window _ _ _ _ ht w2] at h3'
  have p3 : s3.pc = 12#32 := by rw [← h3']; show s2.pc + 4#32 = _; rw [p2]; rfl
  have m3 : s3.mem = storeBytes s2.mem (BitVec.ofNat 32 (base + 4)) (s2.x 2) 4 := by
    rw [← h3', ← ha4, ← y2]; rfl
  have k3 : ¬ stuck (.jal 0 0) s3 chk base := by
    rintro (⟨t, h, h'⟩ | h | h | ⟨-, ⟨_, _, h, -⟩ | ⟨h, -⟩⟩)
    · cases h
      rw [p3] at h'
      exact h' (by decide)
    · exact h
    · exact h
    · cases h
    · cases h
  have hloop (n : Nat) : RunsIf fetch (fun i s => (¬ stuck i s chk base ∧ s.pc.toNat < 16) ∧ sameStep i (s.moved base))
      (execTest base 4096) n s3 s3 := by
    induction n with
    | zero => exact .zero _
    | succ n ih =>
      refine .succ (i := .jal 0 0) (by rw [p3]; exact f3) ⟨⟨k3, by rw [p3]; decide⟩,
        (by decide : -2 ^ 18 ≤ (0#20).toInt ∧ (0#20).toInt < 2 ^ 18)⟩ ?_
      have := loop_base base s3
      rw [show execTest base 4096 (.jal 0 0) s3 = s3 from this]
      exact ih
  refine ⟨s3, ?_, ?_⟩
  · refine .succ (i := .lui 1 hi) (by rw [p0]; exact f0) ⟨⟨k0, by rw [p0]; decide⟩, trivial⟩ ?_
    rw [C97_window _ _ _ _ ht w0, h1]
    refine .succ (i := .load .lw 2 1 lo) (by rw [p1]; exact f1) ⟨⟨k1, by rw [p1]; decide⟩, Or.inr trivial⟩ ?_
    rw [C97_window _ _ _ _ ht w1, h2]
    refine .succ (i := .store .sw 1 2 lo4) (by rw [p2]; exact f2) ⟨⟨k2, by rw [p2]; decide⟩, trivial⟩ ?_
    rw [h3]
    exact hloop n
  · refine List.map_congr_left fun j hj => ?_
    have hj := List.mem_range.mp hj
    rw [m3, x2, BitVec.ofNat_add base j, ← lw_byte s0.mem (BitVec.ofNat 32 base) j hj]
    have e : BitVec.ofNat 32 (base + 4 + j) - BitVec.ofNat 32 (base + 4) = BitVec.ofNat 32 j := by
      apply BitVec.eq_of_toNat_eq
      simp only [BitVec.toNat_sub, BitVec.toNat_ofNat]
      omega
    unfold storeBytes
    rw [e, BitVec.toNat_ofNat, Nat.mod_eq_of_lt (by omega), if_pos hj]

/-- The program with the RAM at 0x41000. -/
def pageElf : Elf :=
  { bytes := wordBytes [0x000410B7#32, 0x0000A103#32, 0x0020A223#32, 0x0000006F#32] ++ List.replicate 8 0#8
    segments := [⟨1, 5, 0, 0, 16, 16⟩, ⟨1, 6, 16, 0x41000, 8, 8⟩]
    sections := [(".inpdata", ⟨0x41000, 4⟩), (".outdata", ⟨0x41004, 4⟩)] }

def pageGuest : Phantom := (Phantom.fromElf pageElf).getD ⟨⟨[], 0, 0⟩, ⟨[], 0, 0⟩, ⟨0, 0⟩, ⟨0, 0⟩⟩

theorem page_elf : Phantom.fromElf pageElf = some pageGuest := by
  obtain ⟨x, hx⟩ := Option.isSome_iff_exists.mp (show (Phantom.fromElf pageElf).isSome = true by decide +kernel)
  unfold pageGuest
  rw [hx]; rfl

/-- The program with the RAM at 0x40004. -/
def skewElf : Elf :=
  { bytes := wordBytes [0x000400B7#32, 0x0040A103#32, 0x0020A423#32, 0x0000006F#32] ++ List.replicate 8 0#8
    segments := [⟨1, 5, 0, 0, 16, 16⟩, ⟨1, 6, 16, 0x40004, 8, 8⟩]
    sections := [(".inpdata", ⟨0x40004, 4⟩), (".outdata", ⟨0x40008, 4⟩)] }

def skewGuest : Phantom := (Phantom.fromElf skewElf).getD ⟨⟨[], 0, 0⟩, ⟨[], 0, 0⟩, ⟨0, 0⟩, ⟨0, 0⟩⟩

theorem skew_elf : Phantom.fromElf skewElf = some skewGuest := by
  obtain ⟨x, hx⟩ := Option.isSome_iff_exists.mp (show (Phantom.fromElf skewElf).isSome = true by decide +kernel)
  unfold skewGuest
  rw [hx]; rfl

theorem start_input {ram tape bytes : List Byte} {base : Nat} (ht : base + 4096 ≤ 2 ^ 32) (hr : ram.length = 4096)
    (hin : Placed ram 0 tape bytes) (hl : tape.length = 4) : bytesAt (startAt base bytes) base 4 = tape := by
  apply List.ext_getElem?
  intro j
  unfold bytesAt
  by_cases hj : j < 4
  · have := hin.2.2.1 j (by omega)
    rw [Nat.zero_add] at this
    rw [List.getElem?_map, List.getElem?_range hj, ← this]
    show some (if base ≤ (BitVec.ofNat 32 (base + j)).toNat then bytes.getD ((BitVec.ofNat 32 (base + j)).toNat - base) 0#8 else 0#8) = _
    have hb : j < bytes.length := by have := hin.2.1; omega
    rw [BitVec.toNat_ofNat, Nat.mod_eq_of_lt (by omega), if_pos (by omega), Nat.add_sub_cancel_left, List.getD_eq_getElem?_getD,
      List.getElem?_eq_getElem hb]
    rfl
  · rw [List.getElem?_eq_none (by simp; omega), List.getElem?_eq_none (by omega)]

/-- At 0x41000, which is not the address the encrypted VM has for its RAM, both VMs return the input. -/
theorem C104_page (F : Fhe) (rand : Nat → Nat → Nat → F.C.Rand) (chk dbg : Bool) (threads n : Nat) (ht : 0 < threads) (h3 : 3 ≤ n)
    (hn : n < 2 ^ 32) (tape : List Byte) (hl : tape.length = 4) :
    ∃ vm0 vm1 vm2 ev ev2, pageGuest.testVm chk n = some vm0 ∧ vm0.readInputTape chk tape = some vm1 ∧ vm1.execute chk = some vm2 ∧
      vm2.outputTape chk = some tape ∧ pageGuest.encryptedVm F.C rand dbg false threads tape n = some ev ∧
      ev.execute F.C F.decU F.decP = some ev2 ∧ ev2.outputTape F.C chk = some tape := by
  obtain ⟨q, hq⟩ : ∃ q, Parser.new.addAll dbg (packWords pageGuest.bootRom.data) = some q := by
    rw [← Option.isSome_iff_exists]; cases dbg <;> decide +kernel
  obtain ⟨ev, hev⟩ := C42_setup F rand dbg false threads n pageElf pageGuest tape q page_elf
    (by decide +kernel) (by decide +kernel) hq (hl.trans (by decide +kernel)) (by decide +kernel) (by decide +kernel)
  have hoff : pageGuest.bootRam.offset = 0x41000 := by decide +kernel
  obtain ⟨fetch, bytes, hf, hin, hall⟩ := C104_output F rand chk dbg threads n pageElf pageGuest tape ev (by decide +kernel) page_elf ht hn hev
    (by decide +kernel) (by decide +kernel) (hl.trans (by decide +kernel)) (by decide +kernel) (by decide +kernel) (by decide +kernel)
    (by decide +kernel)
  have hrl : pageGuest.bootRom.data.length = 16 := by decide +kernel
  have hout : pageGuest.output.startAddr = 0x41000 + 4 := by decide +kernel
  have hsz : pageGuest.output.size = 4 := by decide +kernel
  rw [show pageGuest.input.startAddr - pageGuest.bootRam.offset = 0 by decide +kernel] at hin
  rw [hoff, hrl, hout, hsz] at hall
  have f (k : Word) (i : Instr) (w : Word) (h4 : k.toNat % 4 = 0) (hw : TestWord pageGuest.bootRom.data k.toNat w) (hr : TestReads w i) :
      fetch k = some i := (hf _ _).mpr ⟨h4, w, hw, hr⟩
  obtain ⟨s', hr, ho⟩ := copy_runs (base := 0x41000) (hi := 0x41) (lo := 0) (lo4 := 4) (fetch := fetch) bytes chk (by decide) (by decide)
    (by decide) (by decide) (f _ _ _ (by decide) (testWord_of _ (by decide +kernel)) (.own _))
    (f _ _ _ (by decide) (testWord_of _ (by decide +kernel)) (.own _)) (f _ _ _ (by decide) (testWord_of _ (by decide +kernel)) (.own _))
    (f _ _ _ (by decide) (testWord_of _ (by decide +kernel)) (.own _)) (n - 3)
  rw [Nat.sub_add_cancel h3] at hr
  obtain ⟨vm0, vm1, vm2, ev2, e0, e1, e2, e3, o1, o2⟩ := hall s' hr
  rw [ho, start_input (by decide) (by decide +kernel) hin hl] at o1 o2
  exact ⟨vm0, vm1, vm2, ev, ev2, e0, e1, e2, o1, hev, e3, o2⟩

/-- Where the encrypted VM is in the program at 0x40004. -/
structure SkewAt (k : Nat) (s : Arch) : Prop where
  lt : k < 4
  pc : s.pc = BitVec.ofNat 32 (4 * k)
  base : 1 ≤ k → s.x 1 = 0x40000#32
  out : ∀ j, j < 4 → s.mem (BitVec.ofNat 32 (ramBase + (4 + j))) = 0#8

def skewCode : List Instr := [.lui 1 0x40, .load .lw 2 1 4, .store .sw 1 2 8, .jal 0 0]

theorem skew_step {k : Nat} {s : Arch} (h : SkewAt k s) {i : Instr} (hi : skewCode[k]? = some i) :
    ∃ k', SkewAt k' (execAll 1024 i (s.wrapPc 4)) := by
  obtain ⟨lt, pc, base, out⟩ := h
  have hw : s.wrapPc 4 = s := by
    unfold Arch.wrapPc
    rw [pc, BitVec.toNat_ofNat, Nat.mod_eq_of_lt (by omega : 4 * k < 2 ^ 32), Nat.mod_eq_of_lt (by omega), ← pc]
  rw [hw]
  have next : s.pc + 4#32 = BitVec.ofNat 32 (4 * (k + 1)) := by
    rw [pc, BitVec.add_comm, ← BitVec.ofNat_add, Nat.mul_succ, Nat.add_comm]
  have : k = 0 ∨ k = 1 ∨ k = 2 ∨ k = 3 := by omega
  rcases this with rfl | rfl | rfl | rfl <;> cases hi
  · exact ⟨1, by decide, next, fun _ => rfl, out⟩
  · exact ⟨2, by decide, next, fun _ => base (by decide), out⟩
  · refine ⟨3, by decide, next, fun _ => base (by decide), fun j hj => ?_⟩
    show storeBytes s.mem (ramWord 1024 (s.x 1 + immI 8)) (s.x 2) 4 _ = _
    rw [base (by decide), show ramWord 1024 (0x40000#32 + immI 8) = 0x40008#32 by decide]
    unfold storeBytes
    rw [if_neg, out j hj]
    unfold ramBase
    simp only [BitVec.toNat_sub, BitVec.toNat_ofNat]
    omega
  · refine ⟨3, by decide, ?_, fun _ => base (by decide), out⟩
    show s.pc + _ = _
    rw [pc]
    decide

/-- At 0x40004 the test VM returns the input and the encrypted VM four zero bytes, whatever the input: it loads and stores one word further
on in the RAM than the loader put the input and than the output is read. -/
theorem C104_skew (F : Fhe) (rand : Nat → Nat → Nat → F.C.Rand) (chk dbg : Bool) (threads n : Nat) (ht : 0 < threads) (h3 : 3 ≤ n)
    (hn : n < 2 ^ 32) (tape : List Byte) (hl : tape.length = 4) :
    ∃ vm0 vm1 vm2 ev ev2, skewGuest.testVm chk n = some vm0 ∧ vm0.readInputTape chk tape = some vm1 ∧ vm1.execute chk = some vm2 ∧
      vm2.outputTape chk = some tape ∧ skewGuest.encryptedVm F.C rand dbg false threads tape n = some ev ∧
      ev.execute F.C F.decU F.decP = some ev2 ∧ ev2.outputTape F.C chk = some [0#8, 0#8, 0#8, 0#8] := by
  obtain ⟨q, hq⟩ : ∃ q, Parser.new.addAll dbg (packWords skewGuest.bootRom.data) = some q := by
    rw [← Option.isSome_iff_exists]; cases dbg <;> decide +kernel
  obtain ⟨ev, hev⟩ := C42_setup F rand dbg false threads n skewElf skewGuest tape q skew_elf
    (by decide +kernel) (by decide +kernel) hq (hl.trans (by decide +kernel)) (by decide +kernel) (by decide +kernel)
  have hoff : skewGuest.bootRam.offset = 0x40004 := by decide +kernel
  obtain ⟨fetch, bytes, vm0, vm1, hf, hin, e0, e1, hx, ho⟩ := C104_testvm chk n skewElf skewGuest tape (by decide +kernel) skew_elf
    (by decide +kernel) (hl.trans (by decide +kernel)) (by decide +kernel) (by decide +kernel) (by decide +kernel) (by decide +kernel)
  have hout : skewGuest.output.startAddr = 0x40004 + 4 := by decide +kernel
  have hsz : skewGuest.output.size = 4 := by decide +kernel
  have hat : skewGuest.input.startAddr - skewGuest.bootRam.offset = 0 := by decide +kernel
  rw [hat] at hin
  rw [hoff, hout, hsz] at ho
  rw [hoff] at hx
  have f (k : Word) (i : Instr) (w : Word) (h4 : k.toNat % 4 = 0) (hw : TestWord skewGuest.bootRom.data k.toNat w) (hr : TestReads w i) :
      fetch k = some i := (hf _ _).mpr ⟨h4, w, hw, hr⟩
  obtain ⟨s', hr, hc⟩ := copy_runs (base := 0x40004) (hi := 0x40) (lo := 4) (lo4 := 8) (fetch := fetch) bytes chk (by decide) (by decide)
    (by decide) (by decide) (f _ _ _ (by decide) (testWord_of _ (by decide +kernel)) (.own _))
    (f _ _ _ (by decide) (testWord_of _ (by decide +kernel)) (.own _)) (f _ _ _ (by decide) (testWord_of _ (by decide +kernel)) (.own _))
    (f _ _ _ (by decide) (testWord_of _ (by decide +kernel)) (.own _)) (n - 3)
  rw [Nat.sub_add_cancel h3] at hr
  have hif := runsIf_mono (fun _ _ h => h.1.1) hr
  obtain ⟨vm2, e2⟩ := hx.mpr ⟨s', hif⟩
  obtain ⟨t, hr2, o2⟩ := ho vm2 e2
  cases runsIf_unique hif hr2
  rw [hc, start_input (by decide) (by decide +kernel) hin hl] at o2
  obtain ⟨fw, bytes', u, ev2, hfw, -, hin', hrun, a1, a2⟩ := C96_total F rand chk dbg threads n skewElf skewGuest tape ev skew_elf
    ht hn hev (by decide +kernel) (by decide +kernel) (by decide +kernel) 2 (by decide +kernel)
  refine ⟨vm0, vm1, vm2, ev, ev2, e0, e1, e2, o2, hev, a1, ?_⟩
  rw [hat] at hin'
  have words : ∀ k, k < 4 → ∃ w i, skewCode[k]? = some i ∧ ReadsAs w i ∧ (packWords skewGuest.bootRom.data)[k]? = some w := by
    intro k hk
    have : k = 0 ∨ k = 1 ∨ k = 2 ∨ k = 3 := by omega
    rcases this with rfl | rfl | rfl | rfl <;> exact ⟨_, _, rfl, .own _, by decide +kernel⟩
  have code (k : Nat) (hk : k < 4) : ∃ i, skewCode[k]? = some i ∧ fw (BitVec.ofNat 32 (4 * k)) = some i := by
    obtain ⟨w, i, b1, b2, b3⟩ := words k hk
    refine ⟨i, b1, (hfw _ _).mpr ⟨w, ?_, b2⟩⟩
    rw [BitVec.toNat_ofNat, Nat.mod_eq_of_lt (by omega : 4 * k < 2 ^ 32), Nat.mod_eq_of_lt (by omega), Nat.mul_div_cancel_left _ (by decide)]
    exact (packWords_word (by decide +kernel)).mp b3
  have start : SkewAt 0 (startState bytes') := by
    refine ⟨by decide, rfl, fun h => by omega, fun j hj => ?_⟩
    rw [startState_mem _ _ (by unfold ramBase; omega), List.getD_eq_getElem?_getD, hin'.2.2.2 (4 + j) (by omega)]
    have : j = 0 ∨ j = 1 ∨ j = 2 ∨ j = 3 := by omega
    rcases this with rfl | rfl | rfl | rfl <;> decide +kernel
  have all : ∀ n : Nat, ∃ s k, RunsWith fw (fun i s => execAll 1024 i (s.wrapPc 4)) n (startState bytes') s ∧ SkewAt k s := by
    intro n
    induction n with
    | zero => exact ⟨_, 0, .zero _, start⟩
    | succ n ih =>
      obtain ⟨s, k, hr, ho⟩ := ih
      obtain ⟨i, hi, hfi⟩ := code k ho.lt
      obtain ⟨k', ho'⟩ := skew_step ho hi
      exact ⟨_, k', runsWith_append hr (.succ (by rw [ho.pc]; exact hfi) (.zero _)), ho'⟩
  obtain ⟨s, k, hrs, hk⟩ := all n
  cases runsWith_unique hrs hrun
  rw [a2, hsz, show skewGuest.output.startAddr - skewGuest.bootRam.offset = 4 by decide +kernel]
  refine congrArg some ?_
  show [u.mem _, u.mem _, u.mem _, u.mem _] = _
  rw [hk.out 0 (by decide), hk.out 1 (by decide), hk.out 2 (by decide), hk.out 3 (by decide)]

/-- The byte of the address 0x40104 is byte 0x104 of the RAM for the encrypted VM and for the test VM with RAM at 0x41000, and byte 0x100
for the test VM with RAM at 0x40004. -/
example : (ramByte 0x41000 4096 0x40104#32).toNat - 0x41000 = 0x104 ∧ (ramByte ramBase 4096 0x40104#32).toNat - ramBase = 0x104 ∧
    (ramByte 0x40004 4096 0x40104#32).toNat - 0x40004 = 0x100 := by decide

end Verif.Props
