import Verif.Lemmas.Loader
/-
  C39: ELF loading.  C40: packing of bytes into words.  C41: tapes.
-/
namespace Verif.Props
open Model Spec

/-! ### C39 -/

theorem mem_ramHeaders (e : Elf) (q : Phdr) : q ∈ e.ramHeaders ↔ q ∈ e.segments ∧ q.isRam := by
  unfold Elf.ramHeaders
  simp only [List.mem_filter, decide_eq_true_eq, and_assoc]
  exact Iff.rfl

theorem fromElf_inv {e : Elf} {p : Phantom} (h : Phantom.fromElf e = some p) :
    ∃ txt, e.textHeader = some txt ∧ txt.filesz = txt.memsz ∧ txt.vaddr = 0 ∧
      slice e.bytes txt.offset txt.memsz = some p.bootRom.data ∧ p.bootRom.offset = 0 ∧
      p.bootRom.size = txt.memsz ∧
      loadSegments e e.ramOffset e.ramHeaders (List.replicate RAM_SIZE 0#8) = some p.bootRam.data ∧
      p.bootRam.offset = e.ramOffset ∧ p.bootRam.size = RAM_SIZE ∧
      e.sectionByName ".inpdata" = some p.input ∧ e.sectionByName ".outdata" = some p.output := by
  unfold Phantom.fromElf at h
  obtain ⟨txt, h1, h⟩ := Option.bind_eq_some_iff.mp h
  split at h
  · next hc =>
    obtain ⟨rom, h2, h⟩ := Option.bind_eq_some_iff.mp h
    obtain ⟨ram, h3, h⟩ := Option.bind_eq_some_iff.mp h
    obtain ⟨inp, h4, h⟩ := Option.bind_eq_some_iff.mp h
    obtain ⟨out, h5, h⟩ := Option.map_eq_some_iff.mp h
    subst h
    exact ⟨txt, h1, hc.1, hc.2, h2, hc.2, rfl, h3, rfl, rfl, h4, h5⟩
  · cases h

/-- The program memory holds the bytes of the first executable load segment. -/
theorem C39_rom (e : Elf) (p : Phantom) (h : Phantom.fromElf e = some p) :
    ∃ pre txt post, e.segments = pre ++ txt :: post ∧ txt.isText ∧ (∀ q ∈ pre, ¬ q.isText) ∧
      txt.vaddr = 0 ∧ txt.filesz = txt.memsz ∧ p.bootRom.offset = 0 ∧ p.bootRom.size = txt.memsz ∧
      p.bootRom.data.length = txt.memsz ∧ ∀ k, k < txt.memsz → p.bootRom.data[k]? = e.bytes[txt.offset + k]? := by
  obtain ⟨txt, h1, h2, h3, h4, h5, h6, -⟩ := fromElf_inv h
  obtain ⟨-, s2, s3⟩ := slice_get h4
  have h1' : e.segments.find? (fun ph => decide (ph.ptype = PT_LOAD) && decide (ph.flags = PF_R + PF_X)) = some txt := by
    unfold Elf.textHeader at h1
    rw [List.find?_filter] at h1
    simpa only [decide_eq_true_eq, Bool.decide_and] using h1
  obtain ⟨hp, pre, post, hs, hn⟩ := List.find?_eq_some_iff_append.mp h1'
  refine ⟨pre, txt, post, hs, ?_, fun q hq => ?_, h3, h2, h5, h6, s2, s3⟩
  · simp only [Bool.and_eq_true, decide_eq_true_eq] at hp
    exact hp
  · have := hn q hq
    simp only [Bool.not_eq_true', ← Bool.not_eq_true, Bool.and_eq_true, decide_eq_true_eq] at this
    exact this

/-- Every byte of an R/RW load segment without uninitialised part is at its address relative to the
RAM base.  Missing: segments whose file size differs from their memory size, which are skipped
(`C39_fails`). -/
theorem C39_ram_partial (e : Elf) (p : Phantom) (h : Phantom.fromElf e = some p) (pre post : List Phdr)
    (ph : Phdr) (hs : e.segments = pre ++ ph :: post) (hr : ph.isRam) (hf : ph.filesz = ph.memsz)
    (j : Nat) (hj : j < ph.memsz) (hq : ∀ q ∈ post, q.isRam → ¬ q.loads (ph.vaddr + j)) :
    p.bootRam.offset ≤ ph.vaddr ∧ ph.vaddr + ph.memsz ≤ p.bootRam.offset + p.bootRam.size ∧
      p.bootRam.data[ph.vaddr + j - p.bootRam.offset]? = e.bytes[ph.offset + j]? ∧
      ph.offset + j < e.bytes.length := by
  obtain ⟨txt, -, -, -, -, -, -, h7, h8, h9, -, -⟩ := fromElf_inv h
  have hsplit : ∃ as bs, e.ramHeaders = as ++ ph :: bs ∧ ∀ q ∈ bs, q ∈ post ∧ q.isRam := by
    unfold Elf.ramHeaders
    rw [hs, List.filter_append, List.filter_cons, if_pos (decide_eq_true (show ph.ptype = PT_LOAD from hr.1)), List.filter_append,
      List.filter_cons, if_pos (decide_eq_true (show ph.flags = PF_R ∨ ph.flags = PF_R + PF_W from hr.2))]
    refine ⟨_, _, rfl, fun q hq => ?_⟩
    simp only [List.mem_filter, decide_eq_true_eq] at hq
    exact ⟨hq.1.1, hq.1.2, hq.2⟩
  obtain ⟨as, bs, hab, hbs⟩ := hsplit
  rw [hab] at h7
  obtain ⟨a1, a2, a3, a4⟩ := loadSegments_at h7 (by omega) hf
  rw [List.length_replicate] at a2
  rw [h8, h9]
  refine ⟨a1, by omega, a4 j hj (fun q hq' => hq q (hbs q hq').1 (hbs q hq').2), by omega⟩

/-- The RAM has 4096 bytes and is zero at every address no copied segment covers. -/
theorem C39_zero (e : Elf) (p : Phantom) (h : Phantom.fromElf e = some p) :
    p.bootRam.size = 4096 ∧ p.bootRam.data.length = 4096 ∧
    ∀ k, k < 4096 → (∀ q ∈ e.segments, q.isRam → ¬ q.loads (p.bootRam.offset + k)) →
      p.bootRam.data[k]? = some 0#8 := by
  obtain ⟨txt, -, -, -, -, -, -, h7, h8, h9, -, -⟩ := fromElf_inv h
  obtain ⟨l, k⟩ := loadSegments_keep _ _ _ h7
  rw [List.length_replicate] at l
  refine ⟨h9, l, fun i hi hq => ?_⟩
  rw [h8] at hq
  rw [k i fun ph hph => ?_]
  · exact List.getElem?_replicate_of_lt hi
  · have := (mem_ramHeaders e ph).mp hph
    exact hq ph this.1 this.2

/-- The RAM base is the address of the first R/RW load segment, or 0 without one. -/
theorem C39_base (e : Elf) (p : Phantom) (h : Phantom.fromElf e = some p) :
    (∃ pre ph post, e.segments = pre ++ ph :: post ∧ ph.isRam ∧ (∀ q ∈ pre, ¬ q.isRam) ∧
      p.bootRam.offset = ph.vaddr) ∨ ((∀ q ∈ e.segments, ¬ q.isRam) ∧ p.bootRam.offset = 0) := by
  obtain ⟨txt, -, -, -, -, -, -, -, h8, -⟩ := fromElf_inv h
  rw [h8]
  unfold Elf.ramOffset
  have hh : e.ramHeaders.head? = e.segments.find? fun q =>
      decide (q.ptype = PT_LOAD) && decide (q.flags = PF_R ∨ q.flags = PF_R + PF_W) := by
    unfold Elf.ramHeaders
    rw [List.filter_filter, List.head?_filter]
    congr 1
    funext q
    rw [Bool.and_comm]
  rw [hh]
  cases hc : e.segments.find? _ with
  | none =>
    right
    rw [List.find?_eq_none] at hc
    refine ⟨fun q hq hr => hc q hq ?_, rfl⟩
    simp only [Bool.and_eq_true, decide_eq_true_eq]
    exact hr
  | some ph =>
    left
    obtain ⟨hp, pre, post, hs, hn⟩ := List.find?_eq_some_iff_append.mp hc
    simp only [Bool.and_eq_true, decide_eq_true_eq] at hp
    refine ⟨pre, ph, post, hs, hp, fun q hq hr => ?_, rfl⟩
    have := hn q hq
    simp only [Bool.not_eq_true', ← Bool.not_eq_true, Bool.and_eq_true, decide_eq_true_eq] at this
    exact this hr

/-- The tapes are the sections of these names. -/
theorem C39_tapes (e : Elf) (p : Phantom) (h : Phantom.fromElf e = some p) :
    (".inpdata", p.input) ∈ e.sections ∧ (".outdata", p.output) ∈ e.sections := by
  obtain ⟨txt, -, -, -, -, -, -, -, -, -, h4, h5⟩ := fromElf_inv h
  have key (name : String) (t : TapeInfo) (hs : e.sectionByName name = some t) : (name, t) ∈ e.sections := by
    unfold Elf.sectionByName at hs
    obtain ⟨a, h1, h2⟩ := Option.map_eq_some_iff.mp hs
    have hm := List.mem_of_find?_eq_some h1
    have hn := List.find?_some h1
    simp only [decide_eq_true_eq] at hn
    rw [← hn, ← h2]
    exact hm
  exact ⟨key _ _ h4, key _ _ h5⟩

/-- An image is rejected when a copied segment does not fit. -/
theorem C39_reject (e : Elf) (ph q : Phdr) (hq : q ∈ e.segments) (hr : q.isRam) (h0 : 0 < q.memsz)
    (hf : q.filesz = q.memsz) (hfirst : e.ramHeaders.head? = some ph)
    (hbad : q.vaddr < ph.vaddr ∨ ph.vaddr + 4096 < q.vaddr + q.memsz ∨ e.bytes.length < q.offset + q.memsz) :
    Phantom.fromElf e = none := by
  cases hp : Phantom.fromElf e with
  | none => rfl
  | some p =>
    exfalso
    obtain ⟨txt, -, -, -, -, -, -, h7, h8, h9, -, -⟩ := fromElf_inv hp
    obtain ⟨as, bs, hab⟩ := List.append_of_mem ((mem_ramHeaders e q).mpr ⟨hq, hr⟩)
    rw [hab] at h7
    obtain ⟨a1, a2, a3, -⟩ := loadSegments_at h7 h0 hf
    rw [List.length_replicate] at a2
    have : e.ramOffset = ph.vaddr := by unfold Elf.ramOffset; rw [hfirst]; rfl
    rw [this] at a1 a2
    unfold RAM_SIZE at a2
    omega

/-- Four bytes of code; a data segment with two initialised bytes followed by six bytes of `.bss`. -/
def exElf : Elf :=
  { bytes := [0x93, 0x00, 0xF0, 0xFF, 0xAA, 0xBB]
    segments := [⟨1, 5, 0, 0, 4, 4⟩, ⟨1, 6, 4, 0x40000, 2, 8⟩]
    sections := [(".inpdata", ⟨0x40000, 1⟩), (".outdata", ⟨0x40001, 1⟩)] }

/-- A data segment that also has an uninitialised part is not loaded at all, and the image is
accepted. -/
theorem C39_fails : ¬ LoadsEverySegment := by
  intro h
  cases hp : Phantom.fromElf exElf with
  | none => exact absurd hp (by decide +kernel)
  | some p =>
    have h1 := h exElf p hp [⟨1, 5, 0, 0, 4, 4⟩] ⟨1, 6, 4, 0x40000, 2, 8⟩ [] rfl ⟨rfl, Or.inr rfl⟩ 0
      (by decide) (by decide) (by simp)
    have h2 := C39_zero exElf p hp
    have h3 : p.bootRam.offset = 0x40000 := by
      obtain ⟨txt, -, -, -, -, -, -, -, h8, -⟩ := fromElf_inv hp
      rw [h8]; rfl
    have h4 := h2.2.2 0 (by decide) (by
      intro q hq hr hl
      simp only [exElf, List.mem_cons, List.not_mem_nil, or_false] at hq
      rcases hq with rfl | rfl
      · exact absurd hr.2 (by decide)
      · exact absurd hl.2.1 (by decide))
    rw [h3] at h1
    rw [show (0x40000 : Nat) + 0 - 0x40000 = 0 from rfl, h4] at h1
    exact absurd h1 (by decide)

/-- The same image with the `.bss` in a segment of its own is loaded. -/
def exElf2 : Elf :=
  { exElf with segments := [⟨1, 5, 0, 0, 4, 4⟩, ⟨1, 6, 4, 0x40000, 2, 2⟩, ⟨1, 6, 0, 0x40004, 0, 8⟩] }
example : (Phantom.fromElf exElf2).isSome = true := by decide +kernel
example : (Phantom.fromElf exElf2).map (fun p => (p.bootRam.data.take 4, p.bootRom.data)) =
    some ([0xAA, 0xBB, 0, 0], [0x93, 0x00, 0xF0, 0xFF]) := by decide +kernel

/-! ### C40 -/

/-- Bytes to words: word `k` has bytes `4k … 4k+3`, least significant first. -/
theorem C40_pack (bs : List Byte) (h : bs.length % 4 = 0) :
    (packWords bs).length = bs.length / 4 ∧
    ∀ (k : Nat) (w : Word), (packWords bs)[k]? = some w → ∀ j, j < 4 → bs[4 * k + j]? = some (w.extractLsb' (8 * j) 8) := by
  have hl := packWords_length bs h
  refine ⟨by omega, fun k w hk j hj => ?_⟩
  have := wordBytes_word (packWords bs) k j hj
  rw [wordBytes_packWords bs h, hk] at this
  exact this

/-- Words to bytes. -/
theorem C40_unpack (ws : List Word) (k : Nat) (w : Word) (hk : ws[k]? = some w) (j : Nat) (hj : j < 4) :
    (unpackWords ws)[4 * k + j]? = some (w.extractLsb' (8 * j) 8) := by
  rw [unpackWords_eq, wordBytes_word _ _ _ hj, hk]; rfl

theorem C40_inverse (ws : List Word) : packWords (unpackWords ws) = ws := by
  rw [unpackWords_eq, packWords_wordBytes]

theorem C40_inverse' (bs : List Byte) (h : bs.length % 4 = 0) : unpackWords (packWords bs) = bs := by
  rw [unpackWords_eq, wordBytes_packWords bs h]

/-- A trailing incomplete word is dropped: the condition on the length is needed (the RAM always
satisfies it, the ROM is checked). -/
theorem C40_remainder : ¬ ∀ bs : List Byte, unpackWords (packWords bs) = bs := fun h => by
  have := h [1]
  exact absurd this (by decide)

example : packWords [0x93, 0x00, 0xF0, 0xFF] = [0xFFF00093#32] := by decide
example : unpackWords [0xFFF00093#32] = [0x93, 0x00, 0xF0, 0xFF] := by decide

/-! ### C41 -/

theorem placed_copyInto {data src out : List Byte} {base start : Nat} (h : copyInto data base start src = some out) :
    base ≤ start ∧ Placed data (start - base) src out := by
  obtain ⟨h1, h2, h3, h4⟩ := copyInto_get h
  refine ⟨h1, h2, h3, fun i hi => ?_, fun k hk => ?_⟩
  · rw [h4, if_pos (by omega)]; congr 1; omega
  · rw [h4, if_neg (by omega)]

/-- Test VM, input: a tape of the declared length is placed at the declared address; anything else
panics.  (The RAM has 4096 bytes, and addresses and sizes come from 32-bit fields.) -/
theorem C41_test_input (chk : Bool) (vm vm' : TestVM) (tape : List Byte)
    (hlen : vm.ram.data.length < 2 ^ 32) (hoff : vm.ram.offset < 2 ^ 32) (htape : tape.length < 2 ^ 32)
    (h : vm.readInputTape chk tape = some vm') :
    tape.length = vm.input.size ∧ vm.ram.offset ≤ vm.input.startAddr ∧
    Placed vm.ram.data (vm.input.startAddr - vm.ram.offset) tape vm'.ram.data ∧
    vm' = { vm with ram := { vm.ram with data := vm'.ram.data } } := by
  unfold TestVM.readInputTape at h
  split at h
  · next hl =>
    obtain ⟨m, h1, rfl⟩ := Option.map_eq_some_iff.mp h
    unfold TMem.loadMemory usizeSub usizeAdd at h1
    obtain ⟨s, hs, h1⟩ := Option.bind_eq_some_iff.mp h1
    obtain ⟨e, he, h1⟩ := Option.bind_eq_some_iff.mp h1
    split at h1
    · next hse =>
      cases h1
      have hs' : vm.ram.offset ≤ vm.input.startAddr ∧ s = vm.input.startAddr - vm.ram.offset := by
        split at hs
        · cases hs; exact ⟨by assumption, rfl⟩
        · split at hs
          · cases hs
          · have := Option.some.inj hs
            exfalso
            omega
      obtain ⟨hb, rfl⟩ := hs'
      have he' : e = vm.input.startAddr - vm.ram.offset + tape.length := by
        split at he
        · cases he; rfl
        · exfalso
          split at he
          · cases he
          · have := Option.some.inj he; omega
      subst he'
      have hc : copyInto vm.ram.data vm.ram.offset vm.input.startAddr tape = some
          (vm.ram.data.take (vm.input.startAddr - vm.ram.offset) ++ tape ++
            vm.ram.data.drop (vm.input.startAddr - vm.ram.offset + tape.length)) := by
        unfold copyInto; rw [if_pos ⟨hb, hse.2⟩]
      exact ⟨hl, hb, (placed_copyInto hc).2, rfl⟩
    · cases h1
  · cases h

/-- Both VMs place the same bytes. -/
theorem test_input_eq (chk : Bool) (vm : TestVM) (tape bytes : List Byte) (hl : tape.length = vm.input.size)
    (hlen : vm.ram.data.length < 2 ^ 32)
    (h : copyInto vm.ram.data vm.ram.offset vm.input.startAddr tape = some bytes) :
    vm.readInputTape chk tape = some { vm with ram := { vm.ram with data := bytes } } := by
  unfold copyInto at h
  split at h
  · next hc =>
    cases h
    unfold TestVM.readInputTape TMem.loadMemory usizeSub usizeAdd
    rw [if_pos hl, if_pos hc.1, Option.bind_some, if_pos (by omega), Option.bind_some, if_pos ⟨by omega, hc.2⟩]
    rfl
  · cases h

/-- Test VM, output: the declared byte range. -/
theorem C41_test_output (chk : Bool) (vm : TestVM) (out : List Byte) (hlen : vm.ram.data.length = vm.ram.size)
    (hoff : vm.ram.offset + vm.ram.size < 2 ^ 63)
    (hb : vm.ram.offset ≤ vm.output.startAddr)
    (he : vm.output.startAddr + vm.output.size ≤ vm.ram.offset + vm.ram.size)
    (h : vm.outputTape chk = some out) : Range vm.ram.data (vm.output.startAddr - vm.ram.offset) vm.output.size out := by
  unfold TestVM.outputTape at h
  obtain ⟨h1, h2⟩ := collect_range _ _ _ h
  refine ⟨by omega, h1, fun i hi => ?_⟩
  rw [h2 i hi]
  unfold usizeAdd TMem.readByte usizeSub TMem.get
  rw [if_pos (by omega), Option.bind_some, if_pos (by omega), Option.bind_some, if_neg (by omega),
    Nat.mod_eq_of_lt (by omega)]
  congr 1; omega

/-- It does not panic when the range lies in the RAM. -/
theorem C41_test_output_total (chk : Bool) (vm : TestVM) (hlen : vm.ram.data.length = vm.ram.size)
    (hoff : vm.ram.offset + vm.ram.size < 2 ^ 63)
    (hb : vm.ram.offset ≤ vm.output.startAddr)
    (he : vm.output.startAddr + vm.output.size ≤ vm.ram.offset + vm.ram.size) :
    ∃ out, vm.outputTape chk = some out := by
  refine ⟨(List.range vm.output.size).map fun i => vm.ram.data.getD (vm.output.startAddr + i - vm.ram.offset) 0#8, ?_⟩
  unfold TestVM.outputTape
  apply collect_map_some
  intro i hi
  have hi := List.mem_range.mp hi
  unfold usizeAdd TMem.readByte usizeSub TMem.get
  rw [if_pos (by omega), Option.bind_some, if_pos (by omega), Option.bind_some, if_neg (by omega),
    Nat.mod_eq_of_lt (by omega), List.getElem?_eq_getElem (by omega), List.getD_eq_getElem?_getD,
    List.getElem?_eq_getElem (by omega)]
  rfl

end Verif.Props
