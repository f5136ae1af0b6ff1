import Verif.Spec.PastEnd
import Verif.Lemmas.Padded
import Verif.Props.EveryTest
/-
  Property C98: the encrypted VM beyond the end of the program.
-/
namespace Verif.Props
open Model Spec

/-- The interpreter that was set up, with a program continued by zeros as far as the addresses go. -/
theorem encrypted_padded (F : Fhe) (rand : Nat → Nat → Nat → F.C.Rand) (dbg phantomDebug : Bool) (threads n : Nat) (e : Elf)
    (p : Phantom) (tape bytes : List Byte) (ev : EncVM F.B)
    (hp : Phantom.fromElf e = some p) (ht : 0 < threads)
    (hev : p.encryptedVm F.C rand dbg phantomDebug threads tape n = some ev)
    (hin : Placed p.bootRam.data (p.input.startAddr - p.bootRam.offset) tape bytes)
    (hk : 2 ^ bitsFor (p.bootRom.data.length / 4) ≤ divCeil (p.bootRom.data.length / 4) (2 ^ F.B.logN) * 2 ^ F.B.logN) :
    ∃ d : Debug, d.WF ∧ d.Shows (startState bytes) ∧ d.ram.length = 2 ^ 10 ∧
      F.Runs (ev.interp.padded (2 ^ bitsFor (p.bootRom.data.length / 4))) d ∧
      (∀ (k : Nat) (w : Word), (packWords p.bootRom.data)[k]? = some w → d.rom[k]? = decodeWord dbg w) ∧
      (∀ k, p.bootRom.data.length / 4 ≤ k → k < 2 ^ bitsFor (p.bootRom.data.length / 4) → d.rom[k]? = some Decoded.zero) ∧
      d.rom.length = 2 ^ bitsFor (p.bootRom.data.length / 4) := by
  obtain ⟨z1, z2, -⟩ := C39_zero e p hp
  obtain ⟨_, txt, _, -, -, -, -, -, r1, r2, r3, -⟩ := C39_rom e p hp
  obtain ⟨h4, hl, parser, ds, bytes', hpa, hd, hds, hcp, hv, ho, hro, hmc, hmir⟩ := encryptedVm_inv hev
  obtain ⟨hlo, hpl⟩ := placed_copyInto hcp
  have hbb : bytes' = bytes := placed_unique hpl hin
  subst hbb
  have hbl : bytes'.length = 4096 := hpl.2.1.trans z2
  have hrs : p.bootRam.size / 4 = 1024 := by omega
  have hdl : ds.length = (packWords p.bootRom.data).length := by
    have := congrArg List.length hds
    simpa using this.symm
  have hroml := packWords_length p.bootRom.data h4
  have hsz : p.bootRom.size / 4 = p.bootRom.data.length / 4 := by omega
  rw [hrs, hsz] at hv
  have hle := le_two_pow_bitsFor (p.bootRom.data.length / 4)
  have hruns := Fhe.runs_padded ht hd (by omega) hk hv
  obtain ⟨i1, i2, i3⟩ := image_start (2 ^ bitsFor (p.bootRom.data.length / 4)) ds bytes' hbl
  refine ⟨_, i1, i2, i3, hruns, fun k w hw => ?_, fun k h1 h2 => ?_, ?_⟩
  · have h1 := congrArg (·[k]?) hds
    simp only [List.getElem?_map, hw, Option.map_some] at h1
    cases hdk : ds[k]? with
    | none => rw [hdk] at h1; cases h1
    | some x =>
      rw [hdk] at h1
      show (ds ++ _)[k]? = _
      rw [List.getElem?_append_left (List.getElem?_eq_some_iff.mp hdk).1, hdk]
      exact (Option.some.inj h1).symm
  · show (ds ++ List.replicate (_ - ds.length) Decoded.zero)[k]? = _
    rw [List.getElem?_append_right (by omega), List.getElem?_replicate, if_pos (by omega)]
  · show (ds ++ List.replicate (_ - ds.length) Decoded.zero).length = _
    rw [List.length_append, List.length_replicate]
    omega

/-- The word of zeros in a program memory is the branch to itself. -/
theorem zero_entry (dbg : Bool) : decodeWord dbg (encode (.branch .beq 0#5 0#5 0#12)) = some Decoded.zero := by
  cases dbg <;> decide

theorem C98_fetch (rom : List Byte) (bits : Nat) (h4 : rom.length % 4 = 0) (h : ∀ w ∈ packWords rom, Accepted w) :
    ∃ fetch, FetchPast rom bits fetch ∧ ∀ pc : Word, (fetch pc).isSome = true := by
  obtain ⟨f, hf, hd⟩ := C96_fetch rom bits h4 h
  refine ⟨fun pc => (f pc).or (some (.branch .beq 0#5 0#5 0#12)), fun pc i => ?_, fun pc => by simp⟩
  show (f pc).or _ = some i ↔ _
  rw [← hf pc i]
  cases h : f pc with
  | none =>
    have : ¬ pc.toNat % 2 ^ bits / 4 < rom.length / 4 := fun hlt => by
      have := (hd pc).mpr hlt
      rw [h] at this
      cases this
    constructor
    · intro h
      exact Or.inr ⟨Nat.le_of_not_lt this, (Option.some.inj h).symm⟩
    · rintro (h | ⟨-, rfl⟩)
      · cases h
      · rfl
  | some j =>
    have := (hd pc).mp (by rw [h]; rfl)
    constructor
    · intro h; exact Or.inl h
    · rintro (h | ⟨h, -⟩)
      · exact h
      · exact absurd h (Nat.not_le.mpr this)

/-- The encrypted VM on every program it takes, if the number of ciphertexts of a program memory is a power of two: it completes for every
input and every number of cycles under any correct library, and its output is that of the machine that is given by the words of the
program and, beyond the program, by branches to themselves. -/
theorem C98_encrypted (F : Fhe) (rand : Nat → Nat → Nat → F.C.Rand) (chk dbg : Bool) (threads n : Nat) (e : Elf)
    (p : Phantom) (tape : List Byte) (ev : EncVM F.B) (hp : Phantom.fromElf e = some p) (ht : 0 < threads) (hn : n < 2 ^ 32)
    (hev : p.encryptedVm F.C rand dbg false threads tape n = some ev)
    (hoff : p.bootRam.offset < 2 ^ 32) (hb : p.bootRam.offset ≤ p.output.startAddr)
    (he : p.output.startAddr + p.output.size ≤ p.bootRam.offset + 4096)
    (hk : 2 ^ bitsFor (p.bootRom.data.length / 4) ≤ divCeil (p.bootRom.data.length / 4) (2 ^ F.B.logN) * 2 ^ F.B.logN) :
    ∃ fetch bytes s' ev2, FetchPast p.bootRom.data (bitsFor (p.bootRom.data.length / 4) + 2) fetch ∧ (∀ pc : Word, (fetch pc).isSome = true) ∧
      Placed p.bootRam.data (p.input.startAddr - p.bootRam.offset) tape bytes ∧
      RunsWith fetch (fun i s => execAll 1024 i (s.wrapPc (bitsFor (p.bootRom.data.length / 4) + 2))) n (startState bytes) s' ∧
      ev.execute F.C F.decU F.decP = some ev2 ∧
      ev2.outputTape F.C chk = some (ramBytes s' (p.output.startAddr - p.bootRam.offset) p.output.size) := by
  obtain ⟨-, -, -, -, bytes, -, -, -, hcp, -⟩ := encryptedVm_inv hev
  obtain ⟨-, hin⟩ := placed_copyInto hcp
  obtain ⟨_, -, -, -, -, hc, ho, hro, hmc, hmir, h4, hacc, -⟩ :=
    encrypted_words F rand dbg false threads n e p tape bytes ev hp ht hev hin
  obtain ⟨d, hw, hs, hl, hr, hrom, hpad, hrl⟩ := encrypted_padded F rand dbg false threads n e p tape bytes ev hp ht hev hin hk
  obtain ⟨fetch, hf, hd⟩ := C98_fetch p.bootRom.data (bitsFor (p.bootRom.data.length / 4) + 2) h4
    (fun w h => decodeWord_accepted (hacc w h))
  rcases runs_or_leaves fetch (fun i s => execAll 1024 i (s.wrapPc (bitsFor (p.bootRom.data.length / 4) + 2))) n (startState bytes) with
    ⟨s', hrun⟩ | ⟨m, s', -, -, h3⟩
  · obtain ⟨i2, regs, ram, e1, -, -, e2, l2, m2, -⟩ := C96_library F (ev.interp.padded (2 ^ bitsFor (p.bootRom.data.length / 4))) d n 10
      (startState bytes) s' fetch dbg hr hw hs hl (fun pc i h => by
        rw [hrl, bitsFor_pow]
        rcases (hf pc i).mp h with ⟨w, hcw, hra⟩ | ⟨hby, rfl⟩
        · exact ⟨w, hra, hrom _ _ ((packWords_word h4).mpr hcw)⟩
        · refine ⟨_, .own _, (hpad _ hby ?_).trans (zero_entry dbg).symm⟩
          have := Nat.mod_lt pc.toNat (Nat.two_pow_pos (bitsFor (p.bootRom.data.length / 4) + 2))
          rw [Nat.pow_add] at this ⊢
          omega)
      (by rw [hl, hrl, bitsFor_pow]; exact hrun) (by show ev.interp.cycle.toNat + n < _; rw [hc]; simpa using hn)
    rw [Interp.padded_run] at e1
    obtain ⟨i3, e3, rfl⟩ := Option.map_eq_some_iff.mp e1
    have hex := cycles_none (C := F.C) (decU := F.decU) (decP := F.decP) n ev i3 (by rw [hmir]; rfl) e3
    exact ⟨fetch, bytes, s', { ev with interp := i3 }, hf, hd, hin, hrun, (congrArg (fun k => EncVM.cycles F.C F.decU F.decP k ev) hmc).trans hex,
      output_bytes F chk { ev with interp := i3 } ram s' p e2 l2 m2 ho hro hoff hb he⟩
  · have := hd s'.pc
    rw [h3] at this
    cases this

/-- A memory with one ciphertext per bit is such a memory: 1024 words with the parameters of the repository. -/
theorem C98_single (words N : Nat) (h0 : 0 < words) (hN : ∃ q, N = 2 ^ q) (h : words ≤ N) : 2 ^ bitsFor words ≤ divCeil words N * N := by
  obtain ⟨q, rfl⟩ := hN
  have h1 := divCeil_pos words (2 ^ q) h0 (Nat.two_pow_pos _)
  have h2 := Nat.pow_le_pow_right (n := 2) (by decide) (bitsFor_le words q h)
  exact Nat.le_trans h2 (Nat.le_mul_of_pos_left _ h1)

theorem past_step {rom : List Byte} {bits : Nat} {s : Arch} (hb : Beyond rom bits s.pc) :
    Beyond rom bits (execAll 1024 (.branch .beq 0#5 0#5 0#12) (s.wrapPc bits)).pc ∧
      (execAll 1024 (.branch .beq 0#5 0#5 0#12) (s.wrapPc bits)).reg = s.reg ∧
      (execAll 1024 (.branch .beq 0#5 0#5 0#12) (s.wrapPc bits)).mem = s.mem := by
  refine ⟨?_, rfl, rfl⟩
  have e : (execAll 1024 (.branch .beq 0#5 0#5 0#12) (s.wrapPc bits)).pc = BitVec.ofNat 32 (s.pc.toNat % 2 ^ bits) := by
    show BitVec.ofNat 32 (s.pc.toNat % 2 ^ bits) + 0#32 = _
    rw [BitVec.add_zero]
  unfold Beyond
  rw [e, BitVec.toNat_ofNat, Nat.mod_eq_of_lt (Nat.lt_of_le_of_lt (Nat.mod_le _ _) s.pc.isLt), Nat.mod_mod]
  exact hb

/-- Beyond the program nothing changes any more. -/
theorem C98_stays {rom : List Byte} {bits n : Nat} {fetch : Word → Option Instr} (hf : FetchPast rom bits fetch) {s s' : Arch}
    (hb : Beyond rom bits s.pc) (h : RunsWith fetch (fun i s => execAll 1024 i (s.wrapPc bits)) n s s') :
    s'.reg = s.reg ∧ s'.mem = s.mem := by
  induction h with
  | zero s => exact ⟨rfl, rfl⟩
  | succ hi _ ih =>
    cases Option.some.inj (((hf _ _).mpr (Or.inr ⟨hb, rfl⟩)).symm.trans hi)
    obtain ⟨h1, h2, h3⟩ := past_step hb
    obtain ⟨a1, a2⟩ := ih h1
    exact ⟨a1.trans h2, a2.trans h3⟩

/-- So the output is that of the moment when the program was left, however many cycles follow. -/
theorem C98_left {rom : List Byte} {bits m n : Nat} {fetch : Word → Option Instr} (hf : FetchPast rom bits fetch) {s t u : Arch}
    (h1 : RunsWith fetch (fun i s => execAll 1024 i (s.wrapPc bits)) m s t) (hb : Beyond rom bits t.pc) (hm : m ≤ n)
    (h2 : RunsWith fetch (fun i s => execAll 1024 i (s.wrapPc bits)) n s u) : u.reg = t.reg ∧ u.mem = t.mem := by
  induction h1 generalizing n with
  | zero s => exact C98_stays hf hb h2
  | succ hi _ ih =>
    cases h2 with
    | zero => omega
    | succ hj h =>
      cases Option.some.inj (hi.symm.trans hj)
      exact ih hb (by omega) h

/-! ### The program without an end -/

theorem count_past {fetch : Word → Option Instr} (hf : FetchPast countGuest.bootRom.data 5 fetch) (k : Nat) (i : Instr)
    (h : countCode[k]? = some i) : fetch (BitVec.ofNat 32 (4 * k)) = some i := by
  have hk : k < 5 := (List.getElem?_eq_some_iff.mp h).1
  have rd : ∃ w i, countCode[k]? = some i ∧ ReadsAs w i ∧ (packWords countGuest.bootRom.data)[k]? = some w := by
    have : k = 0 ∨ k = 1 ∨ k = 2 ∨ k = 3 ∨ k = 4 := by omega
    rcases this with rfl | rfl | rfl | rfl | rfl <;> exact ⟨_, _, rfl, .own _, by decide +kernel⟩
  obtain ⟨w, i', a1, a2, a3⟩ := rd
  cases Option.some.inj (a1.symm.trans h)
  refine (hf _ _).mpr (Or.inl ⟨w, ?_, a2⟩)
  rw [BitVec.toNat_ofNat, Nat.mod_eq_of_lt (by omega : 4 * k < 2 ^ 32), Nat.mod_eq_of_lt (by omega), Nat.mul_div_cancel_left _ (by decide)]
  exact (packWords_word (by decide +kernel)).mp a3

/-- The encrypted VM goes through the program of `C97_count` once and stays behind it: from the fourth cycle on the output is 1, however
many cycles there are, while the test VM starts over. -/
theorem C98_count (F : Fhe) (rand : Nat → Nat → Nat → F.C.Rand) (chk dbg : Bool) (threads n : Nat) (ht : 0 < threads) (h3 : 3 ≤ F.B.logN)
    (h4 : 4 ≤ n) (hn : n < 2 ^ 32) (tape : List Byte) (hl : tape.length = 4) :
    ∃ ev ev2, countGuest.encryptedVm F.C rand dbg false threads tape n = some ev ∧
      ev.execute F.C F.decU F.decP = some ev2 ∧ ev2.outputTape F.C chk = some (fourBytes 1#32) := by
  obtain ⟨q, hq⟩ : ∃ q, Parser.new.addAll dbg (packWords countGuest.bootRom.data) = some q := by
    rw [← Option.isSome_iff_exists]; cases dbg <;> decide +kernel
  obtain ⟨ev, hev⟩ := C42_setup F rand dbg false threads n countElf countGuest tape q count_elf
    (by decide +kernel) (by decide +kernel) hq (hl.trans (by decide +kernel)) (by decide +kernel) (by decide +kernel)
  have hw : countGuest.bootRom.data.length / 4 = 5 := by decide +kernel
  have hN : 2 ^ 3 ≤ 2 ^ F.B.logN := Nat.pow_le_pow_right (by decide) h3
  obtain ⟨fetch, bytes, s', ev2, hf, -, hin, hrun, h1, h2⟩ := C98_encrypted F rand chk dbg threads n countElf countGuest tape ev count_elf
    ht hn hev (by decide +kernel) (by decide +kernel) (by decide +kernel) (C98_single _ _ (by rw [hw]; decide) ⟨_, rfl⟩ (by rw [hw]; omega))
  refine ⟨ev, ev2, hev, h1, ?_⟩
  rw [hw] at hf hrun
  have start : CountAt 0 (startState bytes) := count_start (by
    have : countGuest.bootRam.offset = ramBase := by decide +kernel
    rw [← this]; exact hin) hl
  have step (k : Nat) (hk : k < 5) {s : Arch} (hpc : s.pc = BitVec.ofNat 32 (4 * k)) (hc : CountAt k s) :
      ∃ i, fetch s.pc = some i ∧ (execAll 1024 i (s.wrapPc 5)).pc = BitVec.ofNat 32 (4 * (k + 1)) ∧
        CountAt (k + 1) (execAll 1024 i (s.wrapPc 5)) := by
    obtain ⟨i, hi⟩ : ∃ i, countCode[k]? = some i := ⟨_, List.getElem?_eq_getElem hk⟩
    obtain ⟨-, -, -, -, w5, w6⟩ := count_step hc (i := i) (by rw [Nat.mod_eq_of_lt hk]; exact hi)
    have hwr : s.wrapPc 5 = s := by
      unfold Arch.wrapPc
      rw [hpc, BitVec.toNat_ofNat, Nat.mod_eq_of_lt (by omega : 4 * k < 2 ^ 32), Nat.mod_eq_of_lt (by omega), ← hpc]
    have same : execAll 1024 i s = exec i s := by
      have hx : k ≠ 0 → s.x 2 = 0x40000#32 := fun h => hc.base (by omega)
      have : k = 0 ∨ k = 1 ∨ k = 2 ∨ k = 3 ∨ k = 4 := by omega
      rcases this with rfl | rfl | rfl | rfl | rfl <;> cases hi
      · rfl
      · show (s.setX 1 (LoadOp.lw.eval s.mem (ramWord 1024 (s.x 2 + immI 4)))).next = (s.setX 1 (LoadOp.lw.eval s.mem (s.x 2 + immI 4))).next
        rw [hx (by decide)]
        rfl
      · rfl
      · show ({ s with mem := storeBytes s.mem (ramWord 1024 (s.x 2 + immI 4)) (s.x 1) 4 } : Arch).next =
          ({ s with mem := storeBytes s.mem (s.x 2 + immI 4) (s.x 1) 4 } : Arch).next
        rw [hx (by decide)]
        rfl
      · rfl
    refine ⟨i, by rw [hpc]; exact count_past hf k i hi, ?_⟩
    rw [hwr, same]
    refine ⟨?_, w6⟩
    rw [w5, hpc, show 4#32 = BitVec.ofNat 32 4 from rfl, ← BitVec.ofNat_add]
    rfl
  obtain ⟨i0, f0, p1, c1⟩ := step 0 (by decide) rfl start
  obtain ⟨i1, f1, p2, c2⟩ := step 1 (by decide) p1 c1
  obtain ⟨i2, f2, p3, c3⟩ := step 2 (by decide) p2 c2
  obtain ⟨i3, f3, p4, c4⟩ := step 3 (by decide) p3 c3
  obtain ⟨i4, f4, p5, c5⟩ := step 4 (by decide) p4 c4
  have run4 : RunsWith fetch (fun i s => execAll 1024 i (s.wrapPc 5)) 4 (startState bytes) _ := .succ f0 (.succ f1 (.succ f2 (.succ f3 (.zero _))))
  have hout : ∀ j, j < 4 → s'.mem (BitVec.ofNat 32 (0x40004 + j)) = (1#32).extractLsb' (8 * j) 8 := by
    by_cases h : n = 4
    · subst h
      cases runsWith_unique run4 hrun
      exact c4.out
    · have run5 : RunsWith fetch (fun i s => execAll 1024 i (s.wrapPc 5)) 5 (startState bytes) _ := .succ f0 (.succ f1 (.succ f2 (.succ f3 (.succ f4 (.zero _)))))
      have := (C98_left hf run5 (by unfold Beyond; rw [hw, p5]; decide) (by omega) hrun).2
      rw [this]
      exact c5.out
  rw [h2, show countGuest.output.startAddr - countGuest.bootRam.offset = 4 by decide +kernel, show countGuest.output.size = 4 by decide +kernel]
  refine congrArg some (List.map_congr_left fun j hj => ?_)
  rw [← hout j (List.mem_range.mp hj), show 0x40004 + j = ramBase + (4 + j) by unfold ramBase; omega]

end Verif.Props
