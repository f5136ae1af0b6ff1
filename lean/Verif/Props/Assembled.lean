import Verif.Props.Matcher
/-
  C88, first part: guests whose every instruction behaves alike in both VMs.  A run of the manual's machine decides the
  output of the test VM and of the encrypted VM.  Below it, rules for reasoning about such runs.
-/
namespace Verif.Props
open Model Spec

instance (i : Instr) : Decidable i.plainBase := by
  unfold Instr.plainBase
  split <;> infer_instance

/-- The instruction does the same in both VMs: loads at multiples of four, stores aligned, both in the RAM, and jumps to
multiples of four. -/
def Alike (i : Instr) (s : Arch) : Prop := i.supported s ∧ i.inWindow s ramBase 4096 ∧ ¬ i.badJump s

/-- Such a run is one of the encrypted VM. -/
theorem alike_enc {fetch : Word → Option Instr} {n : Nat} {s s' : Arch} (h : Runs fetch Alike n s s') :
    RunsWith fetch (execMirror 1024) n s s' := by
  induction h with
  | zero s => exact .zero s
  | succ hf hok hr ih =>
    refine .succ hf ?_
    rw [execMirror_supported 1024 _ _ (by decide) hok.1 hok.2.1]
    exact ih

/-- And one of the test VM. -/
theorem alike_test {fetch : Word → Option Instr} (hlen : ∀ pc i, fetch pc = some i → pc.toNat < 2 ^ 18) (chk : Bool)
    {n : Nat} {s s' : Arch} (h : Runs fetch Alike n s s') :
    Runs fetch (fun i s => ¬ stuck i s chk ramBase ∧ i.inWindow s ramBase 4096) n s s' := by
  induction h with
  | zero s => exact .zero s
  | @succ n i s s' hf hok hr ih =>
    have hlt := hlen _ _ hf
    refine .succ hf ⟨?_, hok.2.1⟩ ih
    have hsup := hok.1
    rintro (h | h | h | ⟨-, h | h⟩)
    · exact hok.2.2 h
    · cases i with
      | load o rd rs1 imm =>
        have hsup : (s.x rs1 + immI imm).toNat % 4 = 0 := hsup
        have h : (s.x rs1 + immI imm).toNat % o.size ≠ 0 := h
        cases o <;> simp only [LoadOp.size] at h <;> omega
      | store o rs1 rs2 imm =>
        cases o with
        | sh =>
          have h : (s.x rs1 + immI imm).toNat % 4 = 3 := h
          have h' : (s.x rs1 + immI imm).toNat % 2 = 0 := hsup
          omega
        | sb => exact h hsup
        | sw => exact h hsup
      | _ => exact h
    · cases i with
      | mul => exact hsup
      | _ => exact h
    · obtain ⟨a, n, h1, h2⟩ := h
      exact absurd (hok.2.1 a n h1).1 (by omega)
    · have := h.2; omega

/-- What the test VM does as the manual says: nothing stops it, and its accesses are in the RAM. -/
def TestOk (chk : Bool) (i : Instr) (s : Arch) : Prop := ¬ stuck i s chk ramBase ∧ i.inWindow s ramBase 4096

/-- A guest whose text section consists of `ws`, some of them the instructions `fetch` finds there.  Started on the RAM with the tape in
place, the manual's machine gets to `sT` in `n` of these, and the machine the interpreter implements to `sE`.  Then both VMs can be
set up, run to the end and return the output sections of `sT` and `sE`. -/
theorem words_both (F : Fhe) (rand : Nat → Nat → Nat → F.C.Rand) (chk dbg phantomDebug : Bool) (threads n : Nat)
    (e : Elf) (p : Phantom) (ws : List Word) (fetch : Word → Option Instr) (tape bytes : List Byte) (sT sE : Arch) (ht : 0 < threads)
    (hn : n < 2 ^ 32) (hfile : e.bytes.length < 2 ^ 63) (hp : Phantom.fromElf e = some p) (hbase : p.bootRam.offset = ramBase)
    (hrom : p.bootRom.data = wordBytes ws) (hne : ws ≠ [])
    (hf : ∀ pc i, fetch pc = some i → pc.toNat % 4 = 0 ∧ pc.toNat < 2 ^ 18 ∧ i.plainBase ∧ ws[pc.toNat / 4]? = some (encode i))
    (hpa : (Parser.new.addAll dbg ws).isSome = true)
    (htape : tape.length = p.input.size) (hin : Placed p.bootRam.data (p.input.startAddr - ramBase) tape bytes)
    (hlo : ramBase ≤ p.input.startAddr) (hhi : p.input.startAddr + p.input.size ≤ ramBase + 4096)
    (hb : ramBase ≤ p.output.startAddr) (he : p.output.startAddr + p.output.size ≤ ramBase + 4096)
    (hrunT : Runs fetch (TestOk chk) n (startState bytes) sT)
    (hrunE : RunsWith fetch (execMirror 1024) n (startState bytes) sE) :
    (∃ vm0 vm1 vm2, p.testVm chk n = some vm0 ∧ vm0.readInputTape chk tape = some vm1 ∧ vm1.execute chk = some vm2 ∧
      vm2.outputTape chk = some (ramBytes sT (p.output.startAddr - ramBase) p.output.size)) ∧
    ∃ ev ev2, p.encryptedVm F.C rand dbg phantomDebug threads tape n = some ev ∧
      ev.execute F.C F.decU F.decP = some ev2 ∧
      ev2.outputTape F.C chk = some (ramBytes sE (p.output.startAddr - ramBase) p.output.size) := by
  have hinstr : ∀ pc i, fetch pc = some i → InstrAt p.bootRom.data (4 * (pc.toNat / 4)) i := by
    intro pc i h j hj
    obtain ⟨-, -, -, hg⟩ := hf pc i h
    rw [hrom, wordBytes_get, show (4 * (pc.toNat / 4) + j) / 4 = pc.toNat / 4 by omega,
      show (4 * (pc.toNat / 4) + j) % 4 = j by omega, hg]
    rfl
  have hl : p.bootRom.data.length = 4 * ws.length := by rw [hrom, wordBytes_length]
  have h4 : p.bootRom.data.length % 4 = 0 := by omega
  have hpos : 0 < ws.length := List.length_pos_iff.mpr hne
  constructor
  · obtain ⟨vm0, vm1, e0, e1, -⟩ := testVm_total chk n e p tape hfile hp htape (by rw [hbase]; exact hlo) (by rw [hbase]; exact hhi)
    obtain ⟨vm2, e2, e3⟩ := C70_testvm chk n e p tape bytes vm0 vm1 fetch sT hfile hp hbase e0 e1 hin hlo htape h4
      (fun pc i h => by
        obtain ⟨h4, -, -, -⟩ := hf pc i h
        refine ⟨h4, ?_⟩
        have := hinstr _ _ h
        rwa [show 4 * (pc.toNat / 4) = pc.toNat by omega] at this)
      hrunT hb he
    exact ⟨vm0, vm1, vm2, e0, e1, e2, e3⟩
  · have hw : packWords p.bootRom.data = ws := by rw [hrom]; exact packWords_wordBytes ws
    obtain ⟨parser, hparser⟩ := Option.isSome_iff_exists.mp hpa
    obtain ⟨ev, hev⟩ := C42_setup F rand dbg phantomDebug threads n e p tape parser hp h4
      (fun h => by rw [h] at hl; simp at hl; omega) (by rw [hw]; exact hparser) htape (by rw [hbase]; exact hlo)
      (by rw [hbase]; exact hhi)
    obtain ⟨ev2, e2, e3⟩ := C70_debug F rand chk dbg phantomDebug threads n e p tape bytes ev fetch sE hp ht hn hev
      (by rw [hbase]; exact hin) (fun pc i h => ⟨(hf pc i h).2.2.1, hinstr _ _ h⟩)
      hrunE (by rw [hbase]; decide) (by rw [hbase]; exact hb) (by rw [hbase]; exact he)
    rw [hbase] at e3
    exact ⟨ev, ev2, hev, e2, e3⟩

/-- A guest whose text section consists of `ws`, some of them the instructions `fetch` finds there: if the manual's machine,
started on the RAM with the tape in place, gets to `s'` in `n` of these, both VMs can be set up, run to the end and return the
output section of `s'`. -/
theorem C88_words (F : Fhe) (rand : Nat → Nat → Nat → F.C.Rand) (chk dbg phantomDebug : Bool) (threads n : Nat)
    (e : Elf) (p : Phantom) (ws : List Word) (fetch : Word → Option Instr) (tape bytes : List Byte) (s' : Arch) (ht : 0 < threads)
    (hn : n < 2 ^ 32) (hfile : e.bytes.length < 2 ^ 63) (hp : Phantom.fromElf e = some p) (hbase : p.bootRam.offset = ramBase)
    (hrom : p.bootRom.data = wordBytes ws) (hne : ws ≠ [])
    (hf : ∀ pc i, fetch pc = some i → pc.toNat % 4 = 0 ∧ pc.toNat < 2 ^ 18 ∧ i.plainBase ∧ ws[pc.toNat / 4]? = some (encode i))
    (hpa : (Parser.new.addAll dbg ws).isSome = true)
    (htape : tape.length = p.input.size) (hin : Placed p.bootRam.data (p.input.startAddr - ramBase) tape bytes)
    (hlo : ramBase ≤ p.input.startAddr) (hhi : p.input.startAddr + p.input.size ≤ ramBase + 4096)
    (hb : ramBase ≤ p.output.startAddr) (he : p.output.startAddr + p.output.size ≤ ramBase + 4096)
    (hrun : Runs fetch Alike n (startState bytes) s') :
    (∃ vm0 vm1 vm2, p.testVm chk n = some vm0 ∧ vm0.readInputTape chk tape = some vm1 ∧ vm1.execute chk = some vm2 ∧
      vm2.outputTape chk = some (ramBytes s' (p.output.startAddr - ramBase) p.output.size)) ∧
    ∃ ev ev2, p.encryptedVm F.C rand dbg phantomDebug threads tape n = some ev ∧
      ev.execute F.C F.decU F.decP = some ev2 ∧
      ev2.outputTape F.C chk = some (ramBytes s' (p.output.startAddr - ramBase) p.output.size) :=
  words_both F rand chk dbg phantomDebug threads n e p ws fetch tape bytes s' s' ht hn hfile hp hbase hrom hne hf hpa htape hin hlo hhi hb he
    (alike_test (fun pc i h => (hf pc i h).2.1) chk hrun) (alike_enc hrun)

/-- `n` instructions of `code`. -/
abbrev Go (code : List Instr) : Nat → Arch → Arch → Prop := Runs (codeAt code) Alike

/-- The same for a text section of instructions only: if the manual's machine, started on the RAM with the tape in place, gets to `s'` in
`n` instructions, both VMs can be set up, run to the end and return the output section of `s'`. -/
theorem C88_both (F : Fhe) (rand : Nat → Nat → Nat → F.C.Rand) (chk dbg phantomDebug : Bool) (threads n : Nat)
    (e : Elf) (p : Phantom) (code : List Instr) (tape bytes : List Byte) (s' : Arch) (ht : 0 < threads) (hn : n < 2 ^ 32)
    (hfile : e.bytes.length < 2 ^ 63) (hp : Phantom.fromElf e = some p) (hbase : p.bootRam.offset = ramBase)
    (hrom : p.bootRom.data = wordBytes (code.map encode)) (hne : code ≠ []) (hlen : code.length ≤ 2 ^ 16)
    (hcode : ∀ i ∈ code, i.plainBase) (hpa : (Parser.new.addAll dbg (code.map encode)).isSome = true)
    (htape : tape.length = p.input.size) (hin : Placed p.bootRam.data (p.input.startAddr - ramBase) tape bytes)
    (hlo : ramBase ≤ p.input.startAddr) (hhi : p.input.startAddr + p.input.size ≤ ramBase + 4096)
    (hb : ramBase ≤ p.output.startAddr) (he : p.output.startAddr + p.output.size ≤ ramBase + 4096)
    (hrun : Go code n (startState bytes) s') :
    (∃ vm0 vm1 vm2, p.testVm chk n = some vm0 ∧ vm0.readInputTape chk tape = some vm1 ∧ vm1.execute chk = some vm2 ∧
      vm2.outputTape chk = some (ramBytes s' (p.output.startAddr - ramBase) p.output.size)) ∧
    ∃ ev ev2, p.encryptedVm F.C rand dbg phantomDebug threads tape n = some ev ∧
      ev.execute F.C F.decU F.decP = some ev2 ∧
      ev2.outputTape F.C chk = some (ramBytes s' (p.output.startAddr - ramBase) p.output.size) := by
  refine C88_words F rand chk dbg phantomDebug threads n e p (code.map encode) (codeAt code) tape bytes s' ht hn hfile hp hbase hrom
    (by simpa using hne) (fun pc i h => ?_) hpa htape hin hlo hhi hb he hrun
  obtain ⟨h4, hlt, hg⟩ := codeAt_inv h
  exact ⟨h4, by omega, hcode i (List.mem_of_getElem? hg), by rw [List.getElem?_map, hg]; rfl⟩

/-! ### Programs with their data -/

/-- The ELF file of a program: its text at 0, its data at 0x40000, beginning with the input section. -/
def asmElf (code : List Instr) (data : List Byte) (inSize outOff outSize : Nat) : Elf :=
  { bytes := wordBytes (code.map encode) ++ data
    segments := [⟨1, 5, 0, 0, 4 * code.length, 4 * code.length⟩, ⟨1, 6, 4 * code.length, 0x40000, data.length, data.length⟩]
    sections := [(".inpdata", ⟨0x40000, inSize⟩), (".outdata", ⟨0x40000 + outOff, outSize⟩)] }

/-- The image. -/
def asmImage (code : List Instr) (data : List Byte) (inSize outOff outSize : Nat) : Phantom :=
  { bootRom := ⟨wordBytes (code.map encode), 0, 4 * code.length⟩
    bootRam := ⟨data ++ List.replicate (4096 - data.length) 0#8, 0x40000, 4096⟩
    output := ⟨0x40000 + outOff, outSize⟩, input := ⟨0x40000, inSize⟩ }

theorem asm_elf (code : List Instr) (data : List Byte) (inSize outOff outSize : Nat) (hd : 0 < data.length) (hd' : data.length ≤ 4096) :
    Phantom.fromElf (asmElf code data inSize outOff outSize) = some (asmImage code data inSize outOff outSize) := by
  have hw : (wordBytes (code.map encode)).length = 4 * code.length := by rw [wordBytes_length, List.length_map]
  have t : (asmElf code data inSize outOff outSize).textHeader = some ⟨1, 5, 0, 0, 4 * code.length, 4 * code.length⟩ := rfl
  have r : (asmElf code data inSize outOff outSize).ramHeaders = [⟨1, 6, 4 * code.length, 0x40000, data.length, data.length⟩] := rfl
  have f : (asmElf code data inSize outOff outSize).ramOffset = 0x40000 := rfl
  have i : (asmElf code data inSize outOff outSize).sectionByName ".inpdata" = some ⟨0x40000, inSize⟩ := by
    unfold Elf.sectionByName asmElf
    simp
  have u : (asmElf code data inSize outOff outSize).sectionByName ".outdata" = some ⟨0x40000 + outOff, outSize⟩ := by
    unfold Elf.sectionByName asmElf
    simp
  have h1 : slice (asmElf code data inSize outOff outSize).bytes 0 (4 * code.length) = some (wordBytes (code.map encode)) := by
    unfold slice asmElf
    rw [if_pos (by rw [List.length_append, hw]; omega), List.drop_zero, ← hw, List.take_left]
  have h2 : slice (asmElf code data inSize outOff outSize).bytes (4 * code.length) data.length = some data := by
    unfold slice asmElf
    rw [if_pos (by rw [List.length_append, hw]; omega), ← hw, List.drop_left, List.take_length]
  have c : copyInto (List.replicate RAM_SIZE 0#8) 0x40000 0x40000 data = some (data ++ List.replicate (4096 - data.length) 0#8) := by
    unfold copyInto
    rw [if_pos ⟨Nat.le_refl _, by rw [List.length_replicate]; unfold RAM_SIZE; omega⟩, Nat.sub_self, List.take_zero, List.nil_append,
      List.drop_replicate, Nat.zero_add]
    rfl
  have s : loadSegments (asmElf code data inSize outOff outSize) 0x40000 [⟨1, 6, 4 * code.length, 0x40000, data.length, data.length⟩]
      (List.replicate RAM_SIZE 0#8) = some (data ++ List.replicate (4096 - data.length) 0#8) := by
    unfold loadSegments loadSegment
    rw [if_pos ⟨hd, rfl⟩, h2, Option.bind_some, c]
    rfl
  unfold Phantom.fromElf
  rw [t, Option.bind_some, if_pos ⟨rfl, rfl⟩, h1, Option.bind_some, r, f, s, Option.bind_some, i, Option.bind_some, u]
  rfl

/-- The RAM with the tape. -/
def asmRam (data tape : List Byte) : List Byte := tape ++ (data.drop tape.length ++ List.replicate (4096 - data.length) 0#8)

theorem asm_placed (data tape : List Byte) (h : tape.length ≤ data.length) :
    Placed (data ++ List.replicate (4096 - data.length) 0#8) 0 tape (asmRam data tape) := by
  unfold asmRam
  refine ⟨?_, ?_, fun i hi => ?_, fun k hk => ?_⟩
  · rw [List.length_append]; omega
  · rw [List.length_append, List.length_append, List.length_append, List.length_drop]; omega
  · rw [Nat.zero_add, List.getElem?_append_left hi]
  · have hk : tape.length ≤ k := by omega
    rw [List.getElem?_append_right hk]
    by_cases h1 : k < data.length
    · rw [List.getElem?_append_left (by rw [List.length_drop]; omega), List.getElem?_append_left h1, List.getElem?_drop,
        Nat.add_sub_cancel' hk]
    · rw [List.getElem?_append_right (by rw [List.length_drop]; omega), List.getElem?_append_right (by omega), List.length_drop]
      congr 1
      omega

/-- A byte of the tape in the memory. -/
theorem asm_input (data tape : List Byte) (v : Nat) (hv : v < tape.length) (hl : tape.length ≤ 4096) :
    (startState (asmRam data tape)).mem (BitVec.ofNat 32 (ramBase + v)) = tape.getD v 0#8 := by
  rw [startState_mem _ _ (by unfold ramBase; omega), List.getD_eq_getElem?_getD, List.getD_eq_getElem?_getD]
  unfold asmRam
  rw [List.getElem?_append_left hv]

/-- A byte of the data after it. -/
theorem asm_data (data tape : List Byte) (v : Nat) (hv : tape.length ≤ v) (hl : v < 4096) :
    (startState (asmRam data tape)).mem (BitVec.ofNat 32 (ramBase + v)) = data.getD v 0#8 := by
  rw [startState_mem _ _ (by unfold ramBase; omega), List.getD_eq_getElem?_getD, List.getD_eq_getElem?_getD]
  unfold asmRam
  rw [List.getElem?_append_right hv]
  by_cases h1 : v < data.length
  · rw [List.getElem?_append_left (by rw [List.length_drop]; omega), List.getElem?_drop, Nat.add_sub_cancel' hv]
  · rw [List.getElem?_append_right (by rw [List.length_drop]; omega), List.getElem?_replicate,
      List.getElem?_eq_none_iff.mpr (by omega : data.length ≤ v)]
    split <;> rfl

/-- `C88_both` for such a program. -/
theorem asm_both (F : Fhe) (rand : Nat → Nat → Nat → F.C.Rand) (chk dbg phantomDebug : Bool) (threads n : Nat)
    (code : List Instr) (data tape : List Byte) (inSize outOff outSize : Nat) (s' : Arch) (ht : 0 < threads) (hn : n < 2 ^ 32)
    (hne : code ≠ []) (hlen : code.length ≤ 2 ^ 16) (hcode : ∀ i ∈ code, i.plainBase)
    (hpa : (Parser.new.addAll dbg (code.map encode)).isSome = true)
    (hd : 0 < data.length) (hd' : data.length ≤ 4096) (htape : tape.length = inSize) (hin : inSize ≤ data.length)
    (hout : outOff + outSize ≤ 4096) (hrun : Go code n (startState (asmRam data tape)) s') :
    (∃ vm0 vm1 vm2, (asmImage code data inSize outOff outSize).testVm chk n = some vm0 ∧ vm0.readInputTape chk tape = some vm1 ∧
      vm1.execute chk = some vm2 ∧ vm2.outputTape chk = some (ramBytes s' outOff outSize)) ∧
    ∃ ev ev2, (asmImage code data inSize outOff outSize).encryptedVm F.C rand dbg phantomDebug threads tape n = some ev ∧
      ev.execute F.C F.decU F.decP = some ev2 ∧ ev2.outputTape F.C chk = some (ramBytes s' outOff outSize) := by
  have hfile : (asmElf code data inSize outOff outSize).bytes.length < 2 ^ 63 := by
    show (wordBytes (code.map encode) ++ data).length < _
    rw [List.length_append, wordBytes_length, List.length_map]
    omega
  have h := C88_both F rand chk dbg phantomDebug threads n _ _ code tape (asmRam data tape) s' ht hn hfile
    (asm_elf code data inSize outOff outSize hd hd') rfl rfl hne hlen hcode hpa htape
    (by
      have : (asmImage code data inSize outOff outSize).input.startAddr - ramBase = 0 := Nat.sub_self 0x40000
      rw [this]; exact asm_placed data tape (by omega))
    (Nat.le_refl 0x40000) (show 0x40000 + inSize ≤ 0x40000 + 4096 by omega) (Nat.le_add_right 0x40000 outOff)
    (show 0x40000 + outOff + outSize ≤ 0x40000 + 4096 by omega) hrun
  have e : (asmImage code data inSize outOff outSize).output.startAddr - ramBase = outOff := Nat.add_sub_cancel_left 0x40000 outOff
  rw [e] at h
  exact h

/-! ### Rules for runs that end in `jal x0, 0` -/

/-- The state before instruction number `k`. -/
def St (k : Nat) (x : Reg → Word) (m : Word → Byte) : Arch := ⟨BitVec.ofNat 32 (4 * k), x, m⟩

/-- Reading a register. -/
def rget (x : Reg → Word) (r : Reg) : Word := if r = 0#5 then 0#32 else x r
/-- Writing one. -/
def rset (x : Reg → Word) (r : Reg) (v : Word) : Reg → Word := fun q => if q = r ∧ r ≠ 0#5 then v else x q

theorem rget_def (x : Reg → Word) (r : Reg) : rget x r = if r = 0#5 then 0#32 else x r := rfl
theorem rset_def (x : Reg → Word) (r q : Reg) (v : Word) : rset x r v q = if q = r ∧ r ≠ 0#5 then v else x q := rfl

/-- From `s`, after `N` or more instructions, the program is in one state, with memory `M`. -/
def Ends (code : List Instr) (N : Nat) (s : Arch) (M : Word → Byte) : Prop :=
  ∃ t, t.mem = M ∧ ∀ n, N ≤ n → Go code n s t

section
variable {code : List Instr} {N k : Nat} {x : Reg → Word} {m M : Word → Byte}

theorem Ends.mono {s : Arch} (h : Ends code N s M) {N' : Nat} (hN : N ≤ N') : Ends code N' s M := by
  obtain ⟨t, h1, h2⟩ := h
  exact ⟨t, h1, fun n hn => h2 n (by omega)⟩

theorem Ends.step (i : Instr) (s' : Arch) (h : code[k]? = some i) (hk : k < 100) (hf : Alike i (St k x m))
    (he : exec i (St k x m) = s') (hr : Ends code N s' M) : Ends code (N + 1) (St k x m) M := by
  obtain ⟨t, h1, h2⟩ := hr
  refine ⟨t, h1, fun n hn => ?_⟩
  obtain ⟨n, rfl⟩ : ∃ j, n = j + 1 := ⟨n - 1, by omega⟩
  refine .succ (codeAt_of code k hk i h) hf ?_
  rw [he]; exact h2 n (by omega)

/-- Neither an access nor a jump. -/
theorem plain_alike {i : Instr} {s : Arch} (h1 : i.supported s) (h2 : i.access s = none) (h3 : i.jumpsTo s = none) : Alike i s :=
  ⟨h1, fun _ _ h => (nomatch h2.symm.trans h), fun ⟨_, h, _⟩ => nomatch h3.symm.trans h⟩

/-- A jump. -/
theorem jump_alike {i : Instr} {s : Arch} (h1 : i.supported s) (h2 : i.access s = none) (k : Nat)
    (h3 : ∀ t, i.jumpsTo s = some t → t = BitVec.ofNat 32 (4 * k)) : Alike i s :=
  ⟨h1, fun _ _ h => (nomatch h2.symm.trans h), fun ⟨t, h, h4⟩ => h4 (by rw [h3 t h, BitVec.toNat_ofNat]; omega)⟩

theorem Ends.op (o : RegOp) (rd a b : Reg) (h : code[k]? = some (.op o rd a b)) (hk : k < 100)
    (hr : Ends code N (St (k + 1) (rset x rd (o.eval (rget x a) (rget x b))) m) M) : Ends code (N + 1) (St k x m) M :=
  .step _ _ h hk (plain_alike trivial rfl rfl) (by unfold St; rw [← pc_next]; rfl) hr

theorem Ends.opImm (o : ImmOp) (rd a : Reg) (imm : BitVec 12) (h : code[k]? = some (.opImm o rd a imm)) (hk : k < 100)
    (hr : Ends code N (St (k + 1) (rset x rd (o.eval (rget x a) (immI imm))) m) M) : Ends code (N + 1) (St k x m) M :=
  .step _ _ h hk (plain_alike trivial rfl rfl) (by unfold St; rw [← pc_next]; rfl) hr

theorem Ends.shImm (o : ShiftOp) (rd a sh : Reg) (h : code[k]? = some (.shImm o rd a sh)) (hk : k < 100)
    (hr : Ends code N (St (k + 1) (rset x rd (o.eval (rget x a) sh.toNat)) m) M) : Ends code (N + 1) (St k x m) M :=
  .step _ _ h hk (plain_alike trivial rfl rfl) (by unfold St; rw [← pc_next]; rfl) hr

theorem Ends.lui (rd : Reg) (imm : BitVec 20) (h : code[k]? = some (.lui rd imm)) (hk : k < 100)
    (hr : Ends code N (St (k + 1) (rset x rd (immU imm)) m) M) : Ends code (N + 1) (St k x m) M :=
  .step _ _ h hk (plain_alike trivial rfl rfl) (by unfold St; rw [← pc_next]; rfl) hr

theorem ram_at {a : Word} {off : Nat} (h : off < 4096) (ha : a = BitVec.ofNat 32 (ramBase + off)) : a.toNat = ramBase + off := by
  rw [ha, BitVec.toNat_ofNat]; unfold ramBase; omega

theorem Ends.load (o : LoadOp) (rd a : Reg) (imm : BitVec 12) (off : Nat) (h : code[k]? = some (.load o rd a imm)) (hk : k < 100)
    (ha : rget x a + immI imm = BitVec.ofNat 32 (ramBase + off)) (h4 : off % 4 = 0) (hoff : off < 4096)
    (hr : Ends code N (St (k + 1) (rset x rd (o.eval m (BitVec.ofNat 32 (ramBase + off)))) m) M) :
    Ends code (N + 1) (St k x m) M := by
  have e := ram_at hoff ha
  refine .step _ _ h hk ⟨?_, ?_, fun ⟨_, h, _⟩ => nomatch h⟩ ?_ hr
  · show (rget x a + immI imm).toNat % 4 = 0
    rw [e]; unfold ramBase; omega
  · intro b n hb
    have hb := Prod.mk.inj (Option.some.inj hb)
    rw [← hb.1, ← hb.2]
    show ramBase ≤ (rget x a + immI imm).toNat ∧ (rget x a + immI imm).toNat + o.size ≤ ramBase + 4096
    rw [e]
    cases o <;> simp only [LoadOp.size] <;> omega
  · rw [← ha]; unfold St; rw [← pc_next]; rfl

theorem Ends.sw (a b : Reg) (imm : BitVec 12) (off : Nat) (h : code[k]? = some (.store .sw a b imm)) (hk : k < 100)
    (ha : rget x a + immI imm = BitVec.ofNat 32 (ramBase + off)) (h4 : off % 4 = 0) (hoff : off < 4096)
    (hr : Ends code N (St (k + 1) x (storeBytes m (BitVec.ofNat 32 (ramBase + off)) (rget x b) 4)) M) :
    Ends code (N + 1) (St k x m) M := by
  have e := ram_at hoff ha
  refine .step _ _ h hk ⟨?_, ?_, fun ⟨_, h, _⟩ => nomatch h⟩ ?_ hr
  · show (rget x a + immI imm).toNat % 4 = 0
    rw [e]; unfold ramBase; omega
  · intro b n hb
    have hb := Prod.mk.inj (Option.some.inj hb)
    rw [← hb.1, ← hb.2]
    show ramBase ≤ (rget x a + immI imm).toNat ∧ (rget x a + immI imm).toNat + 4 ≤ ramBase + 4096
    rw [e]
    omega
  · rw [← ha]; unfold St; rw [← pc_next]; rfl

theorem Ends.jal (rd : Reg) (imm : BitVec 20) (k' : Nat) (h : code[k]? = some (.jal rd imm)) (hk : k < 100)
    (hk' : BitVec.ofNat 32 (4 * k) + immJ imm = BitVec.ofNat 32 (4 * k'))
    (hr : Ends code N (St k' (rset x rd (BitVec.ofNat 32 (4 * (k + 1)))) m) M) : Ends code (N + 1) (St k x m) M :=
  .step _ _ h hk (jump_alike trivial rfl k' fun t ht => by rw [← Option.some.inj ht]; exact hk') (by
    show ({ (St k x m).setX rd (BitVec.ofNat 32 (4 * k) + 4#32) with pc := BitVec.ofNat 32 (4 * k) + immJ imm } : Arch) = _
    rw [hk', pc_next]; rfl) hr

theorem Ends.goto (imm : BitVec 20) (k' : Nat) (h : code[k]? = some (.jal 0 imm)) (hk : k < 100)
    (hk' : BitVec.ofNat 32 (4 * k) + immJ imm = BitVec.ofNat 32 (4 * k'))
    (hr : Ends code N (St k' x m) M) : Ends code (N + 1) (St k x m) M := by
  refine .jal 0 imm k' h hk hk' ?_
  have : rset x 0 (BitVec.ofNat 32 (4 * (k + 1))) = x := by
    funext q; unfold rset; simp
  rw [this]; exact hr

/-- `jalr x0, 0(a)`: the return from a subroutine. -/
theorem Ends.ret (a : Reg) (k' : Nat) (h : code[k]? = some (.jalr 0 a 0)) (hk : k < 100)
    (hk' : rget x a = BitVec.ofNat 32 (4 * k')) (hr : Ends code N (St k' x m) M) : Ends code (N + 1) (St k x m) M := by
  have e : (rget x a + immI 0) &&& ~~~1#32 = BitVec.ofNat 32 (4 * k') := by
    rw [hk', show immI 0 = 0#32 from by decide, BitVec.add_zero]
    apply BitVec.eq_of_getLsbD_eq
    intro i hi
    rw [BitVec.getLsbD_and, BitVec.getLsbD_not]
    cases i with
    | zero =>
      rw [BitVec.getLsbD_ofNat, Nat.testBit_zero, show 4 * k' % 2 = 0 by omega]
      rfl
    | succ i => simp [hi]
  refine .step _ _ h hk (jump_alike trivial rfl k' fun t ht => ?_) ?_ hr
  · rw [← Option.some.inj ht]; exact e
  · show ({ (St k x m).setX 0 _ with pc := (rget x a + immI 0) &&& ~~~1#32 } : Arch) = _
    rw [Arch.setX_zero, e]; rfl

theorem Ends.branch (o : BranchOp) (a b : Reg) (imm : BitVec 12) (k' : Nat) (h : code[k]? = some (.branch o a b imm)) (hk : k < 100)
    (hk' : BitVec.ofNat 32 (4 * k) + immB imm = BitVec.ofNat 32 (4 * k'))
    (h1 : o.taken (rget x a) (rget x b) → Ends code N (St k' x m) M)
    (h2 : ¬ o.taken (rget x a) (rget x b) → Ends code N (St (k + 1) x m) M) : Ends code (N + 1) (St k x m) M := by
  have hal : Alike (.branch o a b imm) (St k x m) := jump_alike trivial rfl k' fun t ht => by
    simp only [Instr.jumpsTo] at ht
    split at ht
    · rw [← Option.some.inj ht]; exact hk'
    · cases ht
  by_cases ht : o.taken (rget x a) (rget x b)
  · refine .step _ _ h hk hal ?_ (h1 ht)
    show (if o.taken (rget x a) (rget x b) then { St k x m with pc := (St k x m).pc + immB imm } else (St k x m).next) = _
    rw [if_pos ht]
    show ({ St k x m with pc := BitVec.ofNat 32 (4 * k) + immB imm } : Arch) = _
    rw [hk']; rfl
  · refine .step _ _ h hk hal ?_ (h2 ht)
    show (if o.taken (rget x a) (rget x b) then { St k x m with pc := (St k x m).pc + immB imm } else (St k x m).next) = _
    rw [if_neg ht]
    unfold St; rw [← pc_next]; rfl

/-- The end. -/
theorem Ends.stop (h : code[k]? = some (.jal 0 0)) (hk : k < 100) : Ends code 0 (St k x m) m := by
  have key : ∀ n, Go code n (St k x m) (St k x m) := by
    intro n
    induction n with
    | zero => exact .zero _
    | succ n ih =>
      refine .succ (codeAt_of code k hk _ h) (jump_alike trivial rfl k fun t ht => ?_) ?_
      · rw [← Option.some.inj ht, show immJ 0 = 0#32 from by decide, BitVec.add_zero]; rfl
      have : exec (.jal 0 0) (St k x m) = St k x m := by
        show ({ (St k x m).setX 0 _ with pc := (St k x m).pc + immJ 0 } : Arch) = _
        rw [Arch.setX_zero, show immJ 0 = 0#32 from by decide, BitVec.add_zero]
      rw [this]; exact ih
  exact ⟨_, rfl, fun n _ => key n⟩

end

end Verif.Props
