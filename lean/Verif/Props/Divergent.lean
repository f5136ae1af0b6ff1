import Verif.Props.Objects
/-
  C92: guests from their object files whose two executions need not agree: what the test VM returns and what the encrypted VM
  returns, each by its own instruction set; and string-match as object files, with byte loads and with word loads.
-/
namespace Verif.Props
open Model Model.Link Spec Boot ElfFile

/-! ### Every guest -/

/-- On entry to `_start_rust` the output section holds what the file says. -/
theorem entered_out {g : Link.Guest} {l : Layout} {c : Contents} (hv : Guest.Valid g) (h : link g = some l) (hc : c.Of l) {entry : Word}
    {tape : List Byte} {s : Arch} (hs : Entered l c entry tape s) : ramBytes s (l.out.addr - ramBase) l.out.size = c.out := by
  obtain ⟨r1, r2, r3, -⟩ := C64_ram hv h
  obtain ⟨-, o1, o2⟩ := r1 l.out (by simp [Layout.ramSections])
  have hrb : ramBase = 0x40000 := rfl
  have hlen : c.out.length = l.out.size := hc.2 (l.out, c.out) (by simp [Contents.ram])
  have hord : l.inp.addr + l.inp.size ≤ l.out.addr := (List.pairwise_cons.mp r3).1 l.out (by simp)
  refine List.ext_getElem? fun i => ?_
  by_cases hi : i < l.out.size
  · rw [← image_at hv h hc (l.out, c.out) (by simp [Contents.ram]) i hi]
    have e : (BitVec.ofNat 32 (l.out.addr + i)).toNat = l.out.addr + i := by rw [BitVec.toNat_ofNat]; omega
    have := hs.rest (BitVec.ofNat 32 (l.out.addr + i)) (by rw [e]; unfold Sect.has; omega)
    rw [e] at this
    unfold ramBytes
    rw [List.getElem?_map, List.getElem?_range hi, Option.map_some, show ramBase + (l.out.addr - ramBase + i) = l.out.addr + i by omega, this]
  · rw [List.getElem?_eq_none (by simp [ramBytes]; omega), List.getElem?_eq_none (by omega)]

/-- The two executions of a guest given by object files: both VMs start in one state, are in `_start_rust` after seven harmless
instructions, and return what the manual's machine and the machine that the interpreter implements leave in the output section. -/
theorem objects_start (F : Fhe) (rand : Nat → Nat → Nat → F.C.Rand) (chk dbg phantomDebug : Bool) (threads : Nat) (hth : 0 < threads)
    {gc : Bool} {rust : ObjSec} {rt : Nat} {gs : List ObjSec} {r : Linked} (hrt : 0 < rt)
    (hr : rust.sym = startRustSec rt) (hdef : rust.defs = [("_start_rust", 0)]) (hv : ∀ s ∈ gs, Piece.Valid s.sym.piece)
    (hfree : ∀ s ∈ gs, ∀ n ∈ scriptSymbols, n ∉ s.defs.map (·.1)) (h : linkObjs gc (guestObjs rust gs) = some r)
    {c : Contents} (hh : Holds r.secs r.layout r.places r.bytes c) {e : Elf} {k : Kinds}
    (he : LldFile e r.layout k c) (hi : k.inp ≠ none) (ho : k.out ≠ none) (hne : ∃ s ∈ r.layout.ramSections, 0 < s.size)
    (hfile : e.bytes.length < 2 ^ 63) (hpa : (Parser.new.addAll dbg (packWords c.text)).isSome = true)
    (tape : List Byte) (hlen : tape.length = r.layout.inp.size) (fetch : Word → Option Instr) (hf : FetchFrom c.text fetch) :
    ∃ p, Phantom.fromElf e = some p ∧ (∀ pc i, fetch pc = some i → pc.toNat < 2 ^ 18) ∧ ∃ entry s0 s1, (1, entry) ∈ r.places ∧
    Runs fetch (fun i s => i.harmless s ∧ i.encSupported s) 7 s0 s1 ∧ ramBytes s1 (r.layout.out.addr - ramBase) r.layout.out.size = c.out ∧
    Entered r.layout c (BitVec.ofNat 32 entry) tape s1 ∧ ∀ (n : Nat) (sT sE : Arch), n < 2 ^ 32 → Runs fetch (TestOk chk) n s0 sT →
      RunsWith fetch (execMirror 1024) n s0 sE →
    (∃ vm0 vm1 vm2, p.testVm chk n = some vm0 ∧ vm0.readInputTape chk tape = some vm1 ∧ vm1.execute chk = some vm2 ∧
      vm2.outputTape chk = some (ramBytes sT (r.layout.out.addr - ramBase) r.layout.out.size)) ∧
    ∃ ev ev2, p.encryptedVm F.C rand dbg phantomDebug threads tape n = some ev ∧
      ev.execute F.C F.decU F.decP = some ev2 ∧
      ev2.outputTape F.C chk = some (ramBytes sE (r.layout.out.addr - ramBase) r.layout.out.size) := by
  obtain ⟨entry, hentry, hboot⟩ := C91_start hrt hr hdef hv hfree h
  obtain ⟨h1, h2, -⟩ := C91_linked (rust_valid hr hv) h
  rw [guestObjs_sym hr] at h1
  have hv' := runtime_valid (rt := rt) (gs := gs.map ObjSec.sym) (by
    intro t ht
    obtain ⟨u, hu, rfl⟩ := List.mem_map.mp ht
    exact hv u hu)
  have hvj := resolved_valid hv' h1
  obtain ⟨-, ht, -⟩ := runtime_at hrt hv' h1 h2
  obtain ⟨g, hg, hl, -⟩ := placements_inv hvj h2
  obtain ⟨p, hp, l1, l2, l3, l4, l5, l6, l7⟩ := C82_loads (select_valid hvj hg) hl hh.1 he (by omega) hi ho hne
  obtain ⟨s0, s1, q1, -, q3, q4⟩ := loaded_start F rand chk dbg phantomDebug threads hth hrt hv' h1 h2 hh hfile hp ⟨l1, l2, l3, l4, l5, l6, l7⟩ entry
    hentry hboot hpa tape hlen fetch hf
  exact ⟨p, hp, fetch_low hv' h1 h2 hh hf, entry, s0, s1, hentry, q1, entered_out (select_valid hvj hg) hl hh.1 q3, q3, q4⟩

/-- From object files to the two outputs.  If the manual's machine, entered as C90 says, ends with `outT` in the output section without
being stopped, the test VM returns `outT`; if the machine that the interpreter implements ends with `outE` there, the encrypted VM
returns `outE` under every correct library, with or without the comparison with the mirror. -/
theorem C92_output (F : Fhe) (rand : Nat → Nat → Nat → F.C.Rand) (chk dbg phantomDebug : Bool) (threads n : Nat) (hth : 0 < threads)
    (hn : n + 7 < 2 ^ 32) {gc : Bool} {rust : ObjSec} {rt : Nat} {gs : List ObjSec} {r : Linked} (hrt : 0 < rt)
    (hr : rust.sym = startRustSec rt) (hdef : rust.defs = [("_start_rust", 0)]) (hv : ∀ s ∈ gs, Piece.Valid s.sym.piece)
    (hfree : ∀ s ∈ gs, ∀ n ∈ scriptSymbols, n ∉ s.defs.map (·.1)) (h : linkObjs gc (guestObjs rust gs) = some r)
    {c : Contents} (hh : Holds r.secs r.layout r.places r.bytes c) {e : Elf} {k : Kinds}
    (he : LldFile e r.layout k c) (hi : k.inp ≠ none) (ho : k.out ≠ none) (hne : ∃ s ∈ r.layout.ramSections, 0 < s.size)
    (hfile : e.bytes.length < 2 ^ 63) (hpa : (Parser.new.addAll dbg (packWords c.text)).isSome = true)
    (tape : List Byte) (hlen : tape.length = r.layout.inp.size) (fetch : Word → Option Instr) (hf : FetchFrom c.text fetch)
    (outT outE : List Byte)
    (hrunT : ∀ entry s, (1, entry) ∈ r.places → Entered r.layout c (BitVec.ofNat 32 entry) tape s →
      ∃ s', Runs fetch (fun i s => ¬ stuck i s chk ramBase ∧ i.inWindow s ramBase 4096) n s s' ∧
        ramBytes s' (r.layout.out.addr - ramBase) r.layout.out.size = outT)
    (hrunE : ∀ entry s, (1, entry) ∈ r.places → Entered r.layout c (BitVec.ofNat 32 entry) tape s →
      ∃ s', RunsWith fetch (execMirror 1024) n s s' ∧ ramBytes s' (r.layout.out.addr - ramBase) r.layout.out.size = outE) :
    ∃ p, Phantom.fromElf e = some p ∧
    (∃ vm0 vm1 vm2, p.testVm chk (n + 7) = some vm0 ∧ vm0.readInputTape chk tape = some vm1 ∧ vm1.execute chk = some vm2 ∧
      vm2.outputTape chk = some outT) ∧
    ∃ ev ev2, p.encryptedVm F.C rand dbg phantomDebug threads tape (n + 7) = some ev ∧
      ev.execute F.C F.decU F.decP = some ev2 ∧ ev2.outputTape F.C chk = some outE := by
  obtain ⟨p, hp, hlow, entry, s0, s1, hentry, q1, -, hin, both⟩ := objects_start F rand chk dbg phantomDebug threads hth hrt hr hdef hv hfree h hh
    he hi ho hne hfile hpa tape hlen fetch hf
  have q1 : Runs fetch Alike 7 s0 s1 := q1.mono (fun _ _ h => h) fun _ _ => harmless_alike
  obtain ⟨sT, hsT, houtT⟩ := hrunT entry s1 hentry hin
  obtain ⟨sE, hsE, houtE⟩ := hrunE entry s1 hentry hin
  rw [← houtT, ← houtE]
  exact ⟨p, hp, both (n + 7) sT sE hn (by rw [Nat.add_comm]; exact runs_append (alike_test hlow chk q1) hsT)
    (by rw [Nat.add_comm]; exact runsWith_append (alike_enc q1) hsE)⟩

/-- The same for the bytes of a file with one load segment for each section. -/
theorem C92_bytes (F : Fhe) (rand : Nat → Nat → Nat → F.C.Rand) (chk dbg phantomDebug : Bool) (threads n : Nat) (hth : 0 < threads)
    (hn : n + 7 < 2 ^ 32) {gc : Bool} {rust : ObjSec} {rt : Nat} {gs : List ObjSec} {r : Linked} (hrt : 0 < rt)
    (hr : rust.sym = startRustSec rt) (hdef : rust.defs = [("_start_rust", 0)]) (hv : ∀ s ∈ gs, Piece.Valid s.sym.piece)
    (hfree : ∀ s ∈ gs, ∀ n ∈ scriptSymbols, n ∉ s.defs.map (·.1)) (h : linkObjs gc (guestObjs rust gs) = some r)
    {c : Contents} (hh : Holds r.secs r.layout r.places r.bytes c) (hne : ∃ s ∈ r.layout.ramSections, 0 < s.size)
    (hpa : (Parser.new.addAll dbg (packWords c.text)).isSome = true)
    (tape : List Byte) (hlen : tape.length = r.layout.inp.size) (fetch : Word → Option Instr) (hf : FetchFrom c.text fetch)
    (outT outE : List Byte)
    (hrunT : ∀ entry s, (1, entry) ∈ r.places → Entered r.layout c (BitVec.ofNat 32 entry) tape s →
      ∃ s', Runs fetch (fun i s => ¬ stuck i s chk ramBase ∧ i.inWindow s ramBase 4096) n s s' ∧
        ramBytes s' (r.layout.out.addr - ramBase) r.layout.out.size = outT)
    (hrunE : ∀ entry s, (1, entry) ∈ r.places → Entered r.layout c (BitVec.ofNat 32 entry) tape s →
      ∃ s', RunsWith fetch (execMirror 1024) n s s' ∧ ramBytes s' (r.layout.out.addr - ramBase) r.layout.out.size = outE) :
    ∃ p, ElfBytes.fromBytes (guestFile r.layout c).write = some p ∧
    (∃ vm0 vm1 vm2, p.testVm chk (n + 7) = some vm0 ∧ vm0.readInputTape chk tape = some vm1 ∧ vm1.execute chk = some vm2 ∧
      vm2.outputTape chk = some outT) ∧
    ∃ ev ev2, p.encryptedVm F.C rand dbg phantomDebug threads tape (n + 7) = some ev ∧
      ev.execute F.C F.decU F.decP = some ev2 ∧ ev2.outputTape F.C chk = some outE := by
  obtain ⟨entry, hentry, hboot⟩ := C91_start hrt hr hdef hv hfree h
  obtain ⟨h1, h2, -⟩ := C91_linked (rust_valid hr hv) h
  rw [guestObjs_sym hr] at h1
  have hv' := runtime_valid (rt := rt) (gs := gs.map ObjSec.sym) (by
    intro t ht
    obtain ⟨u, hu, rfl⟩ := List.mem_map.mp ht
    exact hv u hu)
  have hvj := resolved_valid hv' h1
  obtain ⟨g, hg, hl, -⟩ := placements_inv hvj h2
  have hvg := select_valid hvj hg
  obtain ⟨e, p, h0, -, hp, l1, l2, l3, l4, l5, l6, l7⟩ := C73_guest hvg hl c hh.1 hne
  have hfit := guest_fits hvg hl c hh.1
  have hb : e.bytes = (guestFile r.layout c).write := by
    rw [C73_written _ hfit] at h0
    rw [← Option.some.inj h0]
  have hp' : Phantom.fromElf e = some p := by
    unfold ElfBytes.fromBytes at hp
    rwa [h0] at hp
  have := hfit.total
  exact ⟨p, hp, loaded_outputs F rand chk dbg phantomDebug threads n hth hn hrt hv' h1 h2 hh (by rw [hb]; omega) hp'
    ⟨l1, l2, l3, l4, l5, l6, l7⟩ entry hentry hboot hpa tape hlen fetch hf outT outE (fun s => hrunT entry s hentry)
    fun s => hrunE entry s hentry⟩

/-! ### string-match behind the start-up code -/

theorem stepAt_moved {i : Instr} (h : Relocatable i) (pos : Word → Word) (d : Word) (hd : d.toNat % 4 = 0) (s : Arch) :
    stepAt pos i (moved d s) = moved d (stepAt pos i s) := by
  cases i with
  | load o rd rs1 imm =>
    show ((moved d s).setX rd (o.eval s.mem (pos ((moved d s).x rs1 + immI imm)))).next =
      moved d (s.setX rd (o.eval s.mem (pos (s.x rs1 + immI imm)))).next
    rw [moved_x h.2, moved_setX h.1, moved_next]
  | _ => exact exec_moved h d hd s

theorem fits_moved {i : Instr} (h : Relocatable i) (d : Word) (s : Arch) (hs : Fits i s) : Fits i (moved d s) := by
  cases i with
  | load o rd rs1 imm => simp only [Fits, moved_x h.2] at hs ⊢; exact hs
  | store o rs1 rs2 imm => simp only [Fits, moved_x h.1] at hs ⊢; exact hs
  | _ => trivial

/-- The implemented machine does loads at the start of the word and everything else that fits as the manual says. -/
theorem execMirror_fits {i : Instr} {s : Arch} (h : Fits i s) : execMirror 1024 i s = stepAt (ramWord 1024) i s := by
  cases i with
  | store o rs1 rs2 imm =>
    refine execMirror_supported 1024 (.store o rs1 rs2 imm) s (by decide) h.1 ?_
    intro a n ha
    have ha := Prod.mk.inj (Option.some.inj ha)
    rw [← ha.1, ← ha.2]
    exact h.2
  | _ => rfl

/-- Code at another address, on the implemented machine. -/
theorem follows_moved_enc {code : List Instr} (hc : ∀ i ∈ code, Relocatable i) (d : Word) (hd : d.toNat % 4 = 0)
    {fetch : Word → Option Instr} (hf : ∀ pc i, codeAt code pc = some i → fetch (pc + d) = some i) :
    Follows code (ramWord 1024) fun n s s' => RunsWith fetch (execMirror 1024) n (moved d s) (moved d s') where
  zero s := .zero _
  succ i s s' n h1 h2 hr := by
    have hi := hc i (List.mem_of_getElem? (codeAt_inv h1).2.2)
    refine .succ (hf _ _ h1) ?_
    rw [execMirror_fits (fits_moved hi d s h2), stepAt_moved hi _ d hd]
    exact hr

/-- And on the manual's, as long as its jumps stay at multiples of four. -/
theorem follows_moved_test {code : List Instr} (hc : ∀ i ∈ code, Relocatable i) (hb : ∀ i ∈ code, i.isBase)
    (hj : ∀ i ∈ code, ∀ s : Arch, s.pc.toNat % 4 = 0 → ∀ t, i.jumpsTo s = some t → t.toNat % 4 = 0) (d : Word) (hd : d.toNat % 4 = 0)
    {fetch : Word → Option Instr} (hf : ∀ pc i, codeAt code pc = some i → fetch (pc + d) = some i)
    (hlow : ∀ pc i, fetch pc = some i → pc.toNat < 2 ^ 18) (chk : Bool) :
    Follows code id fun n s s' => Runs fetch (TestOk chk) n (moved d s) (moved d s') where
  zero s := .zero _
  succ i s s' n h1 h2 hr := by
    obtain ⟨g1, g2, g3⟩ := codeAt_inv h1
    have hm := List.mem_of_getElem? g3
    have hi := hc i hm
    have hfit := fits_moved hi d s h2
    have hpc := hlow _ _ (hf _ _ h1)
    have e : stepAt id i s = exec i s := by cases i <;> rfl
    rw [e] at hr
    refine .succ (hf _ _ h1) ⟨?_, ?_⟩ (by rw [exec_moved hi d hd]; exact hr)
    · rintro (h | h | h | ⟨-, h | h⟩)
      · obtain ⟨t, t1, t2⟩ := h
        rw [jumpsTo_moved hi d hd] at t1
        obtain ⟨u, hu, rfl⟩ := Option.map_eq_some_iff.mp t1
        have := hj i hm s g1 u hu
        rw [BitVec.toNat_add] at t2
        omega
      · cases i with
        | load o' rd rs1 imm => exact h hfit.1
        | store o' rs1 rs2 imm =>
          cases o' with
          | sh =>
            have h : ((moved d s).x rs1 + immI imm).toNat % 4 = 3 := h
            have h' : ((moved d s).x rs1 + immI imm).toNat % 2 = 0 := hfit.1
            omega
          | sb => exact h hfit.1
          | sw => exact h hfit.1
        | _ => exact h
      · cases i with
        | mul o' a b c => exact hb _ hm
        | _ => exact h
      · obtain ⟨a, n, q1, q2⟩ := h
        cases i <;> simp only [Instr.access, reduceCtorEq, Option.some.injEq, Prod.mk.injEq] at q1
        · obtain ⟨rfl, -⟩ := q1; exact absurd hfit.2.1 (by omega)
        · obtain ⟨rfl, -⟩ := q1; exact absurd hfit.2.1 (by omega)
      · have := h.2
        have hpc : (moved d s).pc.toNat < 2 ^ 18 := hpc
        omega
    · intro a n q1
      cases i <;> simp only [Instr.access, reduceCtorEq, Option.some.injEq, Prod.mk.injEq] at q1
      · obtain ⟨rfl, rfl⟩ := q1; exact hfit.2
      · obtain ⟨rfl, rfl⟩ := q1; exact hfit.2

theorem matcher_jumps (o : LoadOp) (stride : BitVec 12) : ∀ i ∈ matcher o stride, ∀ s : Arch, s.pc.toNat % 4 = 0 →
    ∀ t, i.jumpsTo s = some t → t.toNat % 4 = 0 := by
  intro i hmem s h4
  have add4 : ∀ d : Word, d.toNat % 4 = 0 → (s.pc + d).toNat % 4 = 0 := by
    intro d hd; rw [BitVec.toNat_add]; omega
  simp only [matcher, List.mem_cons, List.not_mem_nil, or_false] at hmem
  rcases hmem with rfl | rfl | rfl | rfl | rfl | rfl | rfl | rfl | rfl | rfl | rfl | rfl | rfl | rfl | rfl <;>
    intro t ht <;> simp only [Instr.jumpsTo] at ht
  all_goals first
    | (rw [← Option.some.inj ht]; exact add4 _ (by decide))
    | (split at ht
       · rw [← Option.some.inj ht]; exact add4 _ (by decide)
       · cases ht)
    | cases ht

theorem matcher_moves (o : LoadOp) (stride : BitVec 12) : ∀ i ∈ matcher o stride, Relocatable i ∧ i.isBase := by
  intro i hmem
  simp only [matcher, List.mem_cons, List.not_mem_nil, or_false] at hmem
  rcases hmem with rfl | rfl | rfl | rfl | rfl | rfl | rfl | rfl | rfl | rfl | rfl | rfl | rfl | rfl | rfl <;>
    exact ⟨by simp [Relocatable], trivial⟩

/-! ### Linked -/

/-- The relocations of `main`. -/
def matchRels : List Rel :=
  [⟨0, .hi, .sym "INPUT", 0⟩, ⟨20, .loI, .sym "INPUT", 0⟩, ⟨24, .loI, .sym "HIDDEN", 0⟩, ⟨52, .loS, .sym "OUTPUT", 0⟩]

/-- The objects of string-match: `main`, the tapes as byte arrays, the padded hidden string. -/
def matchObjs (o : LoadOp) (stride : BitVec 12) : List ObjSec :=
  [⟨".text.main", 4, wordBytes ((blank matchRels (matcher o stride)).map encode), [("main", 0)], matchRels⟩,
   ⟨".inpdata", 1, List.replicate 20 0#8, [("INPUT", 0)], []⟩, ⟨".outdata", 1, List.replicate 1 0#8, [("OUTPUT", 0)], []⟩,
   ⟨".rodata.HIDDEN", 4, secret, [("HIDDEN", 0)], []⟩]

/-- The layout. -/
def matchLayout : Layout :=
  { text := ⟨0, 104⟩, inp := ⟨0x40000, 20⟩, out := ⟨0x40014, 1⟩, rodata := ⟨0x40018, 20⟩, data := ⟨0x4002c, 0⟩, bss := ⟨0x4002c, 0⟩
    stackStart := 0x41000, gp := 0x4082c, fin := 0x4002c }

/-- The program. -/
def matchContents (o : LoadOp) (stride : BitVec 12) : Contents :=
  { text := wordBytes (programWords 0x4082c#32 0x41000#32 (matcher o stride)), inp := List.replicate 20 0#8, out := List.replicate 1 0#8
    rodata := secret, data := [] }

/-- The input is not `mut`, the output is, the hidden string is constant. -/
def matchKinds : Kinds := ⟨some false, some true, some false, none⟩

/-- Linking makes these programs out of the objects, and no others. -/
theorem C92_match_linked : (∃ r, linkObjs true (guestObjs rustObj (matchObjs .lbu 1)) = some r ∧ r.layout = matchLayout ∧
      ∀ c, Holds r.secs r.layout r.places r.bytes c ↔ c = matchContents .lbu 1) ∧
    ∃ r, linkObjs true (guestObjs rustObj (matchObjs .lw 4)) = some r ∧ r.layout = matchLayout ∧
      ∀ c, Holds r.secs r.layout r.places r.bytes c ↔ c = matchContents .lw 4 :=
  ⟨link_of_check (by decide +kernel), link_of_check (by decide +kernel)⟩

/-- What is in the memory when `_start_rust` is entered. -/
theorem match_memory {o : LoadOp} {stride : BitVec 12} {tape : List Byte} {s : Arch} (hlen : tape.length = 20) {E : Word}
    (hs : Entered matchLayout (matchContents o stride) E tape s) :
    (∀ v, v < 20 → some (s.mem (BitVec.ofNat 32 (ramBase + v))) = tape[v]?) ∧
    (∀ v, v < 20 → some (s.mem (BitVec.ofNat 32 (ramBase + 24 + v))) = secret[v]?) ∧ s.mem 0x40014#32 = 0#8 := by
  have himg : ∀ v, v < 20 → some (imageOf matchLayout (matchContents o stride) (0x40018 + v)) = secret[v]? := by
    have : (matchContents o stride).ram matchLayout = [(⟨0x40000, 20⟩, List.replicate 20 0#8), (⟨0x40014, 1⟩, List.replicate 1 0#8),
      (⟨0x40018, 20⟩, secret), (⟨0x4002c, 0⟩, [])] := rfl
    unfold imageOf
    rw [this]
    decide +kernel
  refine ⟨?_, ?_, ?_⟩
  · intro v hv
    rw [List.getElem?_eq_getElem (by omega)]
    exact congrArg some (hs.tape v _ (List.getElem?_eq_getElem (by omega)))
  · intro v hv
    have e1 : (BitVec.ofNat 32 (ramBase + 24 + v)).toNat = 0x40018 + v := by
      rw [BitVec.toNat_ofNat]; unfold ramBase; omega
    rw [hs.rest _ (by rw [e1]; show ¬ (0x40000 ≤ _ ∧ _ < 0x40000 + 20); omega), e1, himg v hv]
  · rw [hs.rest _ (by show ¬ (0x40000 ≤ (0x40014#32).toNat ∧ (0x40014#32).toNat < 0x40000 + 20); decide)]
    have : (matchContents o stride).ram matchLayout = [(⟨0x40000, 20⟩, List.replicate 20 0#8), (⟨0x40014, 1⟩, List.replicate 1 0#8),
      (⟨0x40018, 20⟩, secret), (⟨0x4002c, 0⟩, [])] := rfl
    unfold imageOf
    rw [this]
    decide +kernel

theorem runs_take {fetch : Word → Option Instr} {ok : Instr → Arch → Prop} {b : Nat} {u : Arch} :
    ∀ (a : Nat) (s : Arch), Runs fetch ok (a + b) s u → ∃ t, Runs fetch ok a s t ∧ Runs fetch ok b t u
  | 0, s, h => ⟨s, .zero s, by rwa [Nat.zero_add] at h⟩
  | a + 1, s, h => by
    rw [Nat.add_right_comm] at h
    cases h with
    | succ hf ho hr =>
      obtain ⟨t, h1, h2⟩ := runs_take a _ hr
      exact ⟨t, .succ hf ho h1, h2⟩

theorem runs_mem {fetch : Word → Option Instr} {ok : Instr → Arch → Prop} (hok : ∀ i s, ok i s → (exec i s).mem = s.mem) {n : Nat} {s t : Arch}
    (h : Runs fetch ok n s t) : t.mem = s.mem := by
  induction h with
  | zero s => rfl
  | succ hf ho _ ih => rw [ih, hok _ _ ho]

theorem harmless_mem {i : Instr} {s : Arch} (h : i.harmless s) : (exec i s).mem = s.mem := by
  cases i with
  | load o rd rs1 imm => cases h.1
  | store o rs1 rs2 imm => cases h.1
  | branch o a b c =>
    show (if _ then _ else _ : Arch).mem = _
    split <;> rfl
  | _ => rfl

/-- Start-up code, `_start_rust` and `main` of string-match, on a machine `R` with loads at `pos`: what is in the output section after any
number of instructions. -/
theorem match_run {o : LoadOp} {stride : BitVec 12} {pos : Word → Word} {fetch : Word → Option Instr} {R : Nat → Arch → Arch → Prop}
    (happ : ∀ a b s t u, R a s t → R b t u → R (a + b) s u) (hal : ∀ n s t, Runs fetch Alike n s t → R n s t)
    (hF : Follows (matcher o stride) pos fun n s s' => R n (moved (36#32 + 8#32) s) (moved (36#32 + 8#32) s'))
    (hcode : ∀ pc i, codeAt (tailCall ++ matcher o stride) pc = some i → fetch (pc + 36#32) = some i) {d k : Nat}
    (hd : immI stride = BitVec.ofNat 32 d) (hsz : d = o.size) (hk : k * d = 20) {s0 s1 : Arch}
    (h7 : Runs fetch (fun i s => i.harmless s ∧ i.encSupported s) 7 s0 s1) (hpc : s1.pc = 36#32) (hout : s1.mem 0x40014#32 = 0#8) {P : Prop}
    [Decidable P] (hP : (∀ j, j < k → sameAt o pos s1.mem (j * d)) ↔ P) (n : Nat) :
    ∃ t, R n s0 t ∧ t.mem 0x40014#32 = if 7 * k + 16 ≤ n ∧ P then 1#8 else 0#8 := by
  have h7' : R 7 s0 s1 := hal _ _ _ (h7.mono (fun _ _ h => h) fun _ _ => harmless_alike)
  rcases (show n ≤ 7 ∨ n = 8 ∨ 9 ≤ n by omega) with hn | rfl | hn
  · obtain ⟨b, hb⟩ : ∃ b, 7 = n + b := ⟨7 - n, by omega⟩
    rw [hb] at h7
    obtain ⟨t, h1, h2⟩ := runs_take n _ h7
    refine ⟨t, hal _ _ _ (h1.mono (fun _ _ h => h) fun _ _ => harmless_alike), ?_⟩
    rw [if_neg (by omega), ← hout, runs_mem (fun _ _ h => harmless_mem h.1) h2]
  · obtain ⟨x, hx⟩ := tail_entry (E := 36#32) (by decide) hcode hpc
    obtain ⟨t, h1, -⟩ := runs_take (b := 1) 1 _ hx
    refine ⟨t, happ 7 1 _ _ _ h7' (hal _ _ _ h1), ?_⟩
    rw [if_neg (by omega), ← hout]
    cases h1 with
    | succ hf ho hr =>
      rename_i i
      have := hcode 0#32 (.auipc 6 0) rfl
      rw [BitVec.zero_add, ← hpc, hf] at this
      cases Option.some.inj this
      cases hr
      rfl
  · obtain ⟨m, rfl⟩ : ∃ m, n = 7 + (2 + m) := ⟨n - 9, by omega⟩
    obtain ⟨x, hx⟩ := tail_entry (E := 36#32) (by decide) hcode hpc
    obtain ⟨s', q1, q2, q3⟩ := hF.whole d hd hsz k hk (St 0 x s1.mem) rfl
    have hP' : (∀ j, j < k → sameAt o pos (St 0 x s1.mem).mem (j * d)) ↔ P := hP
    have go : ∀ t, R m (moved (36#32 + 8#32) (St 0 x s1.mem)) t → R (7 + (2 + m)) s0 t := fun t ht =>
      happ _ _ _ _ _ h7' (happ _ _ _ _ _ (hal _ _ _ hx) ht)
    have hs' : s'.mem 0x40014#32 = if P then 1#8 else 0#8 := by
      have := matcher_tape q1
      have := (List.cons.inj (show [s'.mem 0x40014#32] = _ from this)).1
      rw [this]
      simp only [hP']
    by_cases hm : 7 * k + 7 ≤ m
    · refine ⟨_, go _ (q2 m hm), ?_⟩
      show s'.mem 0x40014#32 = _
      rw [hs']
      simp only [show 7 * k + 16 ≤ 7 + (2 + m) by omega, true_and]
    · obtain ⟨t, t1, t2⟩ := q3 m (by omega)
      refine ⟨_, go _ t1, ?_⟩
      show t.mem 0x40014#32 = _
      rw [if_neg (by omega)]
      rcases t2 with t2 | ⟨t2, t3⟩
      · rw [t2]; exact hout
      · rw [t3, hs', if_neg (fun hp => t2 (hP'.mpr hp))]

/-- string-match with loads `o`: if the comparisons amount to `P` where loads are done at their address, and to `Q` where they are done at
the start of the word, the VMs return whether `P` and whether `Q` if the limit is at least `7 * k + 16`, and 0 otherwise. -/
theorem match_output (o : LoadOp) (stride : BitVec 12) (d k : Nat) (ho : o ≠ .lb) (hd : immI stride = BitVec.ofNat 32 d) (hsz : d = o.size)
    (hk : k * d = 20) (hpa : ∀ dbg, (Parser.new.addAll dbg (programWords 0x4082c#32 0x41000#32 (matcher o stride))).isSome = true)
    (hlink : ∃ r, linkObjs true (guestObjs rustObj (matchObjs o stride)) = some r ∧ r.layout = matchLayout ∧
      ∀ c, Holds r.secs r.layout r.places r.bytes c ↔ c = matchContents o stride)
    (hentry : ∀ r, linkObjs true (guestObjs rustObj (matchObjs o stride)) = some r → ∀ a, (1, a) ∈ r.places → a = 36)
    (hval : ∀ s ∈ matchObjs o stride, Piece.Valid s.sym.piece)
    (F : Fhe) (rand : Nat → Nat → Nat → F.C.Rand) (chk dbg phantomDebug : Bool) (threads n : Nat) (ht : 0 < threads)
    (hn' : n < 2 ^ 32) (r : Linked) (hr : linkObjs true (guestObjs rustObj (matchObjs o stride)) = some r)
    (c : Contents) (hc : Holds r.secs r.layout r.places r.bytes c) (e : Elf) (he : LldFile e r.layout matchKinds c)
    (hfile : e.bytes.length < 2 ^ 63) (tape : List Byte) (hlen : tape.length = 20) (P Q : Prop) [Decidable P] [Decidable Q]
    (hP : ∀ m : Word → Byte, (∀ v, v < 20 → some (m (BitVec.ofNat 32 (ramBase + v))) = tape[v]?) →
      (∀ v, v < 20 → some (m (BitVec.ofNat 32 (ramBase + 24 + v))) = secret[v]?) → ((∀ j, j < k → sameAt o id m (j * d)) ↔ P))
    (hQ : ∀ m : Word → Byte, (∀ v, v < 20 → some (m (BitVec.ofNat 32 (ramBase + v))) = tape[v]?) →
      (∀ v, v < 20 → some (m (BitVec.ofNat 32 (ramBase + 24 + v))) = secret[v]?) →
      ((∀ j, j < k → sameAt o (ramWord 1024) m (j * d)) ↔ Q)) :
    ∃ p, Phantom.fromElf e = some p ∧
    (∃ vm0 vm1 vm2, p.testVm chk n = some vm0 ∧ vm0.readInputTape chk tape = some vm1 ∧ vm1.execute chk = some vm2 ∧
      vm2.outputTape chk = some [if 7 * k + 16 ≤ n ∧ P then 1#8 else 0#8]) ∧
    ∃ ev ev2, p.encryptedVm F.C rand dbg phantomDebug threads tape n = some ev ∧
      ev.execute F.C F.decU F.decP = some ev2 ∧ ev2.outputTape F.C chk = some [if 7 * k + 16 ≤ n ∧ Q then 1#8 else 0#8] := by
  obtain ⟨r', h1, h2, h3⟩ := hlink
  cases Option.some.inj (hr.symm.trans h1)
  cases (h3 c).mp hc
  obtain ⟨fetch, hf⟩ := C90_fetch (matchContents o stride).text
  have hplain : ∀ i ∈ matcher o stride, i.plainBase := by
    intro i hmem
    simp only [matcher, List.mem_cons, List.not_mem_nil, or_false] at hmem
    rcases hmem with rfl | rfl | rfl | rfl | rfl | rfl | rfl | rfl | rfl | rfl | rfl | rfl | rfl | rfl | rfl
    case inr.inr.inr.inr.inr.inl => exact plain_load o ho _ _ _
    case inr.inr.inr.inr.inr.inr.inl => exact plain_load o ho _ _ _
    all_goals trivial
  have hl15 : (matcher o stride).length ≤ 2 ^ 15 := by show 15 ≤ _; decide
  have hcode := program_fetch hl15 hplain hf
  have hlow : ∀ pc i, fetch pc = some i → pc.toNat < 2 ^ 18 := by
    intro pc i hpc
    have := (List.getElem?_eq_some_iff.mp (((hf pc i).mp hpc).2.2 0 (by decide))).1
    have hl : (matchContents o stride).text.length = 104 := hc.1.1.trans (by rw [h2]; rfl)
    omega
  have reg := fun i hi => (matcher_moves o stride i hi).1
  obtain ⟨p, hp, -, entry, s0, s1, hm, q1, -, hs, both⟩ := objects_start F rand chk dbg phantomDebug threads ht (rt := 8) (by decide) rfl rfl
    hval (by
      intro s hs
      simp only [matchObjs, List.mem_cons, List.not_mem_nil, or_false] at hs
      rcases hs with rfl | rfl | rfl | rfl
      · exact (by decide : ∀ n ∈ scriptSymbols, n ∉ [("main", 0)].map (·.1))
      · decide
      · decide
      · decide) h1 hc he (by decide) (by decide)
    ⟨r.layout.inp, by simp [Layout.ramSections], by rw [h2]; decide⟩ hfile
    (by rw [show (matchContents o stride).text = wordBytes (programWords 0x4082c#32 0x41000#32 (matcher o stride)) from rfl,
          packWords_wordBytes]; exact hpa dbg) tape (by rw [h2]; exact hlen) fetch hf
  cases hentry r h1 entry hm
  rw [h2] at hs both
  obtain ⟨hi, hh, h0⟩ := match_memory hlen hs
  obtain ⟨sT, t1, t2⟩ := match_run (fun _ _ _ _ _ => runs_append) (fun _ _ _ h => alike_test hlow chk h)
    (follows_moved_test reg (fun i hi => (matcher_moves o stride i hi).2) (matcher_jumps o stride) (36#32 + 8#32)
      (by decide) (tail_code hl15 hcode) hlow chk) hcode hd hsz hk q1 hs.pc h0 (hP s1.mem hi hh) n
  obtain ⟨sE, e1, e2⟩ := match_run (fun _ _ _ _ _ => runsWith_append) (fun _ _ _ h => alike_enc h)
    (follows_moved_enc reg (36#32 + 8#32) (by decide) (tail_code hl15 hcode)) hcode hd hsz hk q1 hs.pc h0 (hQ s1.mem hi hh) n
  rw [← t2, ← e2]
  exact ⟨p, hp, both n sT sE hn' t1 e1⟩

/-- `_start_rust` is behind the start-up code. -/
theorem match_entry (o : LoadOp) (stride : BitVec 12)
    (h : ((linkObjs true (guestObjs rustObj (matchObjs o stride))).all fun r => r.places.all fun x => x.1 != 1 || x.2 == 36) = true) :
    ∀ r, linkObjs true (guestObjs rustObj (matchObjs o stride)) = some r → ∀ a, (1, a) ∈ r.places → a = 36 := by
  intro r hr a ha
  rw [hr] at h
  have := List.all_eq_true.mp h (1, a) ha
  simpa using this

/-- string-match with byte loads, from its object files: the test VM returns what the source says; the encrypted VM looks only at every
fourth character, and the comparison with the mirror, when it is on, does not notice. -/
theorem C92_match_bytes (F : Fhe) (rand : Nat → Nat → Nat → F.C.Rand) (chk dbg phantomDebug : Bool) (threads n : Nat) (ht : 0 < threads)
    (hn : 156 ≤ n) (hn' : n < 2 ^ 32) (r : Linked) (hr : linkObjs true (guestObjs rustObj (matchObjs .lbu 1)) = some r)
    (c : Contents) (hc : Holds r.secs r.layout r.places r.bytes c) (e : Elf) (he : LldFile e r.layout matchKinds c)
    (hfile : e.bytes.length < 2 ^ 63) (tape : List Byte) (hlen : tape.length = 20) :
    ∃ p, Phantom.fromElf e = some p ∧
    (∃ vm0 vm1 vm2, p.testVm chk n = some vm0 ∧ vm0.readInputTape chk tape = some vm1 ∧ vm1.execute chk = some vm2 ∧
      vm2.outputTape chk = Guest.matchMain tape) ∧
    ∃ ev ev2, p.encryptedVm F.C rand dbg phantomDebug threads tape n = some ev ∧
      ev.execute F.C F.decU F.decP = some ev2 ∧
      ev2.outputTape F.C chk = some [if ∀ k, k < 5 → tape[4 * k]? = secret[4 * k]? then 1#8 else 0#8] := by
  rw [matchMain_secret tape hlen]
  have := match_output .lbu 1 1 20 (by decide) (by decide) rfl rfl (by decide +kernel) C92_match_linked.1
    (match_entry _ _ (by decide +kernel)) (by unfold Piece.Valid; decide +kernel) F rand chk dbg phantomDebug threads n ht hn' r hr c hc e
    he hfile tape hlen _ _ (fun _ => seen_bytes tape hlen) (fun _ => seen_firsts tape)
  simpa only [show 7 * 20 + 16 ≤ n from hn, true_and] using this

/-- With word loads both VMs return what the source says. -/
theorem C92_match_words (F : Fhe) (rand : Nat → Nat → Nat → F.C.Rand) (chk dbg phantomDebug : Bool) (threads n : Nat) (ht : 0 < threads)
    (hn : 51 ≤ n) (hn' : n < 2 ^ 32) (r : Linked) (hr : linkObjs true (guestObjs rustObj (matchObjs .lw 4)) = some r)
    (c : Contents) (hc : Holds r.secs r.layout r.places r.bytes c) (e : Elf) (he : LldFile e r.layout matchKinds c)
    (hfile : e.bytes.length < 2 ^ 63) (tape : List Byte) (hlen : tape.length = 20) :
    ∃ p, Phantom.fromElf e = some p ∧
    (∃ vm0 vm1 vm2, p.testVm chk n = some vm0 ∧ vm0.readInputTape chk tape = some vm1 ∧ vm1.execute chk = some vm2 ∧
      vm2.outputTape chk = Guest.matchMain tape) ∧
    ∃ ev ev2, p.encryptedVm F.C rand dbg phantomDebug threads tape n = some ev ∧
      ev.execute F.C F.decU F.decP = some ev2 ∧ ev2.outputTape F.C chk = Guest.matchMain tape := by
  rw [matchMain_secret tape hlen]
  have := match_output .lw 4 4 5 (by decide) (by decide) rfl rfl (by decide +kernel) C92_match_linked.2
    (match_entry _ _ (by decide +kernel)) (by unfold Piece.Valid; decide +kernel) F rand chk dbg phantomDebug threads n ht hn' r hr c hc e
    he hfile tape hlen _ _ (fun _ a b => seen_words tape hlen a b id fun _ _ _ => rfl)
    (fun _ a b => seen_words tape hlen a b _ fun k h1 h2 => by rw [ramWord_eq k h1, show 4 * (k / 4) = k by omega])
  simpa only [show 7 * 5 + 16 ≤ n from hn, true_and] using this

/-! ### The host -/

/-- The host of string-match with a guest whose outputs are whether `P` and whether `Q`: it gets through exactly if both are right. -/
theorem matchHost_of (F : Fhe) (rand : Nat → Nat → Nat → F.C.Rand) (utf8 : List Byte → Bool) (env : Host.Env) (cpus : Nat)
    (chk dbg : Bool) (p : Phantom) (s : List Byte) (hs : s.length ≤ 20) (P Q : Prop) [Decidable P] [Decidable Q]
    (hT : ∃ vm0 vm1 vm2, p.testVm chk (Host.maxCycles utf8 env 100) = some vm0 ∧
      vm0.readInputTape chk (s ++ List.replicate (20 - s.length) 0#8) = some vm1 ∧ vm1.execute chk = some vm2 ∧
      vm2.outputTape chk = some [if P then 1#8 else 0#8])
    (hE : ∃ ev ev2, p.encryptedVm F.C rand dbg (Host.flag utf8 env "PHANTOM_DEBUG") (Host.threads utf8 env cpus)
        (s ++ List.replicate (20 - s.length) 0#8) (Host.maxCycles utf8 env 100) = some ev ∧
      ev.execute F.C F.decU F.decP = some ev2 ∧ ev2.outputTape F.C chk = some [if Q then 1#8 else 0#8]) :
    Host.matchHost F.C rand F.decU F.decP utf8 env cpus chk dbg p s =
      if (P ↔ s ++ List.replicate (20 - s.length) 0#8 = secret) ∧ (Q ↔ s ++ List.replicate (20 - s.length) 0#8 = secret) then
        some (decide (s ++ List.replicate (20 - s.length) 0#8 = secret))
      else none := by
  obtain ⟨vm0, vm1, vm2, a1, a2, a3, a4⟩ := hT
  obtain ⟨ev, ev2, b1, b2, b3⟩ := hE
  by_cases hq : (P ↔ s ++ List.replicate (20 - s.length) 0#8 = secret) ∧ (Q ↔ s ++ List.replicate (20 - s.length) 0#8 = secret)
  · rw [if_pos hq, C74_match]
    refine ⟨hs, by simp, [if s ++ List.replicate (20 - s.length) 0#8 = secret then 1#8 else 0#8], ?_, ?_⟩
    · simp only [hq.1] at a4
      simp only [hq.2] at b3
      exact (C74_equal _ _ _ _ _ _ _ _ _ _ _ _).mpr ⟨⟨ev, ev2, b1, b2, b3⟩, vm0, vm1, vm2, a1, a2, a3, a4⟩
    · by_cases e : s ++ List.replicate (20 - s.length) 0#8 = secret
      · rw [if_pos e]; simp [e]
      · rw [if_neg e]; simp [e]
  · rw [if_neg hq]
    cases hm : Host.matchHost F.C rand F.decU F.decP utf8 env cpus chk dbg p s with
    | none => rfl
    | some b =>
      exfalso
      obtain ⟨-, hb, tape, h1, h2⟩ := (C74_match _ _ _ _ _ _ _ _ _ _ _ _).mp hm
      obtain ⟨⟨ev', ev2', c1, c2, c3⟩, vm0', vm1', vm2', d1, d2, d3, d4⟩ := (C74_equal _ _ _ _ _ _ _ _ _ _ _ _).mp h1
      rw [b1] at c1; cases c1
      rw [b2] at c2; cases c2
      rw [a1] at d1; cases d1
      rw [a2] at d2; cases d2
      rw [a3] at d3; cases d3
      rw [b3] at c3
      rw [a4] at d4
      cases Option.some.inj d4
      have c4 : (if Q then 1#8 else 0#8) = if P then 1#8 else 0#8 := (List.cons.inj (Option.some.inj c3)).1
      have h3 : (if P then 1#8 else 0#8) ≠ 0#8 ↔ P := by
        by_cases hp : P
        · rw [if_pos hp]; exact ⟨fun _ => hp, fun _ => by decide⟩
        · rw [if_neg hp]; exact ⟨fun h => absurd rfl h, fun h => absurd h hp⟩
      have h4 : (if Q then 1#8 else 0#8) ≠ 0#8 ↔ Q := by
        by_cases hp : Q
        · rw [if_pos hp]; exact ⟨fun _ => hp, fun _ => by decide⟩
        · rw [if_neg hp]; exact ⟨fun h => absurd rfl h, fun h => absurd h hp⟩
      rw [c4] at h4
      have h5 := hb.symm.trans h2
      exact hq ⟨(h5.trans h3).symm, (h5.trans h4).symm⟩

/-- string-match from its object files to the assertions of its host.  With word loads the host gets through for every string, with the
right answer.  With byte loads it gets through unless the string is wrong but right in every fourth character. -/
theorem C92_match_host (F : Fhe) (rand : Nat → Nat → Nat → F.C.Rand) (utf8 : List Byte → Bool) (env : Host.Env) (cpus : Nat)
    (chk dbg : Bool) (hn' : Host.maxCycles utf8 env 100 < 2 ^ 32) (ht : 0 < Host.threads utf8 env cpus) (r : Linked) (c : Contents)
    (hc : Holds r.secs r.layout r.places r.bytes c) (e : Elf) (he : LldFile e r.layout matchKinds c) (hfile : e.bytes.length < 2 ^ 63) :
    (51 ≤ Host.maxCycles utf8 env 100 → linkObjs true (guestObjs rustObj (matchObjs .lw 4)) = some r →
      ∃ p, Phantom.fromElf e = some p ∧ ∀ s, s.length ≤ 20 → Host.matchHost F.C rand F.decU F.decP utf8 env cpus chk dbg p s =
        some (decide (s ++ List.replicate (20 - s.length) 0#8 = secret))) ∧
    (156 ≤ Host.maxCycles utf8 env 100 → linkObjs true (guestObjs rustObj (matchObjs .lbu 1)) = some r →
      ∃ p, Phantom.fromElf e = some p ∧ ∀ s, s.length ≤ 20 → Host.matchHost F.C rand F.decU F.decP utf8 env cpus chk dbg p s =
        if s ++ List.replicate (20 - s.length) 0#8 = secret then some true
        else if ∀ k, k < 5 → (s ++ List.replicate (20 - s.length) 0#8)[4 * k]? = secret[4 * k]? then none
        else some false) := by
  have len : ∀ s : List Byte, s.length ≤ 20 → (s ++ List.replicate (20 - s.length) 0#8).length = 20 := by
    intro s hs; simp; omega
  constructor
  · intro hn hr
    have run := C92_match_words F rand chk dbg (Host.flag utf8 env "PHANTOM_DEBUG") (Host.threads utf8 env cpus) _ ht hn hn' r hr c hc e he hfile
    obtain ⟨p, hp, -⟩ := run secret (by decide)
    refine ⟨p, hp, fun s hs => ?_⟩
    obtain ⟨p', hp', hT, hE⟩ := run _ (len s hs)
    cases Option.some.inj (hp.symm.trans hp')
    rw [matchMain_secret _ (len s hs)] at hT hE
    rw [matchHost_of F rand utf8 env cpus chk dbg p s hs _ _ hT hE, if_pos ⟨Iff.rfl, Iff.rfl⟩]
  · intro hn hr
    have run := C92_match_bytes F rand chk dbg (Host.flag utf8 env "PHANTOM_DEBUG") (Host.threads utf8 env cpus) _ ht hn hn' r hr c hc e he hfile
    obtain ⟨p, hp, -⟩ := run secret (by decide)
    refine ⟨p, hp, fun s hs => ?_⟩
    obtain ⟨p', hp', hT, hE⟩ := run _ (len s hs)
    cases Option.some.inj (hp.symm.trans hp')
    rw [matchMain_secret _ (len s hs)] at hT
    rw [matchHost_of F rand utf8 env cpus chk dbg p s hs _ _ hT hE]
    by_cases q : s ++ List.replicate (20 - s.length) 0#8 = secret
    · rw [if_pos q, if_pos ⟨Iff.rfl, fun _ => q, fun _ => by rw [q]; exact fun _ _ => rfl⟩, decide_eq_true q]
    · rw [if_neg q]
      by_cases h4 : ∀ k, k < 5 → (s ++ List.replicate (20 - s.length) 0#8)[4 * k]? = secret[4 * k]?
      · rw [if_pos h4, if_neg (fun h => q (h.2.mp h4))]
      · rw [if_neg h4, if_pos ⟨Iff.rfl, fun h => absurd h h4, fun h => absurd h q⟩, decide_eq_false q]

/-- "m???i???p??" is not "mississippi", but under encryption the linked guest says it is. -/
example (dbg : Bool) : ∃ (r : Linked) (e : Elf) (p : Phantom) (tape : List Byte),
    linkObjs true (guestObjs rustObj (matchObjs .lbu 1)) = some r ∧ Phantom.fromElf e = some p ∧ tape.length = 20 ∧
    Guest.matchMain tape = some [0#8] ∧
    ∃ ev ev2, p.encryptedVm sampleFhe.C (fun _ _ _ => ()) dbg true 3 tape 200 = some ev ∧
      ev.execute sampleFhe.C sampleFhe.decU sampleFhe.decP = some ev2 ∧ ev2.outputTape sampleFhe.C true = some [1#8] := by
  obtain ⟨r, h1, h2, h3⟩ := C92_match_linked.1
  have he := lldElf_is matchLayout matchKinds (matchContents .lbu 1)
  rw [← h2] at he
  have hl : ("m???i???p??".toUTF8.toList.map (fun b => b.toBitVec) ++ List.replicate 9 0#8).length = 20 := by decide +kernel
  obtain ⟨p, g1, -, ev, ev2, g2, g3, g4⟩ := C92_match_bytes sampleFhe (fun _ _ _ => ()) true dbg true 3 200 (by decide) (by decide) (by decide) r h1
    _ ((h3 _).mpr rfl) _ he (by rw [h2]; decide +kernel) _ hl
  rw [if_pos (by decide +kernel)] at g4
  exact ⟨r, _, p, _, h1, g1, hl, by decide +kernel, ev, ev2, g2, g3, g4⟩

/-- With word loads and the settings as they are, the host gets through and says that "not-mississippi" does not match. -/
example (dbg : Bool) : ∃ (r : Linked) (e : Elf) (p : Phantom), linkObjs true (guestObjs rustObj (matchObjs .lw 4)) = some r ∧
    Phantom.fromElf e = some p ∧ Host.matchHost sampleFhe.C (fun _ _ _ => ()) sampleFhe.decU sampleFhe.decP (fun _ => true) (fun _ => none) 4
      true dbg p Host.notMississippi = some false := by
  obtain ⟨r, h1, h2, h3⟩ := C92_match_linked.2
  have he := lldElf_is matchLayout matchKinds (matchContents .lw 4)
  rw [← h2] at he
  obtain ⟨p, g1, g2⟩ := (C92_match_host sampleFhe (fun _ _ _ => ()) (fun _ => true) (fun _ => none) 4 true dbg (by decide) (by decide) r _
    ((h3 _).mpr rfl) _ he (by rw [h2]; decide +kernel)).1 (by decide) h1
  refine ⟨r, _, p, h1, g1, ?_⟩
  rw [g2 _ (by decide)]
  exact congrArg some (by decide +kernel)

end Verif.Props
