import Verif.Props.DebugExact
/-
  C94 and C95 for guests given by object files.
-/
namespace Verif.Props
open Model Model.Link Spec Boot ElfFile

/-! ### Runs -/

theorem fetchAny_exists (rom : List Byte) : ∃ fetch, FetchAny rom fetch := by
  classical
  refine ⟨fun pc => if h : ∃ i, pc.toNat % 4 = 0 ∧ InstrAt rom pc.toNat i then some h.choose else none, fun pc i => ?_⟩
  constructor
  · intro h
    simp only at h
    split at h
    · next hx => rw [← Option.some.inj h]; exact hx.choose_spec
    · cases h
  · intro h
    simp only
    have hx : ∃ i, pc.toNat % 4 = 0 ∧ InstrAt rom pc.toNat i := ⟨i, h⟩
    rw [dif_pos hx]
    exact congrArg some (instrAt_unique hx.choose_spec.2 h.2)

theorem harmless_all {i : Instr} {s : Arch} (h : i.harmless s ∧ i.encSupported s) (words : Nat) :
    execAll words i s = exec i s ∧ execMirror words i s = exec i s ∧ debugOk words i s := by
  obtain ⟨⟨h1, -, -, h4⟩, h5⟩ := h
  cases i with
  | load => cases h1
  | store => cases h1
  | mul o rd rs1 rs2 => exact absurd rfl (h4 o rd rs1 rs2)
  | jal rd imm =>
    refine ⟨?_, rfl, h5⟩
    have : ((immJ imm).setWidth 20).signExtend 32 = immJ imm := (jump20 (.jal rd imm) s h5).resolve_left
      (show ¬ PcUpdate.JAL.id = PcUpdate.NONE.id by decide)
    show ({ s.setX rd (s.pc + 4#32) with pc := s.pc + ((immJ imm).setWidth 20).signExtend 32 } : Arch) = exec (.jal rd imm) s
    rw [this]; rfl
  | _ => exact ⟨rfl, rfl, trivial⟩

/-- A run of the manual's machine over instructions with another effect that is the same there. -/
theorem runs_with {fetch : Word → Option Instr} {ok : Instr → Arch → Prop} {step : Instr → Arch → Arch}
    (hst : ∀ i s, ok i s → step i s = exec i s) {n : Nat} {s s' : Arch} (h : Runs fetch ok n s s') :
    RunsWith fetch step n s s' ∧ (∀ m, m < n → ∀ a i, RunsWith fetch step m s a → fetch a.pc = some i → ok i a) ∧
    ∀ m a, RunsWith fetch step (n + m) s a → RunsWith fetch step m s' a := by
  induction h with
  | zero s =>
    refine ⟨.zero s, fun m hm => absurd hm (by omega), fun m a h => ?_⟩
    rw [Nat.zero_add] at h; exact h
  | @succ n i s s' hf hok hr ih =>
    obtain ⟨i1, i2, i3⟩ := ih
    rw [← hst i s hok] at i1 i2 i3
    refine ⟨.succ hf i1, fun m hm a j hra hj => ?_, fun m a hra => ?_⟩
    · cases hra with
      | zero => rw [hf] at hj; cases hj; exact hok
      | succ g1 g3 =>
        rw [hf] at g1; cases g1
        exact i2 _ (by omega) a j g3 hj
    · rw [show n + 1 + m = n + m + 1 by omega] at hra
      cases hra with
      | succ g1 g3 => rw [hf] at g1; cases g1; exact i3 m a g3

theorem fetchAny_lt {rom : List Byte} {fetch : Word → Option Instr} (hf : FetchAny rom fetch) {pc : Word} {i : Instr}
    (h : fetch pc = some i) : pc.toNat < rom.length :=
  (List.getElem?_eq_some_iff.mp (((hf pc i).mp h).2 0 (by decide))).1

/-- The program counter is not reduced where there is an instruction. -/
theorem runs_wrap {rom : List Byte} {fetch : Word → Option Instr} (hf : FetchAny rom fetch) (bits : Nat) (hb : rom.length ≤ 2 ^ bits)
    {step : Instr → Arch → Arch} {n : Nat} {s s' : Arch} (h : RunsWith fetch step n s s') :
    RunsWith fetch (fun i s => step i (s.wrapPc bits)) n s s' := by
  induction h with
  | zero s => exact .zero s
  | @succ n i s s' h1 h2 ih =>
    refine .succ h1 ?_
    have : s.wrapPc bits = s := by
      unfold Arch.wrapPc
      rw [Nat.mod_eq_of_lt (Nat.lt_of_lt_of_le (fetchAny_lt hf h1) hb), BitVec.ofNat_toNat, BitVec.setWidth_eq]
    show RunsWith _ _ n (step i (s.wrapPc bits)) s'
    rw [this]; exact ih

/-! ### Guests given by object files -/

/-- Where both VMs start on a guest given by object files, and how they get to `_start_rust`. -/
theorem objects_boot {gc : Bool} {rust : ObjSec} {rt : Nat} {gs : List ObjSec} {r : Linked} (hrt : 0 < rt)
    (hr : rust.sym = startRustSec rt) (hdef : rust.defs = [("_start_rust", 0)]) (hv : ∀ s ∈ gs, Piece.Valid s.sym.piece)
    (hfree : ∀ s ∈ gs, ∀ n ∈ scriptSymbols, n ∉ s.defs.map (·.1)) (h : linkObjs gc (guestObjs rust gs) = some r)
    {c : Contents} (hh : Holds r.secs r.layout r.places r.bytes c) {e : Elf} {k : Kinds}
    (he : LldFile e r.layout k c) (hi : k.inp ≠ none) (ho : k.out ≠ none) (hne : ∃ s ∈ r.layout.ramSections, 0 < s.size)
    (tape : List Byte) (hlen : tape.length = r.layout.inp.size) (fetch : Word → Option Instr) (hf : FetchAny c.text fetch) :
    ∃ p, Phantom.fromElf e = some p ∧ LoadedAs r.layout c p ∧ ∃ entry after s1, (1, entry) ∈ r.places ∧
    Placed p.bootRam.data (r.layout.inp.addr - ramBase) tape after ∧
    Runs fetch (fun i s => i.harmless s ∧ i.encSupported s) 7 (startState after) s1 ∧
    Entered r.layout c (BitVec.ofNat 32 entry) tape s1 ∧ c.text.length % 4 = 0 ∧ 0 < c.text.length ∧ c.text.length ≤ 2 ^ 18 ∧
    ramBase ≤ r.layout.inp.addr ∧ r.layout.inp.addr + r.layout.inp.size ≤ ramBase + 4096 ∧
    ramBase ≤ r.layout.out.addr ∧ r.layout.out.addr + r.layout.out.size ≤ ramBase + 4096 := by
  obtain ⟨entry, hentry, hboot⟩ := C91_start hrt hr hdef hv hfree h
  obtain ⟨h1, h2, -⟩ := C91_linked (rust_valid hr hv) h
  rw [guestObjs_sym hr] at h1
  have hv' := runtime_valid (rt := rt) (gs := gs.map ObjSec.sym) (by
    intro t ht
    obtain ⟨u, hu, rfl⟩ := List.mem_map.mp ht
    exact hv u hu)
  have hvj := resolved_valid hv' h1
  obtain ⟨-, ht, -⟩ := runtime_at hrt hv' h1 h2
  obtain ⟨g, hg, hl, -⟩ := placements_inv hvj h2
  obtain ⟨p, hp, l1, l2, l3, l4, l5, l6, l7⟩ := C82_loads (select_valid hvj hg) hl hh.1 he (by omega) hi ho hne
  obtain ⟨after, s1, b1, b2, -, b3⟩ := loaded_boot hrt hv' h1 h2 hh ⟨l1, l2, l3, l4, l5, l6, l7⟩ entry hentry hboot tape hlen fetch
    (fun pc i a _ c => (hf pc i).mpr ⟨a, c⟩)
  exact ⟨p, hp, ⟨l1, l2, l3, l4, l5, l6, l7⟩, entry, after, s1, hentry, b1, b2, b3⟩

/-- From object files to the two outputs, for a guest of any RV32IM instructions.  If the manual's machine, entered as C90 says, ends with
`outT` in the output section without being stopped, the test VM returns `outT`; if `execAll` ends with `outE` there, the encrypted VM
without the comparison returns `outE` under every correct library. -/
theorem C94_output (F : Fhe) (rand : Nat → Nat → Nat → F.C.Rand) (chk dbg : Bool) (threads n : Nat) (hth : 0 < threads)
    (hn : n + 7 < 2 ^ 32) {gc : Bool} {rust : ObjSec} {rt : Nat} {gs : List ObjSec} {r : Linked} (hrt : 0 < rt)
    (hr : rust.sym = startRustSec rt) (hdef : rust.defs = [("_start_rust", 0)]) (hv : ∀ s ∈ gs, Piece.Valid s.sym.piece)
    (hfree : ∀ s ∈ gs, ∀ n ∈ scriptSymbols, n ∉ s.defs.map (·.1)) (h : linkObjs gc (guestObjs rust gs) = some r)
    {c : Contents} (hh : Holds r.secs r.layout r.places r.bytes c) {e : Elf} {k : Kinds}
    (he : LldFile e r.layout k c) (hi : k.inp ≠ none) (ho : k.out ≠ none) (hne : ∃ s ∈ r.layout.ramSections, 0 < s.size)
    (hfile : e.bytes.length < 2 ^ 63) (hpa : (Parser.new.addAll dbg (packWords c.text)).isSome = true)
    (tape : List Byte) (hlen : tape.length = r.layout.inp.size) (fetch : Word → Option Instr) (hf : FetchAny c.text fetch)
    (outT outE : List Byte)
    (hrunT : ∀ entry s, (1, entry) ∈ r.places → Entered r.layout c (BitVec.ofNat 32 entry) tape s →
      ∃ s', Runs fetch (fun i s => ¬ stuck i s chk ramBase ∧ i.inWindow s ramBase 4096) n s s' ∧
        ramBytes s' (r.layout.out.addr - ramBase) r.layout.out.size = outT)
    (hrunE : ∀ entry s, (1, entry) ∈ r.places → Entered r.layout c (BitVec.ofNat 32 entry) tape s →
      ∃ s', RunsWith fetch (execAll 1024) n s s' ∧ ramBytes s' (r.layout.out.addr - ramBase) r.layout.out.size = outE) :
    ∃ p, Phantom.fromElf e = some p ∧
    (∃ vm0 vm1 vm2, p.testVm chk (n + 7) = some vm0 ∧ vm0.readInputTape chk tape = some vm1 ∧ vm1.execute chk = some vm2 ∧
      vm2.outputTape chk = some outT) ∧
    ∃ ev ev2, p.encryptedVm F.C rand dbg false threads tape (n + 7) = some ev ∧
      ev.execute F.C F.decU F.decP = some ev2 ∧ ev2.outputTape F.C chk = some outE := by
  obtain ⟨p, hp, ⟨l1, l2, l3, l4, l5, l6, l7⟩, entry, after, s1, hentry, hin, q1, hin1, h4, hpos, htop, i1, i2, o1, o2⟩ :=
    objects_boot hrt hr hdef hv hfree h hh he hi ho hne tape hlen fetch hf
  have hlow : ∀ pc i, fetch pc = some i → pc.toNat < 2 ^ 18 := fun pc i g => Nat.lt_of_lt_of_le (fetchAny_lt hf g) htop
  have hbase : p.bootRam.offset = ramBase := l2
  have hil : p.input.startAddr = r.layout.inp.addr := by rw [l4]
  have his : p.input.size = r.layout.inp.size := by rw [l4]
  have hol : p.output.startAddr = r.layout.out.addr := by rw [l5]
  have hos : p.output.size = r.layout.out.size := by rw [l5]
  obtain ⟨sT, hsT, houtT⟩ := hrunT entry s1 hentry hin1
  obtain ⟨sE, hsE, houtE⟩ := hrunE entry s1 hentry hin1
  refine ⟨p, hp, ?_, ?_⟩
  · obtain ⟨vm0, vm1, e0, e1, -⟩ := testVm_total chk (n + 7) e p tape hfile hp (by rw [his]; exact hlen) (by rw [hbase, hil]; exact i1)
      (by rw [hbase, hil, his]; exact i2)
    have q1 : Runs fetch Alike 7 (startState after) s1 := q1.mono (fun _ _ h => h) fun _ _ => harmless_alike
    obtain ⟨vm2, e2, e3⟩ := C70_testvm chk (n + 7) e p tape after vm0 vm1 fetch sT hfile hp hbase e0 e1 (by rw [hil]; exact hin)
      (by rw [hil]; exact i1) (by rw [his]; exact hlen) (by rw [l1]; exact h4) (fun pc i g => by rw [l1]; exact (hf pc i).mp g)
      (by rw [Nat.add_comm]; exact runs_append (alike_test hlow chk q1) hsT) (by rw [hol]; exact o1) (by rw [hol, hos]; exact o2)
    rw [hol, hos, houtT] at e3
    exact ⟨vm0, vm1, vm2, e0, e1, e2, e3⟩
  · obtain ⟨parser, hparser⟩ := Option.isSome_iff_exists.mp hpa
    obtain ⟨ev, hev⟩ := C42_setup F rand dbg false threads (n + 7) e p tape parser hp (by rw [l1]; exact h4)
      (fun g => by rw [l1] at g; rw [g] at hpos; exact absurd hpos (by decide)) (by rw [l1]; exact hparser) (by rw [his]; exact hlen)
      (by rw [hbase, hil]; exact i1) (by rw [hbase, hil, his]; exact i2)
    have hbits : c.text.length ≤ 2 ^ (bitsFor (c.text.length / 4) + 2) := by
      have := le_two_pow_bitsFor (c.text.length / 4)
      rw [Nat.pow_add]; omega
    obtain ⟨ev2, e2, e3⟩ := C94_encrypted F rand chk dbg threads (n + 7) e p tape after ev fetch sE hp hth hn hev
      (by rw [hbase, hil]; exact hin)
      (fun pc i g => by
        rw [l1, Nat.mod_eq_of_lt (Nat.lt_of_lt_of_le (fetchAny_lt hf g) hbits)]
        have := (hf pc i).mp g
        rw [show 4 * (pc.toNat / 4) = pc.toNat by omega]
        exact this.2)
      (by rw [l1, Nat.add_comm n 7]
          exact runs_wrap hf _ hbits (runsWith_append (runs_with (fun i s h => (harmless_all h 1024).1) q1).1 hsE))
      (by rw [hbase]; decide) (by rw [hbase, hol]; exact o1) (by rw [hbase, hol, hos]; exact o2)
    rw [hbase, hol, hos, houtE] at e3
    exact ⟨ev, ev2, hev, e2, e3⟩

/-- With the comparison: `execute` succeeds exactly if no instruction that the machine of the mirror meets after `_start_rust` is entered
is one at which the two executions differ. -/
theorem C95_output (F : Fhe) (rand : Nat → Nat → Nat → F.C.Rand) (chk dbg : Bool) (threads n : Nat) (hth : 0 < threads)
    (hn : n + 7 < 2 ^ 32) {gc : Bool} {rust : ObjSec} {rt : Nat} {gs : List ObjSec} {r : Linked} (hrt : 0 < rt)
    (hr : rust.sym = startRustSec rt) (hdef : rust.defs = [("_start_rust", 0)]) (hv : ∀ s ∈ gs, Piece.Valid s.sym.piece)
    (hfree : ∀ s ∈ gs, ∀ n ∈ scriptSymbols, n ∉ s.defs.map (·.1)) (h : linkObjs gc (guestObjs rust gs) = some r)
    {c : Contents} (hh : Holds r.secs r.layout r.places r.bytes c) {e : Elf} {k : Kinds}
    (he : LldFile e r.layout k c) (hi : k.inp ≠ none) (ho : k.out ≠ none) (hne : ∃ s ∈ r.layout.ramSections, 0 < s.size)
    (hpa : (Parser.new.addAll dbg (packWords c.text)).isSome = true)
    (tape : List Byte) (hlen : tape.length = r.layout.inp.size) (fetch : Word → Option Instr) (hf : FetchAny c.text fetch)
    (hrun : ∀ entry s, (1, entry) ∈ r.places → Entered r.layout c (BitVec.ofNat 32 entry) tape s →
      ∃ s', RunsWith fetch (execMirror 1024) n s s') :
    ∃ p ev entry s, Phantom.fromElf e = some p ∧ p.encryptedVm F.C rand dbg true threads tape (n + 7) = some ev ∧
      (1, entry) ∈ r.places ∧ Entered r.layout c (BitVec.ofNat 32 entry) tape s ∧
      ((∃ ev2, ev.execute F.C F.decU F.decP = some ev2) ↔
        ∀ m, m < n → ∀ a i, RunsWith fetch (execMirror 1024) m s a → fetch a.pc = some i → debugOk 1024 i a) ∧
      ∀ ev2, ev.execute F.C F.decU F.decP = some ev2 → ∃ s', RunsWith fetch (execMirror 1024) n s s' ∧
        ev2.outputTape F.C chk = some (ramBytes s' (r.layout.out.addr - ramBase) r.layout.out.size) := by
  obtain ⟨p, hp, ⟨l1, l2, l3, l4, l5, l6, l7⟩, entry, after, s1, hentry, hin, q1, hin1, h4, hpos, htop, i1, i2, o1, o2⟩ :=
    objects_boot hrt hr hdef hv hfree h hh he hi ho hne tape hlen fetch hf
  have hbase : p.bootRam.offset = ramBase := l2
  have hil : p.input.startAddr = r.layout.inp.addr := by rw [l4]
  have his : p.input.size = r.layout.inp.size := by rw [l4]
  have hol : p.output.startAddr = r.layout.out.addr := by rw [l5]
  have hos : p.output.size = r.layout.out.size := by rw [l5]
  obtain ⟨s', hs'⟩ := hrun entry s1 hentry hin1
  obtain ⟨parser, hparser⟩ := Option.isSome_iff_exists.mp hpa
  obtain ⟨ev, hev⟩ := C42_setup F rand dbg true threads (n + 7) e p tape parser hp (by rw [l1]; exact h4)
    (fun g => by rw [l1] at g; rw [g] at hpos; exact absurd hpos (by decide)) (by rw [l1]; exact hparser) (by rw [his]; exact hlen)
    (by rw [hbase, hil]; exact i1) (by rw [hbase, hil, his]; exact i2)
  obtain ⟨w1, w2, w3⟩ := runs_with (step := execMirror 1024) (fun i s h => (harmless_all h 1024).2.1) q1
  obtain ⟨a1, a2⟩ := C95_encrypted F rand chk dbg threads (n + 7) e p tape after ev fetch s' hp hth hn hev
    (by rw [hbase, hil]; exact hin)
    (fun pc i g => by
      rw [l1]
      have := (hf pc i).mp g
      rw [show 4 * (pc.toNat / 4) = pc.toNat by omega]
      exact this.2)
    (by rw [Nat.add_comm]; exact runsWith_append w1 hs')
    (by rw [hbase]; decide) (by rw [hbase, hol]; exact o1) (by rw [hbase, hol, hos]; exact o2)
  refine ⟨p, ev, entry, s1, hp, hev, hentry, hin1, a1.trans ⟨fun g m hm a i hra hi => ?_, fun g m hm a i hra hi => ?_⟩, fun ev2 e2 => ?_⟩
  · exact g (7 + m) (by omega) a i (runsWith_append w1 hra) hi
  · by_cases h7 : m < 7
    · exact (harmless_all (w2 m h7 a i hra hi) 1024).2.2
    · obtain ⟨m', rfl⟩ : ∃ m', m = 7 + m' := ⟨m - 7, by omega⟩
      exact g m' (by omega) a i (w3 m' a hra) hi
  · have := a2 ev2 e2
    rw [hbase, hol, hos] at this
    exact ⟨s', hs', this⟩

end Verif.Props
