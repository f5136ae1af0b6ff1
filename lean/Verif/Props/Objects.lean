import Verif.Props.Reloc
/-
  C91, continued: guests given by their object files.
-/
namespace Verif.Props
open Model Model.Link Spec Boot ElfFile

/-! ### The start-up code -/

theorem eq_of_little {out : List Byte} {ws : List Word} (hl : out.length = 4 * ws.length)
    (h : ∀ i (hi : i < ws.length), LittleAt out (4 * i) ws[i]) : out = wordBytes ws := by
  apply List.ext_getElem?
  intro i
  by_cases hi : i < out.length
  · have h4 : i / 4 < ws.length := by omega
    have := h (i / 4) h4 (i % 4) (Nat.mod_lt _ (by decide))
    rw [show 4 * (i / 4) + i % 4 = i by omega] at this
    rw [this]
    have e := wordBytes_word ws (i / 4) (i % 4) (Nat.mod_lt _ (by decide))
    rw [show 4 * (i / 4) + i % 4 = i by omega, List.getElem?_eq_getElem h4] at e
    rw [e]
    rfl
  · rw [List.getElem?_eq_none (by omega)]
    have e := wordBytes_word ws (i / 4) (i % 4) (Nat.mod_lt _ (by decide))
    rw [show 4 * (i / 4) + i % 4 = i by omega, List.getElem?_eq_none (show ws.length ≤ i / 4 by omega)] at e
    exact e.symm

theorem start_apart : Apart startObj := by unfold Apart; decide

/-- The assembled start-up code at address 0, with these addresses of the three symbols, is that of the boot model. -/
theorem start_relocated {sym : String → Option Word} {gp sp entry : Word} {out : List Byte} (hg : sym "__global_pointer$" = some gp)
    (hs : sym "_stack_start" = some sp) (he : sym "_start_rust" = some entry) (h : startObj.relocate sym 0#32 = some out) :
    out = wordBytes (bootWords gp sp entry) := by
  obtain ⟨hlen, hrest⟩ := C91_rest h
  have keep : ∀ (o : Nat) (w : Word), LittleAt startObj.bytes o w → (∀ r ∈ startObj.rels, o + 4 ≤ r.off ∨ r.off + span r ≤ o) →
      LittleAt out o w := fun o w hw hr => littleAt_congr (fun i h1 h2 => hrest i fun r hm => by
        rcases hr r hm with h | h
        · left; omega
        · right; omega) hw
  have at_ : ∀ (o : Nat) (w : Word), (∀ j, j < 4 → startObj.bytes[o + j]? = some (w.extractLsb' (8 * j) 8)) → LittleAt startObj.bytes o w :=
    fun _ _ h => h
  have w0 := at_ 0 (encode (.auipc 3#5 0#20)) (by decide +kernel)
  have w4 := at_ 4 (encode (.opImm .addi 3#5 3#5 0#12)) (by decide +kernel)
  have w8 := at_ 8 (encode (.auipc 2#5 0#20)) (by decide +kernel)
  have w12 := at_ 12 (encode (.opImm .addi 2#5 2#5 0#12)) (by decide +kernel)
  have w28 := at_ 28 (encode (.jal 1#5 0#20)) (by decide +kernel)
  have value (o : Nat) (n : String) (k : RelKind) (t v : Word) (hk : ¬ (k = .pcrelLoI ∨ k = .pcrelLoS)) (ht : sym n = some t)
      (hv : startObj.value sym 0#32 ⟨o, k, .sym n, 0⟩ = some v) : v = t := by
    obtain ⟨t', ht', rfl⟩ := (value_iff hk v).mp hv
    cases Option.some.inj (ht.symm.trans ht')
    exact BitVec.add_zero _
  have hi (o : Nat) (n : String) (t : Word) (rd : Reg) (ht : sym n = some t) (hm : (⟨o, .pcrelHi, .sym n, 0⟩ : Rel) ∈ startObj.rels)
      (hw : LittleAt startObj.bytes o (encode (.auipc rd 0#20))) :
      LittleAt out o (encode (.auipc rd (hi20 (t - BitVec.ofNat 32 o)))) := by
    obtain ⟨v, w, w', h1, h2, h3, h4⟩ := word_after (k := .pcrelHi) h start_apart hm rfl (by decide)
    cases littleAt_unique h2 hw
    cases value o n .pcrelHi t v (by decide) ht h1
    rw [Written, BitVec.zero_add] at h4
    rw [h4.trans (setHi_u _ _ _ _)] at h3
    exact h3
  have lo (o : Nat) (n : String) (t : Word) (rd : Reg) (ht : sym n = some t) (hm : (⟨o, .pcrelHi, .sym n, 0⟩ : Rel) ∈ startObj.rels)
      (hm' : (⟨o + 4, .pcrelLoI, .label o, 0⟩ : Rel) ∈ startObj.rels)
      (hw : LittleAt startObj.bytes (o + 4) (encode (.opImm .addi rd rd 0#12))) :
      LittleAt out (o + 4) (encode (.opImm .addi rd rd (lo12 (t - BitVec.ofNat 32 o)))) := by
    obtain ⟨v, w, w', h1, h2, h3, h4⟩ := word_after (k := .pcrelLoI) h start_apart hm' rfl (by decide)
    cases littleAt_unique h2 hw
    have : v = t - BitVec.ofNat 32 o := by
      unfold ObjSec.value at h1
      rw [if_pos (Or.inl rfl)] at h1
      simp only at h1
      rw [hi_find start_apart hm rfl, Option.bind_some] at h1
      simp only [Target.addr, ht, Option.map_some, Option.some.injEq] at h1
      rw [← h1, BitVec.zero_add]
      exact congrArg (· - _) (BitVec.add_zero _)
    subst this
    rw [Written] at h4
    rw [h4.trans (setLoI_i _ _ _ _ _ _)] at h3
    exact h3
  have jal : LittleAt out 28 (encode (.jal 1#5 (jumpField (entry - 28#32)))) := by
    obtain ⟨v, w, w', h1, h2, h3, h4⟩ := word_after (k := .jal) h start_apart (r := ⟨28, .jal, .sym "_start_rust", 0⟩) (by decide) rfl (by decide)
    cases littleAt_unique h2 w28
    cases value 28 _ .jal entry v (by decide) he h1
    rw [Written, BitVec.zero_add] at h4
    rw [h4.2.trans (setJal_j _ _ _ _)] at h3
    exact h3
  refine eq_of_little hlen fun i hi' => ?_
  have hi' : i < 9 := hi'
  interval_cases i
  · exact hi 0 _ gp 3#5 hg (by decide) w0
  · exact lo 0 _ gp 3#5 hg (by decide) (by decide) w4
  · exact hi 8 _ sp 2#5 hs (by decide) w8
  · exact lo 8 _ sp 2#5 hs (by decide) (by decide) w12
  · exact keep 16 (encode (.opImm .addi 8#5 2#5 0#12)) (at_ _ _ (by decide +kernel)) (by decide)
  · exact keep 20 (encode (.branch .bge 0#5 10#5 4#12)) (at_ _ _ (by decide +kernel)) (by decide)
  · exact keep 24 unimp (at_ _ _ (by decide +kernel)) (by decide)
  · exact jal
  · exact keep 32 unimp (at_ _ _ (by decide +kernel)) (by decide)

/-- The objects of a guest: `_start`, `start_rust` as the compiler translated it, `__ONCE__`, and those of the guest. -/
def guestObjs (rust : ObjSec) (gs : List ObjSec) : List ObjSec := startObj :: rust :: onceObj :: gs

theorem guestObjs_sym {rust : ObjSec} {rt : Nat} (hr : rust.sym = startRustSec rt) (gs : List ObjSec) :
    (guestObjs rust gs).map ObjSec.sym = runtimeSecs rt ++ gs.map ObjSec.sym := by
  show startObj.sym :: rust.sym :: onceObj.sym :: gs.map ObjSec.sym = _
  rw [hr]
  rfl

theorem runtime_valid {rt : Nat} {gs : List SymSec} (hv : ∀ s ∈ gs, Piece.Valid s.piece) : ∀ s ∈ runtimeSecs rt ++ gs, Piece.Valid s.piece := by
  intro s hs
  rcases List.mem_append.mp hs with h | h
  · simp only [runtimeSecs, List.mem_cons, List.not_mem_nil, or_false] at h
    rcases h with rfl | rfl | rfl
    · exact ⟨2, by decide, rfl⟩
    · exact ⟨2, by decide, rfl⟩
    · exact ⟨0, by decide, rfl⟩
  · exact hv s h

theorem rust_valid {rust : ObjSec} {rt : Nat} (hr : rust.sym = startRustSec rt) {gs : List ObjSec}
    (hv : ∀ s ∈ gs, Piece.Valid s.sym.piece) : ∀ s ∈ guestObjs rust gs, Piece.Valid s.sym.piece := by
  intro s hs
  have : s.sym ∈ runtimeSecs rt ++ gs.map ObjSec.sym := by
    rw [← guestObjs_sym hr]
    exact List.mem_map.mpr ⟨s, hs, rfl⟩
  exact runtime_valid (by
    intro t ht
    obtain ⟨u, hu, rfl⟩ := List.mem_map.mp ht
    exact hv u hu) _ this

/-- In every linked guest the start-up code sets the global pointer and the stack pointer and calls `_start_rust`, wherever that is:
its bytes are those of the boot model (C31). -/
theorem C91_start {gc : Bool} {rust : ObjSec} {rt : Nat} {gs : List ObjSec} {r : Linked} (hrt : 0 < rt) (hr : rust.sym = startRustSec rt)
    (hdef : rust.defs = [("_start_rust", 0)]) (hv : ∀ s ∈ gs, Piece.Valid s.sym.piece)
    (hfree : ∀ s ∈ gs, ∀ n ∈ scriptSymbols, n ∉ s.defs.map (·.1)) (h : linkObjs gc (guestObjs rust gs) = some r) :
    ∃ entry, (1, entry) ∈ r.places ∧
      r.bytes 0 = wordBytes (bootWords (BitVec.ofNat 32 r.layout.gp) (BitVec.ofNat 32 r.layout.stackStart) (BitVec.ofNat 32 entry)) := by
  obtain ⟨h1, h2, h3⟩ := C91_linked (rust_valid hr hv) h
  rw [guestObjs_sym hr] at h1
  obtain ⟨h0, -, ⟨entry, he⟩, -⟩ := runtime_at hrt (runtime_valid (by
    intro t ht
    obtain ⟨u, hu, rfl⟩ := List.mem_map.mp ht
    exact hv u hu)) h1 h2
  refine ⟨entry, he, ?_⟩
  obtain ⟨s, sym, hs, hsym, hrel⟩ := h3 0 0 h0
  cases hs
  have free : ∀ n ∈ scriptSymbols, ∀ s ∈ guestObjs rust gs, n ∉ s.defs.map (·.1) := by
    intro n hn s hs
    rcases List.mem_cons.mp hs with rfl | hs
    · intro hm
      have : ∀ n ∈ scriptSymbols, n ∉ startObj.defs.map (·.1) := by decide
      exact this n hn hm
    · rcases List.mem_cons.mp hs with rfl | hs
      · rw [hdef]
        have : ∀ n ∈ scriptSymbols, n ∉ [("_start_rust", 0)].map (·.1) := by decide
        exact this n hn
      · rcases List.mem_cons.mp hs with rfl | hs
        · have : ∀ n ∈ scriptSymbols, n ∉ onceObj.defs.map (·.1) := by decide
          exact this n hn
        · exact hfree s hs n hn
  exact start_relocated ((hsym _ _).mpr (.gp (free _ (by decide)) rfl)) ((hsym _ _).mpr (.stack (free _ (by decide)) rfl))
    ((hsym _ _).mpr (.obj (j := 1) (a := entry) (o := 0) rfl (by rw [hdef]; exact List.mem_cons_self) he)) hrel

/-! ### Guests -/

/-- From object files to the output: if the program, entered as C90 says, ends with `out` on the output tape, both VMs return `out`. -/
theorem C91_output (F : Fhe) (rand : Nat → Nat → Nat → F.C.Rand) (chk dbg phantomDebug : Bool) (threads n : Nat) (hth : 0 < threads)
    (hn : n + 7 < 2 ^ 32) {gc : Bool} {rust : ObjSec} {rt : Nat} {gs : List ObjSec} {r : Linked} (hrt : 0 < rt)
    (hr : rust.sym = startRustSec rt) (hdef : rust.defs = [("_start_rust", 0)]) (hv : ∀ s ∈ gs, Piece.Valid s.sym.piece)
    (hfree : ∀ s ∈ gs, ∀ n ∈ scriptSymbols, n ∉ s.defs.map (·.1)) (h : linkObjs gc (guestObjs rust gs) = some r)
    {c : Contents} (hh : Holds r.secs r.layout r.places r.bytes c) {e : Elf} {k : Kinds}
    (he : LldFile e r.layout k c) (hi : k.inp ≠ none) (ho : k.out ≠ none) (hne : ∃ s ∈ r.layout.ramSections, 0 < s.size)
    (hfile : e.bytes.length < 2 ^ 63) (hpa : (Parser.new.addAll dbg (packWords c.text)).isSome = true)
    (tape : List Byte) (hlen : tape.length = r.layout.inp.size) (fetch : Word → Option Instr) (hf : FetchFrom c.text fetch)
    (out : List Byte) (hrun : ∀ entry s, (1, entry) ∈ r.places → Entered r.layout c (BitVec.ofNat 32 entry) tape s →
      ∃ s', Runs fetch Alike n s s' ∧ ramBytes s' (r.layout.out.addr - ramBase) r.layout.out.size = out) :
    ∃ p, Phantom.fromElf e = some p ∧
    (∃ vm0 vm1 vm2, p.testVm chk (n + 7) = some vm0 ∧ vm0.readInputTape chk tape = some vm1 ∧ vm1.execute chk = some vm2 ∧
      vm2.outputTape chk = some out) ∧
    ∃ ev ev2, p.encryptedVm F.C rand dbg phantomDebug threads tape (n + 7) = some ev ∧
      ev.execute F.C F.decU F.decP = some ev2 ∧ ev2.outputTape F.C chk = some out := by
  obtain ⟨entry, hentry, hboot⟩ := C91_start hrt hr hdef hv hfree h
  obtain ⟨h1, h2, -⟩ := C91_linked (rust_valid hr hv) h
  rw [guestObjs_sym hr] at h1
  exact C90_output F rand chk dbg phantomDebug threads n hth hn hrt (runtime_valid (by
    intro t ht
    obtain ⟨u, hu, rfl⟩ := List.mem_map.mp ht
    exact hv u hu)) h1 h2 hh he hi ho hne hfile entry hentry hboot hpa tape hlen fetch hf out fun s => hrun entry s hentry

/-- The same for the bytes of a file with one load segment for each section. -/
theorem C91_bytes (F : Fhe) (rand : Nat → Nat → Nat → F.C.Rand) (chk dbg phantomDebug : Bool) (threads n : Nat) (hth : 0 < threads)
    (hn : n + 7 < 2 ^ 32) {gc : Bool} {rust : ObjSec} {rt : Nat} {gs : List ObjSec} {r : Linked} (hrt : 0 < rt)
    (hr : rust.sym = startRustSec rt) (hdef : rust.defs = [("_start_rust", 0)]) (hv : ∀ s ∈ gs, Piece.Valid s.sym.piece)
    (hfree : ∀ s ∈ gs, ∀ n ∈ scriptSymbols, n ∉ s.defs.map (·.1)) (h : linkObjs gc (guestObjs rust gs) = some r)
    {c : Contents} (hh : Holds r.secs r.layout r.places r.bytes c) (hne : ∃ s ∈ r.layout.ramSections, 0 < s.size)
    (hpa : (Parser.new.addAll dbg (packWords c.text)).isSome = true)
    (tape : List Byte) (hlen : tape.length = r.layout.inp.size) (fetch : Word → Option Instr) (hf : FetchFrom c.text fetch)
    (out : List Byte) (hrun : ∀ entry s, (1, entry) ∈ r.places → Entered r.layout c (BitVec.ofNat 32 entry) tape s →
      ∃ s', Runs fetch Alike n s s' ∧ ramBytes s' (r.layout.out.addr - ramBase) r.layout.out.size = out) :
    ∃ p, ElfBytes.fromBytes (guestFile r.layout c).write = some p ∧
    (∃ vm0 vm1 vm2, p.testVm chk (n + 7) = some vm0 ∧ vm0.readInputTape chk tape = some vm1 ∧ vm1.execute chk = some vm2 ∧
      vm2.outputTape chk = some out) ∧
    ∃ ev ev2, p.encryptedVm F.C rand dbg phantomDebug threads tape (n + 7) = some ev ∧
      ev.execute F.C F.decU F.decP = some ev2 ∧ ev2.outputTape F.C chk = some out := by
  obtain ⟨entry, hentry, hboot⟩ := C91_start hrt hr hdef hv hfree h
  obtain ⟨h1, h2, -⟩ := C91_linked (rust_valid hr hv) h
  rw [guestObjs_sym hr] at h1
  exact C90_bytes F rand chk dbg phantomDebug threads n hth hn hrt (runtime_valid (by
    intro t ht
    obtain ⟨u, hu, rfl⟩ := List.mem_map.mp ht
    exact hv u hu)) h1 h2 hh hne entry hentry hboot hpa tape hlen fetch hf out fun s => hrun entry s hentry

/-! ### Sections without gaps -/

/-- Every byte of an output section is one of an input section of these descriptions. -/
def fullCheck (is : List InSec) (pl : List (Nat × Nat)) (ps : List Part) (S : Sect) : Bool :=
  (List.range S.size).all fun i => pl.any fun x => is[x.1]?.any fun s =>
    (partOf s.name).any (ps.contains ·) && decide (S.addr ≤ x.2 ∧ x.2 - S.addr ≤ i ∧ i < x.2 - S.addr + s.piece.size)

def coverCheck (is : List InSec) (l : Layout) (pl : List (Nat × Nat)) : Bool :=
  fullCheck is pl [.init, .initRust, .text] l.text && fullCheck is pl [.inp] l.inp && fullCheck is pl [.out] l.out &&
  fullCheck is pl [.srodata, .rodata] l.rodata && fullCheck is pl [.sdata, .data] l.data

theorem full_unique {is : List InSec} {l : Layout} {pl : List (Nat × Nat)} {bytes : Nat → List Byte} {c c' : Contents} {ps : List Part}
    {S : Sect} {d d' : List Byte} (h : Holds is l pl bytes c) (h' : Holds is l pl bytes c')
    (hp : ∀ p ∈ ps, l.part p = some S ∧ c.part p = some d ∧ c'.part p = some d') (hl : d.length = S.size) (hl' : d'.length = S.size)
    (hc : fullCheck is pl ps S = true) : d = d' := by
  apply List.ext_getElem?
  intro i
  by_cases hi : i < S.size
  · have := List.all_eq_true.mp hc i (List.mem_range.mpr hi)
    obtain ⟨⟨k, a⟩, hk, hx⟩ := List.any_eq_true.mp this
    simp only at hx
    cases hs : is[k]? with
    | none => rw [hs] at hx; cases hx
    | some s =>
      rw [hs] at hx
      simp only [Option.any_some, Bool.and_eq_true, decide_eq_true_eq] at hx
      obtain ⟨hx, b1, b2, b3⟩ := hx
      cases hq : partOf s.name with
      | none => rw [hq] at hx; cases hx
      | some p =>
        rw [hq] at hx
        simp only [Option.any_some, List.contains_iff_mem] at hx
        obtain ⟨q1, q2, q3⟩ := hp p hx
        have hn := ((C84_names s.name).1 p).mp hq
        have e1 := h.2 k a s p S d hk hs hn q1 q2 (i - (a - S.addr)) (by omega)
        have e2 := h'.2 k a s p S d' hk hs hn q1 q3 (i - (a - S.addr)) (by omega)
        rw [show a - S.addr + (i - (a - S.addr)) = i by omega] at e1 e2
        rw [e1, e2]
  · rw [List.getElem?_eq_none (by omega), List.getElem?_eq_none (by omega)]

/-- Without gaps there is only one program. -/
theorem holds_unique {is : List InSec} {l : Layout} {pl : List (Nat × Nat)} {bytes : Nat → List Byte} {c c' : Contents}
    (hc : coverCheck is l pl = true) (h : Holds is l pl bytes c) (h' : Holds is l pl bytes c') : c = c' := by
  unfold coverCheck at hc
  simp only [Bool.and_eq_true] at hc
  obtain ⟨⟨⟨⟨k1, k2⟩, k3⟩, k4⟩, k5⟩ := hc
  obtain ⟨t, r⟩ := h.1
  obtain ⟨t', r'⟩ := h'.1
  simp only [Contents.ram, List.forall_mem_cons] at r r'
  obtain ⟨r1, r2, r3, r4, -⟩ := r
  obtain ⟨r1', r2', r3', r4', -⟩ := r'
  cases c with
  | mk a1 a2 a3 a4 a5 =>
    cases c' with
    | mk b1 b2 b3 b4 b5 =>
      have e1 : a1 = b1 := full_unique h h' (by simp [Layout.part, ElfFile.Contents.part]) t t' k1
      have e2 : a2 = b2 := full_unique h h' (by simp [Layout.part, ElfFile.Contents.part]) r1 r1' k2
      have e3 : a3 = b3 := full_unique h h' (by simp [Layout.part, ElfFile.Contents.part]) r2 r2' k3
      have e4 : a4 = b4 := full_unique h h' (by simp [Layout.part, ElfFile.Contents.part]) r3 r3' k4
      have e5 : a5 = b5 := full_unique h h' (by simp [Layout.part, ElfFile.Contents.part]) r4 r4' k5
      rw [e1, e2, e3, e4, e5]

/-- Everything about a program that can be computed. -/
def linkCheck (objs : List ObjSec) (l : Layout) (c : Contents) : Bool :=
  (linkObjs true objs).any fun r => decide (r.layout = l) && coverCheck r.secs r.layout r.places &&
    holdsCheck r.secs r.layout r.places r.bytes c

theorem link_of_check {objs : List ObjSec} {l : Layout} {c : Contents} (h : linkCheck objs l c = true) :
    ∃ r, linkObjs true objs = some r ∧ r.layout = l ∧ ∀ c', Holds r.secs r.layout r.places r.bytes c' ↔ c' = c := by
  unfold linkCheck at h
  cases hr : linkObjs true objs with
  | none => rw [hr] at h; cases h
  | some r =>
    rw [hr] at h
    simp only [Option.any_some, Bool.and_eq_true, decide_eq_true_eq] at h
    obtain ⟨⟨h1, h2⟩, h3⟩ := h
    have h3 := holds_of_check h3
    exact ⟨r, rfl, h1, fun c' => ⟨fun h' => holds_unique h2 h' h3, fun e => e ▸ h3⟩⟩

/-! ### The template and guest-test1 -/

/-- `start_rust` as rustc may translate it: `tail main`, its address left to the linker. -/
def rustObj : ObjSec := ⟨".init.rust", 4, wordBytes [encode (.auipc 6 0), encode (.jalr 0 6 0)], [("_start_rust", 0)], [⟨0, .call, .sym "main", 0⟩]⟩

/-- The multiplication. -/
def mulObj : ObjSec := ⟨".text.__mulsi3", 4, wordBytes (mulsi3.map encode), [("__mulsi3", 0)], []⟩

/-- Code without the immediates the linker fills in, at the places of the relocations. -/
def blank (rels : List Rel) (code : List Instr) : List Instr :=
  code.mapIdx fun i x => if rels.any (fun r => r.off == 4 * i) then
    (match x with
      | .lui rd _ => .lui rd 0
      | .opImm o rd rs _ => .opImm o rd rs 0
      | .load o rd rs _ => .load o rd rs 0
      | .store o rs1 rs2 _ => .store o rs1 rs2 0
      | .jal rd _ => .jal rd 0
      | x => x) else x

/-- The relocations of `main` of the template. -/
def polyRels : List Rel :=
  [⟨0, .hi, .sym "INPUT", 0⟩, ⟨4, .loI, .sym "INPUT", 0⟩, ⟨8, .loI, .sym "COEFFS", 0⟩, ⟨12, .loI, .sym "COEFFS", 28⟩,
   ⟨36, .jal, .sym "__mulsi3", 0⟩, ⟨52, .jal, .sym "__mulsi3", 0⟩, ⟨68, .loS, .sym "OUTPUT", 0⟩]

/-- The objects of the template. -/
def polyObjs : List ObjSec :=
  [⟨".text.main", 4, wordBytes ((blank polyRels (poly.take 19)).map encode), [("main", 0)], polyRels⟩, mulObj,
   ⟨".inpdata", 4, List.replicate 4 0#8, [("INPUT", 0)], []⟩, ⟨".outdata", 4, List.replicate 4 0#8, [("OUTPUT", 0)], []⟩,
   ⟨".rodata.COEFFS", 4, Guest.coefficients.flatMap Guest.putWord, [("COEFFS", 0)], []⟩]

/-- Linking makes the program of C90 out of them, and no other. -/
theorem C91_poly_linked : ∃ r, linkObjs true (guestObjs rustObj polyObjs) = some r ∧ r.layout = polyLayout ∧
    ∀ c, Holds r.secs r.layout r.places r.bytes c ↔ c = polyContents :=
  link_of_check (by decide +kernel)

/-- The template from its object files: whatever file lld makes of them, both VMs return the value of the polynomial. -/
theorem C91_poly (F : Fhe) (rand : Nat → Nat → Nat → F.C.Rand) (chk dbg phantomDebug : Bool) (threads n : Nat) (ht : 0 < threads)
    (hn : 3286 ≤ n) (hn' : n < 2 ^ 32) (r : Linked) (hr : linkObjs true (guestObjs rustObj polyObjs) = some r) (c : Contents)
    (hc : Holds r.secs r.layout r.places r.bytes c) (e : Elf) (he : LldFile e r.layout polyKinds c) (hfile : e.bytes.length < 2 ^ 63)
    (tape : List Byte) (hlen : tape.length = 4) :
    ∃ p out, Phantom.fromElf e = some p ∧ Guest.polyMain false tape = some out ∧
    (∃ vm0 vm1 vm2, p.testVm chk n = some vm0 ∧ vm0.readInputTape chk tape = some vm1 ∧ vm1.execute chk = some vm2 ∧
      vm2.outputTape chk = some out) ∧
    ∃ ev ev2, p.encryptedVm F.C rand dbg phantomDebug threads tape n = some ev ∧
      ev.execute F.C F.decU F.decP = some ev2 ∧ ev2.outputTape F.C chk = some out := by
  obtain ⟨r', h1, h2, h3⟩ := C91_poly_linked
  cases Option.some.inj (hr.symm.trans h1)
  cases (h3 c).mp hc
  rw [h2] at he
  exact C90_poly F rand chk dbg phantomDebug threads n ht hn hn' e he hfile tape hlen

/-- Such a file exists; with x = 3 the result is that of the sources. -/
example (dbg : Bool) : ∃ (r : Linked) (e : Elf) (p : Phantom) (out : List Byte), linkObjs true (guestObjs rustObj polyObjs) = some r ∧
    Phantom.fromElf e = some p ∧ Guest.polyMain false [3, 0, 0, 0] = some out ∧
    ∃ vm0 vm1 vm2, p.testVm true 4000 = some vm0 ∧ vm0.readInputTape true [3, 0, 0, 0] = some vm1 ∧ vm1.execute true = some vm2 ∧
      vm2.outputTape true = some out := by
  obtain ⟨r, h1, h2, h3⟩ := C91_poly_linked
  have he := lldElf_is polyLayout polyKinds polyContents
  rw [← h2] at he
  obtain ⟨p, out, g1, g2, g3, -⟩ := C91_poly sampleFhe (fun _ _ _ => ()) true dbg true 3 4000 (by decide) (by decide) (by decide) r h1 _
    ((h3 _).mpr rfl) _ he (by rw [h2]; decide +kernel) [3, 0, 0, 0] rfl
  exact ⟨r, _, p, out, h1, g1, g2, g3⟩

/-- The start-up code of the template with its addresses. -/
example : ∃ r, linkObjs true (guestObjs rustObj polyObjs) = some r ∧ r.layout = polyLayout ∧ ∃ entry, (1, entry) ∈ r.places ∧
    r.bytes 0 = wordBytes (bootWords 0x40824 0x41000 (BitVec.ofNat 32 entry)) := by
  obtain ⟨r, h1, h2, -⟩ := C91_poly_linked
  refine ⟨r, h1, h2, ?_⟩
  have := C91_start (rt := 8) (by decide) rfl rfl (by unfold Piece.Valid; decide +kernel) (by decide) h1
  rw [h2] at this
  exact this

/-- The relocations of `main` of guest-test1. -/
def sumsRels : List Rel :=
  [⟨0, .hi, .sym "INPUT", 0⟩, ⟨4, .loI, .sym "INPUT", 0⟩, ⟨8, .loI, .sym "INPUT", 4⟩, ⟨12, .loI, .sym "VALUES", 0⟩,
   ⟨16, .loI, .sym "VALUES", 16⟩, ⟨40, .jal, .sym "__mulsi3", 0⟩, ⟨68, .loS, .sym "OUTPUT", 0⟩]

/-- The objects of guest-test1. -/
def sumsObjs : List ObjSec :=
  [⟨".text.main", 4, wordBytes ((blank sumsRels (sums.take 19)).map encode), [("main", 0)], sumsRels⟩, mulObj,
   ⟨".inpdata", 4, List.replicate 8 0#8, [("INPUT", 0)], []⟩, ⟨".outdata", 4, List.replicate 4 0#8, [("OUTPUT", 0)], []⟩,
   ⟨".data.VALUES", 4, Guest.hardcoded.flatMap Guest.putWord, [("VALUES", 0)], []⟩]

theorem C91_sums_linked : ∃ r, linkObjs true (guestObjs rustObj sumsObjs) = some r ∧ r.layout = sumsLayout ∧
    ∀ c, Holds r.secs r.layout r.places r.bytes c ↔ c = sumsContents :=
  link_of_check (by decide +kernel)

/-- guest-test1 from its object files. -/
theorem C91_test1 (F : Fhe) (rand : Nat → Nat → Nat → F.C.Rand) (chk dbg phantomDebug : Bool) (threads n : Nat) (ht : 0 < threads)
    (hn : 965 ≤ n) (hn' : n < 2 ^ 32) (r : Linked) (hr : linkObjs true (guestObjs rustObj sumsObjs) = some r) (c : Contents)
    (hc : Holds r.secs r.layout r.places r.bytes c) (e : Elf) (he : LldFile e r.layout sumsKinds c) (hfile : e.bytes.length < 2 ^ 63)
    (tape : List Byte) (hlen : tape.length = 8) :
    ∃ p out, Phantom.fromElf e = some p ∧ Guest.test1Main false tape = some out ∧
    (∃ vm0 vm1 vm2, p.testVm chk n = some vm0 ∧ vm0.readInputTape chk tape = some vm1 ∧ vm1.execute chk = some vm2 ∧
      vm2.outputTape chk = some out) ∧
    ∃ ev ev2, p.encryptedVm F.C rand dbg phantomDebug threads tape n = some ev ∧
      ev.execute F.C F.decU F.decP = some ev2 ∧ ev2.outputTape F.C chk = some out := by
  obtain ⟨r', h1, h2, h3⟩ := C91_sums_linked
  cases Option.some.inj (hr.symm.trans h1)
  cases (h3 c).mp hc
  rw [h2] at he
  exact C90_test1 F rand chk dbg phantomDebug threads n ht hn hn' e he hfile tape hlen

example (dbg : Bool) : ∃ (r : Linked) (e : Elf) (p : Phantom) (out : List Byte), linkObjs true (guestObjs rustObj sumsObjs) = some r ∧
    Phantom.fromElf e = some p ∧ Guest.test1Main false [1, 2, 3, 4, 5, 6, 7, 8] = some out ∧
    ∃ ev ev2, p.encryptedVm sampleFhe.C (fun _ _ _ => ()) dbg false 3 [1, 2, 3, 4, 5, 6, 7, 8] 1000 = some ev ∧
      ev.execute sampleFhe.C sampleFhe.decU sampleFhe.decP = some ev2 ∧ ev2.outputTape sampleFhe.C true = some out := by
  obtain ⟨r, h1, h2, h3⟩ := C91_sums_linked
  have he := lldElf_is sumsLayout sumsKinds sumsContents
  rw [← h2] at he
  obtain ⟨p, out, g1, g2, -, g3⟩ := C91_test1 sampleFhe (fun _ _ _ => ()) true dbg false 3 1000 (by decide) (by decide) (by decide) r h1 _
    ((h3 _).mpr rfl) _ he (by rw [h2]; decide +kernel) [1, 2, 3, 4, 5, 6, 7, 8] rfl
  exact ⟨r, _, p, out, h1, g1, g2, g3⟩

/-! ### The market maker -/

/-- The relocations of `main` of uniswap. -/
def ammRels : List Rel :=
  [⟨0, .hi, .sym "INPUT", 0⟩, ⟨4, .loI, .sym "INPUT", 0⟩, ⟨8, .loI, .sym "INPUT", 4⟩, ⟨12, .loI, .sym "INPUT", 8⟩,
   ⟨16, .loI, .sym "INPUT", 12⟩, ⟨20, .loI, .sym "INPUT", 16⟩, ⟨24, .loI, .sym "INPUT", 20⟩, ⟨216, .loS, .sym "OUTPUT", 0⟩,
   ⟨220, .loS, .sym "OUTPUT", 4⟩, ⟨224, .loS, .sym "OUTPUT", 8⟩, ⟨228, .loS, .sym "OUTPUT", 12⟩]

/-- The objects of uniswap. -/
def ammObjs : List ObjSec :=
  [⟨".text.main", 4, wordBytes ((blank ammRels amm).map encode), [("main", 0)], ammRels⟩,
   ⟨".inpdata", 1, List.replicate 24 0#8, [("INPUT", 0)], []⟩, ⟨".outdata", 1, List.replicate 16 0#8, [("OUTPUT", 0)], []⟩]

/-- Linking makes the program of C89 out of them, and no other. -/
theorem C91_amm_linked : ∃ r, linkObjs true (guestObjs rustObj ammObjs) = some r ∧ r.layout = ammLayout ∧
    ∀ c, Holds r.secs r.layout r.places r.bytes c ↔ c = ammContents :=
  link_of_check (by decide +kernel)

/-- The host of uniswap, from object files: whatever file lld makes of them, the host gets through exactly for the trades the guest
accepts, and then with the pool and the account after the trade. -/
theorem C91_amm_host (F : Fhe) (rand : Nat → Nat → Nat → F.C.Rand) (utf8 : List Byte → Bool) (env : Host.Env) (cpus : Nat)
    (chk dbg : Bool) (hn : 657 ≤ Host.maxCycles utf8 env 300) (hn' : Host.maxCycles utf8 env 300 < 2 ^ 32)
    (ht : 0 < Host.threads utf8 env cpus) (pad : List Byte) (hpad : pad.length = 3) (r : Linked)
    (hr : linkObjs true (guestObjs rustObj ammObjs) = some r) (c : Contents) (hc : Holds r.secs r.layout r.places r.bytes c)
    (e : Elf) (he : LldFile e r.layout ammKinds c) (hfile : e.bytes.length < 2 ^ 63) :
    ∃ p, Phantom.fromElf e = some p ∧ ∀ pool trade account,
      Host.swapHost F.C rand F.decU F.decP utf8 env cpus chk dbg pad p pool trade account = Guest.swap chk pool trade account := by
  obtain ⟨r', h1, h2, h3⟩ := C91_amm_linked
  cases Option.some.inj (hr.symm.trans h1)
  cases (h3 c).mp hc
  rw [h2] at he
  obtain ⟨p, hp, hl⟩ := C89_lld e he
  exact ⟨p, hp, amm_host F rand utf8 env cpus chk dbg hn hn' ht pad hpad e p hfile hp hl⟩

/-- With `MAX_CYCLES=700` and the numbers of the source. -/
example (chk dbg : Bool) : ∃ (r : Linked) (e : Elf) (p : Phantom), linkObjs true (guestObjs rustObj ammObjs) = some r ∧
    Phantom.fromElf e = some p ∧ Host.swapHost sampleFhe.C (fun _ _ _ => ()) sampleFhe.decU sampleFhe.decP (fun _ => true)
      (fun s => if s = "MAX_CYCLES" then some [0x37#8, 0x30#8, 0x30#8] else none) 4 chk dbg [1#8, 2#8, 3#8] p
      Host.swapPool Host.swapTrade Host.swapAccount = some (⟨150#32, 333#32⟩, ⟨10#32, 167#32⟩) := by
  obtain ⟨r, h1, h2, h3⟩ := C91_amm_linked
  have he := lldElf_is ammLayout ammKinds ammContents
  rw [← h2] at he
  obtain ⟨p, hp, hs⟩ := C91_amm_host sampleFhe (fun _ _ _ => ()) (fun _ => true)
    (fun s => if s = "MAX_CYCLES" then some [0x37#8, 0x30#8, 0x30#8] else none) 4 chk dbg (by decide) (by decide) (by decide)
    [1#8, 2#8, 3#8] rfl r h1 _ ((h3 _).mpr rfl) _ he (by rw [h2]; decide +kernel)
  exact ⟨r, _, p, h1, hp, (hs _ _ _).trans (by cases chk <;> decide +kernel)⟩

end Verif.Props
