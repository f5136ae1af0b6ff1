import Verif.Spec.Linked
import Verif.Props.Whole
/-
  C90: every guest from its object files to its output.  Whatever sections the guest consists of, if they link, then the loaded
  program has the bytes of every section that stays at its address, the start-up code enters `_start_rust`, and a run of the
  manual's machine from there decides what both VMs return.
-/
namespace Verif.Props
open Model Model.Link Spec Boot ElfFile

variable {gc : Bool} {is : List InSec} {l : Layout} {pl : List (Nat × Nat)} {bytes : Nat → List Byte} {c : Contents} {e : Elf}
  {k : Kinds}

/-! ### The sections in memory -/

/-- Every section that stays is in the loaded program at its address: code in the ROM, the others in the RAM, variables without
contents as zeros. -/
theorem C90_loaded (hv : ∀ s ∈ is, Piece.Valid s.piece) (h : placements gc is = some (l, pl)) (hh : Holds is l pl bytes c)
    (he : LldFile e l k c) (ht : 0 < l.text.size) (hi : k.inp ≠ none) (ho : k.out ≠ none)
    (hne : ∃ s ∈ l.ramSections, 0 < s.size) :
    ∃ p, Phantom.fromElf e = some p ∧ p.bootRom.data = c.text ∧ p.bootRam.data.length = 4096 ∧
      ∀ (j a : Nat) (s : InSec) (q : Part), (j, a) ∈ pl → is[j]? = some s → Named s.name q → ∀ i, i < s.piece.size →
        (q ∈ [.init, .initRust, .text] → p.bootRom.data[a + i]? = (bytes j)[i]?) ∧
        (q ∈ [.inp, .out, .srodata, .rodata, .sdata, .data] → p.bootRam.data[a + i - 0x40000]? = (bytes j)[i]?) ∧
        (q = .bss → p.bootRam.data[a + i - 0x40000]? = some 0#8) := by
  obtain ⟨g, hg, hl, -⟩ := placements_inv hv h
  have hvg := select_valid hv hg
  obtain ⟨p, hp, h1, h2, h3, h4, h5, h6, h7⟩ := C82_loads hvg hl hh.1 he ht hi ho hne
  refine ⟨p, hp, h1, h3, fun j a s q hj hs hq i hi => ?_⟩
  obtain ⟨s', q', S, hs', -, hq', hS, -, b1, b2⟩ := (C84_placed hv h).1 j a hj
  cases hs.symm.trans hs'
  cases named_unique hq hq'
  have hold := fun d hd => hh.2 j a s q S d hj hs hq hS hd i hi
  have ram : ∀ d, l.part q = some S → c.part q = some d → (S, d) ∈ c.ram l → p.bootRam.data[a + i - 0x40000]? = (bytes j)[i]? := by
    intro d _ hd hm
    have := h6 (S, d) hm (a - S.addr + i) (show a - S.addr + i < S.size by omega)
    rw [show (S, d).1.addr + (a - S.addr + i) = a + i by show S.addr + _ = _; omega] at this
    exact this.trans (hold d hd)
  refine ⟨fun hm => ?_, fun hm => ?_, fun hm => ?_⟩
  · have ha : l.text.addr = 0 := (C64_text hvg hl).1
    rw [h1]
    simp only [List.mem_cons, List.not_mem_nil, or_false] at hm
    rcases hm with rfl | rfl | rfl <;>
    · cases hS
      rw [← hold c.text rfl, ha, Nat.sub_zero]
  · simp only [List.mem_cons, List.not_mem_nil, or_false] at hm
    rcases hm with rfl | rfl | rfl | rfl | rfl | rfl <;>
    · cases hS
      exact ram _ rfl rfl (by simp [Contents.ram])
  · subst hm
    cases hS
    obtain ⟨r1, r2, r3, -⟩ := C64_ram hvg hl
    obtain ⟨-, r5, r6⟩ := r1 l.bss (by simp [Layout.ramSections])
    refine h7 (a + i) (by omega) (by omega) fun x hx hc => ?_
    have : x.1.addr + x.1.size ≤ l.bss.addr := by
      have r3 : ([l.inp, l.out, l.rodata, l.data] ++ [l.bss]).Pairwise (fun a b => a.addr + a.size ≤ b.addr) := r3
      refine (List.pairwise_append.mp r3).2.2 x.1 ?_ l.bss (by simp)
      simp only [Contents.ram, List.mem_cons, List.not_mem_nil, or_false] at hx ⊢
      rcases hx with rfl | rfl | rfl | rfl <;> simp
    unfold Sect.has at hc
    omega

/-! ### The start -/

/-- The bytes with a range replaced. -/
theorem placed_exists (before src : List Byte) (n : Nat) (h : n + src.length ≤ before.length) : ∃ after, Placed before n src after := by
  refine ⟨before.take n ++ (src ++ before.drop (n + src.length)), h, ?_, fun i hi => ?_, fun k hk => ?_⟩
  · simp only [List.length_append, List.length_take, List.length_drop]; omega
  · rw [List.getElem?_append_right (by rw [List.length_take]; omega), List.length_take, Nat.min_eq_left (by omega),
      Nat.add_sub_cancel_left, List.getElem?_append_left hi]
  · rcases hk with hk | hk
    · rw [List.getElem?_append_left (by rw [List.length_take]; omega), List.getElem?_take_of_lt hk]
    · rw [List.getElem?_append_right (by rw [List.length_take]; omega), List.length_take, Nat.min_eq_left (by omega),
        List.getElem?_append_right (by omega), List.getElem?_drop]
      congr 1
      omega

/-- The machine starts on a RAM with the sections as linked and the tape in its own. -/
theorem start_mem {g : Guest} {p : Phantom} {tape after : List Byte} (hvg : Guest.Valid g) (hl : link g = some l) (hc : c.Of l)
    (h3 : p.bootRam.data.length = 4096) (hlen : tape.length = l.inp.size)
    (h6 : ∀ x ∈ c.ram l, ∀ i, i < x.1.size → p.bootRam.data[x.1.addr + i - 0x40000]? = x.2[i]?)
    (h7 : ∀ a, 0x40000 ≤ a → a < 0x41000 → (∀ x ∈ c.ram l, ¬ x.1.has a) → p.bootRam.data[a - 0x40000]? = some 0#8)
    (hin : Placed p.bootRam.data (l.inp.addr - ramBase) tape after) :
    (∀ i b, tape[i]? = some b → (startState after).mem (BitVec.ofNat 32 (l.inp.addr + i)) = b) ∧
    ∀ a : Word, ¬ l.inp.has a.toNat → (startState after).mem a = imageOf l c a.toNat := by
  obtain ⟨r1, r2, -, -⟩ := C64_ram hvg hl
  obtain ⟨-, i1, i2⟩ := r1 l.inp (by simp [Layout.ramSections])
  obtain ⟨-, p2, p3, p4⟩ := hin
  have hr : ramBase = 0x40000 := rfl
  constructor
  · intro i b hb
    have hi := (List.getElem?_eq_some_iff.mp hb).1
    show (if ramBase ≤ (BitVec.ofNat 32 (l.inp.addr + i)).toNat then _ else _) = b
    rw [BitVec.toNat_ofNat, Nat.mod_eq_of_lt (by omega), if_pos (by omega), List.getD_eq_getElem?_getD,
      show l.inp.addr + i - ramBase = l.inp.addr - ramBase + i by omega, p3 i hi, hb]
    rfl
  · intro a ha
    have out : (∀ x ∈ c.ram l, ¬ x.1.has a.toNat) ∨ (0x40000 ≤ a.toNat ∧ a.toNat < 0x41000) := by
      by_cases h : 0x40000 ≤ a.toNat ∧ a.toNat < 0x41000
      · exact .inr h
      · refine .inl fun x hx hc => h ?_
        obtain ⟨-, j1, j2⟩ := r1 x.1 (by
          simp only [Contents.ram, List.mem_cons, List.not_mem_nil, or_false] at hx
          rcases hx with rfl | rfl | rfl | rfl <;> simp [Layout.ramSections])
        unfold Sect.has at hc
        omega
    show (if ramBase ≤ a.toNat then after.getD (a.toNat - ramBase) 0#8 else 0#8) = _
    by_cases hb : 0x40000 ≤ a.toNat ∧ a.toNat < 0x41000
    · rw [if_pos (by omega), List.getD_eq_getElem?_getD, p4 _ (by unfold Sect.has at ha; omega)]
      by_cases hx : ∃ x ∈ c.ram l, x.1.has a.toNat
      · obtain ⟨x, hx, q1, q2⟩ := hx
        have e : a.toNat = x.1.addr + (a.toNat - x.1.addr) := by omega
        have g1 := h6 x hx (a.toNat - x.1.addr) (by omega)
        have g2 := image_at hvg hl hc x hx (a.toNat - x.1.addr) (by omega)
        rw [← e] at g1 g2
        rw [hr, g1, ← g2]
        rfl
      · have hx : ∀ x ∈ c.ram l, ¬ x.1.has a.toNat := fun x h1 h2 => hx ⟨x, h1, h2⟩
        rw [hr, h7 _ hb.1 hb.2 hx, image_zero _ hx]
        rfl
    · rcases out with hx | hx
      · rw [image_zero _ hx]
        split
        · rw [List.getD_eq_getElem?_getD, List.getElem?_eq_none (by omega)]
          rfl
        · rfl
      · exact absurd hx hb

/-- The instructions of the start-up code are among those both VMs execute alike, wherever `_start_rust` is. -/
theorem boot_plain (gp sp : Word) (a : Nat) (h1 : 28 ≤ a) (h2 : a < 2 ^ 18) (j : Nat) (i : Instr)
    (h : (bootWords gp sp (BitVec.ofNat 32 a))[j]? = some (encode i)) : i.plainBase := by
  have inj (j : Instr) (hj : encode i = encode j) (hp : j.plainBase) : i.plainBase := by
    rw [encode_injective _ _ hj]; exact hp
  have hm := List.mem_of_getElem? h
  simp only [bootWords, la, List.cons_append, List.nil_append, List.mem_cons, List.not_mem_nil, or_false] at hm
  rcases hm with h | h | h | h | h | h | h | h | h
  · exact inj _ h trivial
  · exact inj _ h trivial
  · exact inj _ h trivial
  · exact inj _ h trivial
  · exact inj _ h trivial
  · exact inj _ h trivial
  · exact absurd h (encode_unimp i)
  · refine inj _ h ?_
    have e : (jumpField (BitVec.ofNat 32 a - 28#32)).toNat = (a - 28) / 2 := by
      unfold jumpField
      rw [BitVec.toNat_setWidth, BitVec.toNat_ushiftRight, BitVec.toNat_sub, BitVec.toNat_ofNat]
      simp only [BitVec.toNat_ofNat, Nat.shiftRight_eq_div_pow]
      omega
    have e2 : (jumpField (BitVec.ofNat 32 a - 28#32)).toInt = (((a - 28) / 2 : Nat) : Int) := by
      rw [BitVec.toInt_eq_toNat_cond, e, if_pos (by omega)]
    show -2 ^ 18 ≤ (jumpField (BitVec.ofNat 32 a - 28#32)).toInt ∧ (jumpField (BitVec.ofNat 32 a - 28#32)).toInt < 2 ^ 18
    rw [e2]
    omega
  · exact absurd h (encode_unimp i)

theorem resolved_valid {ss : List SymSec} (hv : ∀ s ∈ ss, Piece.Valid s.piece) (h : resolve gc ss = some is) :
    ∀ s ∈ is, Piece.Valid s.piece := by
  obtain ⟨hlen, -, hr⟩ := C85_resolved h
  intro t ht
  obtain ⟨j, hj⟩ := List.getElem?_of_mem ht
  have hl : j < ss.length := by rw [← hlen]; exact (List.getElem?_eq_some_iff.mp hj).1
  obtain ⟨r, e, h1, -⟩ := hr j _ (List.getElem?_eq_getElem hl)
  rw [h1] at hj
  cases hj
  exact hv _ (List.getElem_mem hl)

/-- Where the runtime is: `_start` at 0, and `_start_rust` behind it at a multiple of four. -/
theorem runtime_at {rt : Nat} {gs : List SymSec} (hrt : 0 < rt) (hv : ∀ s ∈ runtimeSecs rt ++ gs, Piece.Valid s.piece)
    (hr : resolve gc (runtimeSecs rt ++ gs) = some is) (h : placements gc is = some (l, pl)) :
    (0, 0) ∈ pl ∧ 36 ≤ l.text.size ∧ (∃ entry, (1, entry) ∈ pl) ∧ ∀ entry, (1, entry) ∈ pl → 36 ≤ entry ∧ entry < 2 ^ 18 ∧ entry % 4 = 0 := by
  have hvj := resolved_valid hv hr
  obtain ⟨h0, -⟩ := C85_program hv hr h
  obtain ⟨-, -, hget⟩ := C85_resolved hr
  obtain ⟨g0, g1, -⟩ := runtime_get rt gs
  obtain ⟨r0, e0, hj0, -⟩ := hget 0 _ g0
  obtain ⟨r1, e1, hj1, -⟩ := hget 1 _ g1
  obtain ⟨p1, p2, p3, p4, -⟩ := C84_placed hvj h
  obtain ⟨g, hg, hl, -⟩ := placements_inv hvj h
  obtain ⟨t1, -, t3, -⟩ := C64_text (select_valid hvj hg) hl
  have at_ : ∀ (j a : Nat) s, (j, a) ∈ pl → is[j]? = some s → (s.name = ".init" ∨ s.name = ".init.rust") →
      s.piece.align ∣ a ∧ a + s.piece.size ≤ l.text.size := by
    intro j a s hm hs hn
    obtain ⟨s', q, S, hs', -, hq, hS, d1, -, d2⟩ := p1 j a hm
    cases hs.symm.trans hs'
    have : S = l.text := by
      rcases hn with hn | hn
      · cases named_unique hq (show Named s.name .init from hn); exact (Option.some.inj hS).symm
      · cases named_unique hq (show Named s.name .initRust from hn); exact (Option.some.inj hS).symm
    rw [this, t1] at d2
    exact ⟨d1, by omega⟩
  refine ⟨h0, ?_, ?_, fun entry hm => ?_⟩
  · have := (at_ 0 0 _ h0 hj0 (.inl rfl)).2
    simpa [startSec] using this
  · exact p2 1 _ .initRust l.text hj1 (fun _ => .root hj1 (.inl (.inr (.inl rfl)))) rfl rfl
  · obtain ⟨d1, d2⟩ := at_ 1 entry _ hm hj1 (.inr rfl)
    have d1 : 4 ∣ entry := d1
    have d2 : entry + rt ≤ l.text.size := d2
    have : 0 + 36 ≤ entry ∨ entry + rt ≤ 0 := p4 0 1 0 entry _ _ (by decide) h0 hm hj0 hj1
    omega

/-! ### The run -/

/-- What a loader must make of the program: the code as ROM, the sections in the RAM, zeros elsewhere in it, the two tapes. -/
structure LoadedAs (l : Layout) (c : Contents) (p : Phantom) : Prop where
  rom : p.bootRom.data = c.text
  base : p.bootRam.offset = 0x40000
  len : p.bootRam.data.length = 4096
  input : p.input = ⟨l.inp.addr, l.inp.size⟩
  output : p.output = ⟨l.out.addr, l.out.size⟩
  sects : ∀ x ∈ c.ram l, ∀ i, i < x.1.size → p.bootRam.data[x.1.addr + i - 0x40000]? = x.2[i]?
  rest : ∀ a, 0x40000 ≤ a → a < 0x41000 → (∀ x ∈ c.ram l, ¬ x.1.has a) → p.bootRam.data[a - 0x40000]? = some 0#8

theorem runsWith_append {fetch : Word → Option Instr} {step : Instr → Arch → Arch} {a b : Nat} {s t u : Arch}
    (h1 : RunsWith fetch step a s t) (h2 : RunsWith fetch step b t u) : RunsWith fetch step (a + b) s u := by
  induction h1 with
  | zero s => rw [Nat.zero_add]; exact h2
  | succ hf _ ih => rw [Nat.add_right_comm]; exact .succ hf (ih h2)

/-- The code is below 2^18. -/
theorem fetch_low {ss : List SymSec} (hv : ∀ s ∈ ss, Piece.Valid s.piece) (hr : resolve gc ss = some is)
    (h : placements gc is = some (l, pl)) (hh : Holds is l pl bytes c) {fetch : Word → Option Instr} (hf : FetchFrom c.text fetch)
    (pc : Word) (i : Instr) (hpc : fetch pc = some i) : pc.toNat < 2 ^ 18 := by
  have hvj := resolved_valid hv hr
  obtain ⟨g, hg, hl, -⟩ := placements_inv hvj h
  obtain ⟨t1, t2, t3, -⟩ := C64_text (select_valid hvj hg) hl
  have hct : c.text.length = l.text.size := hh.1.1
  have := (List.getElem?_eq_some_iff.mp (((hf pc i).mp hpc).2.2 0 (by decide))).1
  omega

/-- Where both VMs start on such a program: registers and program counter zero, the tape in its section and the rest of the memory as
linked; seven harmless instructions later they are in `_start_rust`.  With where the sections are. -/
theorem loaded_boot {rt : Nat} {gs : List SymSec} (hrt : 0 < rt) (hv : ∀ s ∈ runtimeSecs rt ++ gs, Piece.Valid s.piece)
    (hr : resolve gc (runtimeSecs rt ++ gs) = some is) (h : placements gc is = some (l, pl)) (hh : Holds is l pl bytes c)
    {p : Phantom} (hlo : LoadedAs l c p) (entry : Nat) (hentry : (1, entry) ∈ pl)
    (hboot : bytes 0 = wordBytes (bootWords (BitVec.ofNat 32 l.gp) (BitVec.ofNat 32 l.stackStart) (BitVec.ofNat 32 entry)))
    (tape : List Byte) (hlen : tape.length = l.inp.size) (fetch : Word → Option Instr)
    (hf : ∀ pc i, pc.toNat % 4 = 0 → i.plainBase → InstrAt c.text pc.toNat i → fetch pc = some i) :
    ∃ after s1, Placed p.bootRam.data (l.inp.addr - ramBase) tape after ∧
    Runs fetch (fun i s => i.harmless s ∧ i.encSupported s) 7 (startState after) s1 ∧ s1.mem = (startState after).mem ∧
    Entered l c (BitVec.ofNat 32 entry) tape s1 ∧ c.text.length % 4 = 0 ∧ 0 < c.text.length ∧ c.text.length ≤ 2 ^ 18 ∧
    ramBase ≤ l.inp.addr ∧ l.inp.addr + l.inp.size ≤ ramBase + 4096 ∧
    ramBase ≤ l.out.addr ∧ l.out.addr + l.out.size ≤ ramBase + 4096 := by
  have hvj := resolved_valid hv hr
  obtain ⟨h0, ht, -, hen⟩ := runtime_at hrt hv hr h
  obtain ⟨en1, en2, en3⟩ := hen entry hentry
  obtain ⟨g, hg, hl, -⟩ := placements_inv hvj h
  have hvg := select_valid hvj hg
  obtain ⟨h1, h2, h3, h4, h5, h6, h7⟩ := hlo
  obtain ⟨t1, t2, t3, -⟩ := C64_text hvg hl
  obtain ⟨r1, r2, -, -⟩ := C64_ram hvg hl
  obtain ⟨-, i1, i2⟩ := r1 l.inp (by simp [Layout.ramSections])
  obtain ⟨-, o1, o2⟩ := r1 l.out (by simp [Layout.ramSections])
  have hrb : ramBase = 0x40000 := rfl
  have hct : c.text.length = l.text.size := hh.1.1
  obtain ⟨after, hin⟩ := placed_exists p.bootRam.data tape (l.inp.addr - ramBase) (by omega)
  obtain ⟨m1, m2⟩ := start_mem hvg hl hh.1 h3 hlen h6 h7 hin
  -- the start-up code
  obtain ⟨-, -, hget⟩ := C85_resolved hr
  obtain ⟨g0, -⟩ := runtime_get rt gs
  obtain ⟨r0, e0, hj0, -⟩ := hget 0 _ g0
  have hb : BootAt fetch (BitVec.ofNat 32 l.gp) (BitVec.ofNat 32 l.stackStart) (BitVec.ofNat 32 entry) := by
    intro j i hji
    have h9 : j < 9 := (List.getElem?_eq_some_iff.mp hji).1
    have ej : (BitVec.ofNat 32 (4 * j)).toNat = 4 * j := by rw [BitVec.toNat_ofNat]; omega
    refine hf _ _ (by omega) (boot_plain _ _ entry (by omega) en2 j i hji) fun d hd => ?_
    have := hh.2 0 0 _ .init l.text c.text h0 hj0 rfl rfl rfl (4 * j + d) (show 4 * j + d < 36 by omega)
    rw [Nat.zero_sub, Nat.zero_add, hboot, wordBytes_word _ _ _ hd, hji] at this
    rw [ej]
    exact this
  obtain ⟨s1, q1, q2, q3, q4⟩ := C56_isa fetch (startState after) _ _ (BitVec.ofNat 32 entry) rfl (show (0#32).toInt ≤ 0 by decide) hb
    (by rw [BitVec.toNat_ofNat]; omega) (by rw [BitVec.toNat_ofNat]; omega)
  have hin1 : Entered l c (BitVec.ofNat 32 entry) tape s1 := ⟨q2, fun r => by
    rw [q4 r]
    unfold bootRegs
    have : (startState after).x r = 0#32 := by unfold Arch.x; split <;> rfl
    rw [this], by rw [q3]; exact m1, by rw [q3]; exact m2⟩
  exact ⟨after, s1, hin, q1, q3, hin1, by omega, by omega, by omega, i1, by omega, o1, by omega⟩

/-- Both VMs on such a program: they start in one state, are in `_start_rust` after seven harmless instructions, and return what the
manual's machine and the machine that the interpreter implements leave in the output section. -/
theorem loaded_start (F : Fhe) (rand : Nat → Nat → Nat → F.C.Rand) (chk dbg phantomDebug : Bool) (threads : Nat) (hth : 0 < threads)
    {rt : Nat} {gs : List SymSec} (hrt : 0 < rt) (hv : ∀ s ∈ runtimeSecs rt ++ gs, Piece.Valid s.piece)
    (hr : resolve gc (runtimeSecs rt ++ gs) = some is) (h : placements gc is = some (l, pl)) (hh : Holds is l pl bytes c)
    (hfile : e.bytes.length < 2 ^ 63) {p : Phantom} (hp : Phantom.fromElf e = some p) (hlo : LoadedAs l c p)
    (entry : Nat) (hentry : (1, entry) ∈ pl)
    (hboot : bytes 0 = wordBytes (bootWords (BitVec.ofNat 32 l.gp) (BitVec.ofNat 32 l.stackStart) (BitVec.ofNat 32 entry)))
    (hpa : (Parser.new.addAll dbg (packWords c.text)).isSome = true)
    (tape : List Byte) (hlen : tape.length = l.inp.size) (fetch : Word → Option Instr) (hf : FetchFrom c.text fetch) :
    ∃ s0 s1, Runs fetch (fun i s => i.harmless s ∧ i.encSupported s) 7 s0 s1 ∧ s1.mem = s0.mem ∧
    Entered l c (BitVec.ofNat 32 entry) tape s1 ∧ ∀ (n : Nat) (sT sE : Arch), n < 2 ^ 32 → Runs fetch (TestOk chk) n s0 sT →
      RunsWith fetch (execMirror 1024) n s0 sE →
    (∃ vm0 vm1 vm2, p.testVm chk n = some vm0 ∧ vm0.readInputTape chk tape = some vm1 ∧ vm1.execute chk = some vm2 ∧
      vm2.outputTape chk = some (ramBytes sT (l.out.addr - ramBase) l.out.size)) ∧
    ∃ ev ev2, p.encryptedVm F.C rand dbg phantomDebug threads tape n = some ev ∧
      ev.execute F.C F.decU F.decP = some ev2 ∧ ev2.outputTape F.C chk = some (ramBytes sE (l.out.addr - ramBase) l.out.size) := by
  obtain ⟨after, s1, hin, q1, q3, hin1, h4', hpos, hlt, i1, i2, o1, o2⟩ := loaded_boot hrt hv hr h hh hlo entry hentry hboot tape hlen
    fetch (fun pc i a b c => (hf pc i).mpr ⟨a, b, c⟩)
  obtain ⟨h1, h2, h3, h4, h5, h6, h7⟩ := hlo
  refine ⟨startState after, s1, q1, q3, hin1, fun n sT sE hn hsT hsE => ?_⟩
  have := words_both F rand chk dbg phantomDebug threads n e p (packWords c.text) fetch tape after sT sE hth hn hfile hp h2
    (by rw [h1, wordBytes_packWords _ h4'])
    (fun hnil => by have := packWords_length _ h4'; rw [hnil] at this; simp only [List.length_nil] at this; omega)
    (fun pc i hpc => by
      obtain ⟨f1, f2, f3⟩ := (hf pc i).mp hpc
      have : pc.toNat < c.text.length := by
        have := f3 0 (by decide)
        exact (List.getElem?_eq_some_iff.mp this).1
      refine ⟨f1, by omega, f2, ?_⟩
      exact packWords_instr h4' (by rw [show 4 * (pc.toNat / 4) = pc.toNat by omega]; exact f3))
    hpa (by rw [h4]; exact hlen) (by rw [h4]; exact hin) (by rw [h4]; exact i1)
    (by rw [h4]; exact i2) (by rw [h5]; exact o1)
    (by rw [h5]; exact o2) hsT hsE
  rw [h5] at this
  exact this

theorem harmless_alike {i : Instr} {s : Arch} (h : i.harmless s ∧ i.encSupported s) : Alike i s :=
  ⟨harmless_supported h.1, harmless_window h.1 _ _, fun ⟨t, ht, hm⟩ => hm (h.1.2.1 t ht)⟩

/-- The test VM on such a program returns what the manual's machine leaves in the output section when started at `_start_rust`, and the
encrypted VM what the machine that the interpreter implements leaves there. -/
theorem loaded_outputs (F : Fhe) (rand : Nat → Nat → Nat → F.C.Rand) (chk dbg phantomDebug : Bool) (threads n : Nat) (hth : 0 < threads)
    (hn : n + 7 < 2 ^ 32) {rt : Nat} {gs : List SymSec} (hrt : 0 < rt) (hv : ∀ s ∈ runtimeSecs rt ++ gs, Piece.Valid s.piece)
    (hr : resolve gc (runtimeSecs rt ++ gs) = some is) (h : placements gc is = some (l, pl)) (hh : Holds is l pl bytes c)
    (hfile : e.bytes.length < 2 ^ 63) {p : Phantom} (hp : Phantom.fromElf e = some p) (hlo : LoadedAs l c p)
    (entry : Nat) (hentry : (1, entry) ∈ pl)
    (hboot : bytes 0 = wordBytes (bootWords (BitVec.ofNat 32 l.gp) (BitVec.ofNat 32 l.stackStart) (BitVec.ofNat 32 entry)))
    (hpa : (Parser.new.addAll dbg (packWords c.text)).isSome = true)
    (tape : List Byte) (hlen : tape.length = l.inp.size) (fetch : Word → Option Instr) (hf : FetchFrom c.text fetch)
    (outT outE : List Byte) (hrunT : ∀ s, Entered l c (BitVec.ofNat 32 entry) tape s →
      ∃ s', Runs fetch (TestOk chk) n s s' ∧ ramBytes s' (l.out.addr - ramBase) l.out.size = outT)
    (hrunE : ∀ s, Entered l c (BitVec.ofNat 32 entry) tape s →
      ∃ s', RunsWith fetch (execMirror 1024) n s s' ∧ ramBytes s' (l.out.addr - ramBase) l.out.size = outE) :
    (∃ vm0 vm1 vm2, p.testVm chk (n + 7) = some vm0 ∧ vm0.readInputTape chk tape = some vm1 ∧ vm1.execute chk = some vm2 ∧
      vm2.outputTape chk = some outT) ∧
    ∃ ev ev2, p.encryptedVm F.C rand dbg phantomDebug threads tape (n + 7) = some ev ∧
      ev.execute F.C F.decU F.decP = some ev2 ∧ ev2.outputTape F.C chk = some outE := by
  obtain ⟨s0, s1, q1, -, hin1, both⟩ := loaded_start F rand chk dbg phantomDebug threads hth hrt hv hr h hh hfile hp hlo entry hentry hboot hpa
    tape hlen fetch hf
  have q1 : Runs fetch Alike 7 s0 s1 := q1.mono (fun _ _ h => h) fun _ _ => harmless_alike
  obtain ⟨sT, hsT, houtT⟩ := hrunT s1 hin1
  obtain ⟨sE, hsE, houtE⟩ := hrunE s1 hin1
  rw [← houtT, ← houtE]
  exact both (n + 7) sT sE hn (by rw [Nat.add_comm]; exact runs_append (alike_test (fetch_low hv hr h hh hf) chk q1) hsT)
    (by rw [Nat.add_comm]; exact runsWith_append (alike_enc q1) hsE)

/-- Both VMs on such a program return what the manual's machine leaves in the output section when started at `_start_rust`. -/
theorem loaded_output (F : Fhe) (rand : Nat → Nat → Nat → F.C.Rand) (chk dbg phantomDebug : Bool) (threads n : Nat) (hth : 0 < threads)
    (hn : n + 7 < 2 ^ 32) {rt : Nat} {gs : List SymSec} (hrt : 0 < rt) (hv : ∀ s ∈ runtimeSecs rt ++ gs, Piece.Valid s.piece)
    (hr : resolve gc (runtimeSecs rt ++ gs) = some is) (h : placements gc is = some (l, pl)) (hh : Holds is l pl bytes c)
    (hfile : e.bytes.length < 2 ^ 63) {p : Phantom} (hp : Phantom.fromElf e = some p) (hlo : LoadedAs l c p)
    (entry : Nat) (hentry : (1, entry) ∈ pl)
    (hboot : bytes 0 = wordBytes (bootWords (BitVec.ofNat 32 l.gp) (BitVec.ofNat 32 l.stackStart) (BitVec.ofNat 32 entry)))
    (hpa : (Parser.new.addAll dbg (packWords c.text)).isSome = true)
    (tape : List Byte) (hlen : tape.length = l.inp.size) (fetch : Word → Option Instr) (hf : FetchFrom c.text fetch)
    (out : List Byte) (hrun : ∀ s, Entered l c (BitVec.ofNat 32 entry) tape s →
      ∃ s', Runs fetch Alike n s s' ∧ ramBytes s' (l.out.addr - ramBase) l.out.size = out) :
    (∃ vm0 vm1 vm2, p.testVm chk (n + 7) = some vm0 ∧ vm0.readInputTape chk tape = some vm1 ∧ vm1.execute chk = some vm2 ∧
      vm2.outputTape chk = some out) ∧
    ∃ ev ev2, p.encryptedVm F.C rand dbg phantomDebug threads tape (n + 7) = some ev ∧
      ev.execute F.C F.decU F.decP = some ev2 ∧ ev2.outputTape F.C chk = some out :=
  loaded_outputs F rand chk dbg phantomDebug threads n hth hn hrt hv hr h hh hfile hp hlo entry hentry hboot hpa tape hlen fetch hf out out
    (fun s hs => let ⟨s', h1, h2⟩ := hrun s hs; ⟨s', alike_test (fetch_low hv hr h hh hf) chk h1, h2⟩)
    (fun s hs => let ⟨s', h1, h2⟩ := hrun s hs; ⟨s', alike_enc h1, h2⟩)

/-- From the object files to the output tape, for the file lld writes. -/
theorem C90_output (F : Fhe) (rand : Nat → Nat → Nat → F.C.Rand) (chk dbg phantomDebug : Bool) (threads n : Nat) (hth : 0 < threads)
    (hn : n + 7 < 2 ^ 32) {rt : Nat} {gs : List SymSec} (hrt : 0 < rt) (hv : ∀ s ∈ runtimeSecs rt ++ gs, Piece.Valid s.piece)
    (hr : resolve gc (runtimeSecs rt ++ gs) = some is) (h : placements gc is = some (l, pl)) (hh : Holds is l pl bytes c)
    (he : LldFile e l k c) (hi : k.inp ≠ none) (ho : k.out ≠ none) (hne : ∃ s ∈ l.ramSections, 0 < s.size)
    (hfile : e.bytes.length < 2 ^ 63) (entry : Nat) (hentry : (1, entry) ∈ pl)
    (hboot : bytes 0 = wordBytes (bootWords (BitVec.ofNat 32 l.gp) (BitVec.ofNat 32 l.stackStart) (BitVec.ofNat 32 entry)))
    (hpa : (Parser.new.addAll dbg (packWords c.text)).isSome = true)
    (tape : List Byte) (hlen : tape.length = l.inp.size) (fetch : Word → Option Instr) (hf : FetchFrom c.text fetch)
    (out : List Byte) (hrun : ∀ s, Entered l c (BitVec.ofNat 32 entry) tape s →
      ∃ s', Runs fetch Alike n s s' ∧ ramBytes s' (l.out.addr - ramBase) l.out.size = out) :
    ∃ p, Phantom.fromElf e = some p ∧
    (∃ vm0 vm1 vm2, p.testVm chk (n + 7) = some vm0 ∧ vm0.readInputTape chk tape = some vm1 ∧ vm1.execute chk = some vm2 ∧
      vm2.outputTape chk = some out) ∧
    ∃ ev ev2, p.encryptedVm F.C rand dbg phantomDebug threads tape (n + 7) = some ev ∧
      ev.execute F.C F.decU F.decP = some ev2 ∧ ev2.outputTape F.C chk = some out := by
  have hvj := resolved_valid hv hr
  obtain ⟨-, ht, -⟩ := runtime_at hrt hv hr h
  obtain ⟨g, hg, hl, -⟩ := placements_inv hvj h
  obtain ⟨p, hp, h1, h2, h3, h4, h5, h6, h7⟩ := C82_loads (select_valid hvj hg) hl hh.1 he (by omega) hi ho hne
  exact ⟨p, hp, loaded_output F rand chk dbg phantomDebug threads n hth hn hrt hv hr h hh hfile hp ⟨h1, h2, h3, h4, h5, h6, h7⟩ entry
    hentry hboot hpa tape hlen fetch hf out hrun⟩

/-- The same for the bytes of a file with one load segment for each section. -/
theorem C90_bytes (F : Fhe) (rand : Nat → Nat → Nat → F.C.Rand) (chk dbg phantomDebug : Bool) (threads n : Nat) (hth : 0 < threads)
    (hn : n + 7 < 2 ^ 32) {rt : Nat} {gs : List SymSec} (hrt : 0 < rt) (hv : ∀ s ∈ runtimeSecs rt ++ gs, Piece.Valid s.piece)
    (hr : resolve gc (runtimeSecs rt ++ gs) = some is) (h : placements gc is = some (l, pl)) (hh : Holds is l pl bytes c)
    (hne : ∃ s ∈ l.ramSections, 0 < s.size) (entry : Nat) (hentry : (1, entry) ∈ pl)
    (hboot : bytes 0 = wordBytes (bootWords (BitVec.ofNat 32 l.gp) (BitVec.ofNat 32 l.stackStart) (BitVec.ofNat 32 entry)))
    (hpa : (Parser.new.addAll dbg (packWords c.text)).isSome = true)
    (tape : List Byte) (hlen : tape.length = l.inp.size) (fetch : Word → Option Instr) (hf : FetchFrom c.text fetch)
    (out : List Byte) (hrun : ∀ s, Entered l c (BitVec.ofNat 32 entry) tape s →
      ∃ s', Runs fetch Alike n s s' ∧ ramBytes s' (l.out.addr - ramBase) l.out.size = out) :
    ∃ p, ElfBytes.fromBytes (guestFile l c).write = some p ∧
    (∃ vm0 vm1 vm2, p.testVm chk (n + 7) = some vm0 ∧ vm0.readInputTape chk tape = some vm1 ∧ vm1.execute chk = some vm2 ∧
      vm2.outputTape chk = some out) ∧
    ∃ ev ev2, p.encryptedVm F.C rand dbg phantomDebug threads tape (n + 7) = some ev ∧
      ev.execute F.C F.decU F.decP = some ev2 ∧ ev2.outputTape F.C chk = some out := by
  have hvj := resolved_valid hv hr
  obtain ⟨g, hg, hl, -⟩ := placements_inv hvj h
  have hvg := select_valid hvj hg
  obtain ⟨e, p, h0, -, hp, h1, h2, h3, h4, h5, h6, h7⟩ := C73_guest hvg hl c hh.1 hne
  have hfit := guest_fits hvg hl c hh.1
  have hb : e.bytes = (guestFile l c).write := by
    rw [C73_written _ hfit] at h0
    rw [← Option.some.inj h0]
  have hp' : Phantom.fromElf e = some p := by
    unfold ElfBytes.fromBytes at hp
    rwa [h0] at hp
  have := hfit.total
  exact ⟨p, hp, loaded_output F rand chk dbg phantomDebug threads n hth hn hrt hv hr h hh (by rw [hb]; omega) hp'
    ⟨h1, h2, h3, h4, h5, h6, h7⟩ entry hentry hboot hpa tape hlen fetch hf out hrun⟩

/-! ### Such programs exist -/

/-- The byte at an address: that of the section there. -/
def sectionByte (is : List InSec) (pl : List (Nat × Nat)) (bytes : Nat → List Byte) (a : Nat) : Byte :=
  ((pl.find? fun x => decide (x.2 ≤ a ∧ a < x.2 + ((is[x.1]?.map (·.piece.size)).getD 0))).bind
    fun x => (bytes x.1)[a - x.2]?).getD 0#8

/-- A linker can do it: sections do not overlap. -/
theorem C90_contents (hv : ∀ s ∈ is, Piece.Valid s.piece) (h : placements gc is = some (l, pl))
    (hb : ∀ (j : Nat) s, is[j]? = some s → (bytes j).length = s.piece.size) : ∃ c, Holds is l pl bytes c := by
  obtain ⟨p1, p2, p3, p4, -⟩ := C84_placed hv h
  have key : ∀ (j a : Nat) s, (j, a) ∈ pl → is[j]? = some s → ∀ i, i < s.piece.size →
      some (sectionByte is pl bytes (a + i)) = (bytes j)[i]? := by
    intro j a s hm hs i hi
    unfold sectionByte
    have hfind : ∃ x, pl.find? (fun x => decide (x.2 ≤ a + i ∧ a + i < x.2 + ((is[x.1]?.map (·.piece.size)).getD 0))) = some x := by
      apply Option.isSome_iff_exists.mp
      rw [List.find?_isSome]
      exact ⟨(j, a), hm, by rw [hs]; simpa using hi⟩
    obtain ⟨⟨j', a'⟩, hx⟩ := hfind
    have hc := List.find?_some hx
    have hm' := List.mem_of_find?_eq_some hx
    obtain ⟨s', -, -, hs', -⟩ := p1 j' a' hm'
    simp only [hs', Option.map_some, Option.getD_some, decide_eq_true_eq] at hc
    have hj : j' = j := Classical.byContradiction fun hne => by
      have := p4 j' j a' a s' s hne hm' hm hs' hs
      omega
    subst hj
    cases p3 _ _ _ hm hm'
    rw [hx, Option.bind_some, Nat.add_sub_cancel_left, List.getElem?_eq_getElem (by rw [hb _ s hs]; exact hi)]
    rfl
  let img (S : Sect) : List Byte := (List.range S.size).map fun i => sectionByte is pl bytes (S.addr + i)
  have himg : ∀ (S : Sect) (j a : Nat) s, (j, a) ∈ pl → is[j]? = some s → S.addr ≤ a → a + s.piece.size ≤ S.addr + S.size →
      ∀ i, i < s.piece.size → (img S)[a - S.addr + i]? = (bytes j)[i]? := by
    intro S j a s hm hs b1 b2 i hi
    rw [← key j a s hm hs i hi, List.getElem?_map, List.getElem?_range (by omega)]
    show some (sectionByte is pl bytes (S.addr + (a - S.addr + i))) = _
    rw [show S.addr + (a - S.addr + i) = a + i by omega]
  refine ⟨⟨img l.text, img l.inp, img l.out, img l.rodata, img l.data⟩, ⟨by simp [img], fun x hx => ?_⟩, ?_⟩
  · simp only [Contents.ram, List.mem_cons, List.not_mem_nil, or_false] at hx
    rcases hx with rfl | rfl | rfl | rfl <;> simp [img]
  · intro j a s p S d hm hs hp hS hd i hi
    obtain ⟨s', p', S', hs', -, hp', hS', -, b1, b2⟩ := p1 j a hm
    cases hs.symm.trans hs'
    cases named_unique hp hp'
    cases hS.symm.trans hS'
    have : d = img S := by
      cases p <;> first | (cases hd; cases hS; rfl) | cases hd
    rw [this]
    exact himg S j a s hm hs b1 b2 i hi

theorem instrAt_unique {rom : List Byte} {a : Nat} {i j : Instr} (hi : InstrAt rom a i) (hj : InstrAt rom a j) : i = j := by
  have hl : a + 3 < rom.length := (List.getElem?_eq_some_iff.mp (hi 3 (by decide))).1
  have h4 : ((rom.drop a).take 4).length % 4 = 0 := by rw [List.length_take, List.length_drop]; omega
  have at_ : ∀ i, InstrAt rom a i → InstrAt ((rom.drop a).take 4) (4 * 0) i := by
    intro i h d hd
    rw [Nat.mul_zero, Nat.zero_add, List.getElem?_take_of_lt hd, List.getElem?_drop]
    exact h d hd
  have := (packWords_instr h4 (at_ i hi)).symm.trans (packWords_instr h4 (at_ j hj))
  exact encode_injective _ _ (Option.some.inj this)

/-- There is at most one instruction at an address. -/
theorem C90_fetch (rom : List Byte) : ∃ fetch, FetchFrom rom fetch := by
  classical
  refine ⟨fun pc => if h : ∃ i, pc.toNat % 4 = 0 ∧ i.plainBase ∧ InstrAt rom pc.toNat i then some h.choose else none, fun pc i => ?_⟩
  constructor
  · intro h
    simp only at h
    split at h
    · next hx => rw [← Option.some.inj h]; exact hx.choose_spec
    · cases h
  · intro h
    simp only
    have hx : ∃ i, pc.toNat % 4 = 0 ∧ i.plainBase ∧ InstrAt rom pc.toNat i := ⟨i, h⟩
    rw [dif_pos hx]
    exact congrArg some (instrAt_unique hx.choose_spec.2.2 h.2.2)

end Verif.Props
