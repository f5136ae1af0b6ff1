import Verif.Props.Linked
/-
  C90 for the guests template and guest-test1: `main`, the multiplication of the compiler's library and the constants in sections
  of their own, linked with the runtime and run from address 0.
-/
namespace Verif.Props
open Model Model.Link Spec Boot ElfFile

/-! ### Checking what a linker has done -/

/-- The bytes of the sections are where they should be. -/
def holdsCheck (is : List InSec) (l : Layout) (pl : List (Nat × Nat)) (bytes : Nat → List Byte) (c : Contents) : Bool :=
  decide (c.text.length = l.text.size) && (c.ram l).all (fun x => decide (x.2.length = x.1.size)) &&
  pl.all fun x => match is[x.1]? with
    | none => true
    | some s => match partOf s.name with
      | none => true
      | some p => match l.part p, c.part p with
        | some S, some d => decide ((d.drop (x.2 - S.addr)).take s.piece.size = (bytes x.1).take s.piece.size)
        | _, _ => true

theorem holds_of_check {is : List InSec} {l : Layout} {pl : List (Nat × Nat)} {bytes : Nat → List Byte} {c : Contents}
    (h : holdsCheck is l pl bytes c = true) : Holds is l pl bytes c := by
  unfold holdsCheck at h
  simp only [Bool.and_eq_true, decide_eq_true_eq, List.all_eq_true] at h
  obtain ⟨⟨h1, h2⟩, h3⟩ := h
  refine ⟨⟨h1, h2⟩, fun k a s p S d hk hs hp hS hd i hi => ?_⟩
  have := h3 (k, a) hk
  simp only [hs, (C84_names s.name).1 p |>.mpr hp, hS, hd, decide_eq_true_eq] at this
  have := congrArg (·[i]?) this
  simp only [List.getElem?_take_of_lt hi, List.getElem?_drop] at this
  exact this

/-- A word of the memory from its bytes. -/
theorem lw_of {m : Word → Byte} {data : List Byte} {a o : Nat}
    (h : ∀ d, d < 4 → m (BitVec.ofNat 32 (a + d)) = data.getD (o + d) 0#8) :
    LoadOp.eval .lw m (BitVec.ofNat 32 a) = Guest.getWord data o := by
  have e : Guest.getWord data o = Guest.getWord [data.getD o 0, data.getD (o + 1) 0, data.getD (o + 2) 0, data.getD (o + 3) 0] 0 := rfl
  rw [e, word_of]
  show BitVec.ofNat 32 (leValue _ _ 4) = _
  have l : ∀ (m : Word → Byte) (a : Word), leValue m a 4 = (m a).toNat + 256 * ((m (a + 1#32)).toNat + 256 * ((m (a + 2#32)).toNat +
      256 * (m (a + 3#32)).toNat)) := by
    intro m a
    simp only [leValue, Nat.mul_zero, Nat.add_zero, BitVec.add_assoc]
    rfl
  rw [l, show (1#32) = BitVec.ofNat 32 1 from rfl, show (2#32) = BitVec.ofNat 32 2 from rfl, show (3#32) = BitVec.ofNat 32 3 from rfl,
    ← BitVec.ofNat_add, ← BitVec.ofNat_add, ← BitVec.ofNat_add, h 1 (by decide), h 2 (by decide), h 3 (by decide)]
  have h0 := h 0 (by decide)
  rw [Nat.add_zero, Nat.add_zero] at h0
  rw [h0]
  rfl

/-- The instructions of a program that consists of the start-up code, `_start_rust` and `main`. -/
theorem program_fetch {gp sp : Word} {code : List Instr} (hlen : code.length ≤ 2 ^ 15) (hp : ∀ i ∈ code, i.plainBase)
    {fetch : Word → Option Instr} (hf : FetchFrom (wordBytes (programWords gp sp code)) fetch) (pc : Word) (i : Instr)
    (h : codeAt (tailCall ++ code) pc = some i) : fetch (pc + 36#32) = some i := by
  obtain ⟨h1, h2, h3⟩ := codeAt_inv h
  have hl : (tailCall ++ code).length = code.length + 2 := by rw [List.length_append]; exact Nat.add_comm 2 _
  have e : (pc + 36#32).toNat = pc.toNat + 36 := by rw [BitVec.toNat_add]; simp only [BitVec.toNat_ofNat]; omega
  refine (hf _ _).mpr ⟨by omega, ?_, fun j hj => ?_⟩
  · rcases List.mem_append.mp (List.mem_of_getElem? h3) with hm | hm
    · simp only [tailCall, List.mem_cons, List.not_mem_nil, or_false] at hm
      rcases hm with rfl | rfl <;> trivial
    · exact hp i hm
  · rw [e, show pc.toNat + 36 + j = 4 * (pc.toNat / 4 + 9) + j by omega, wordBytes_word _ _ _ hj]
    unfold programWords
    rw [List.getElem?_append_right (by rw [bootWords_length]; omega), bootWords_length, Nat.add_sub_cancel, List.getElem?_map, h3]
    rfl

/-- A linked guest whose `main` ends, whatever is in the registers. -/
theorem linked_main {is : List InSec} {l : Layout} {pl : List (Nat × Nat)} {bytes : Nat → List Byte} {c : Contents} {e : Elf} {k : Kinds}
    (F : Fhe) (rand : Nat → Nat → Nat → F.C.Rand) (chk dbg phantomDebug : Bool) (threads n N : Nat) (hth : 0 < threads)
    (hn : N + 9 ≤ n) (hn' : n < 2 ^ 32) {gs : List SymSec} (hv : ∀ s ∈ runtimeSecs 8 ++ gs, Piece.Valid s.piece)
    (hr : resolve true (runtimeSecs 8 ++ gs) = some is) (h : placements true is = some (l, pl)) (hh : Holds is l pl bytes c)
    (he : LldFile e l k c) (hi : k.inp ≠ none) (ho : k.out ≠ none) (hne : ∃ s ∈ l.ramSections, 0 < s.size)
    (hfile : e.bytes.length < 2 ^ 63) (hentry : (1, 36) ∈ pl)
    (hboot : bytes 0 = wordBytes (bootWords (BitVec.ofNat 32 l.gp) (BitVec.ofNat 32 l.stackStart) 36#32)) (code : List Instr)
    (hreloc : ∀ i ∈ code, Relocatable i) (hplain : ∀ i ∈ code, i.plainBase) (hcl : code.length ≤ 2 ^ 15)
    (htext : c.text = wordBytes (programWords (BitVec.ofNat 32 l.gp) (BitVec.ofNat 32 l.stackStart) code))
    (hpa : (Parser.new.addAll dbg (programWords (BitVec.ofNat 32 l.gp) (BitVec.ofNat 32 l.stackStart) code)).isSome = true)
    (tape : List Byte) (hlen : tape.length = l.inp.size) (out : List Byte)
    (hrun : ∀ s, Entered l c 36#32 tape s → ∃ M, (∀ x, Ends code N (St 0 x s.mem) M) ∧
      (List.range l.out.size).map (fun i => M (BitVec.ofNat 32 (ramBase + (l.out.addr - ramBase + i)))) = out) :
    ∃ p, Phantom.fromElf e = some p ∧
    (∃ vm0 vm1 vm2, p.testVm chk n = some vm0 ∧ vm0.readInputTape chk tape = some vm1 ∧ vm1.execute chk = some vm2 ∧
      vm2.outputTape chk = some out) ∧
    ∃ ev ev2, p.encryptedVm F.C rand dbg phantomDebug threads tape n = some ev ∧
      ev.execute F.C F.decU F.decP = some ev2 ∧ ev2.outputTape F.C chk = some out := by
  obtain ⟨fetch, hf⟩ := C90_fetch c.text
  obtain ⟨m, rfl⟩ : ∃ m, n = m + 7 := ⟨n - 7, by omega⟩
  refine C90_output F rand chk dbg phantomDebug threads m hth hn' (by decide) hv hr h hh he hi ho hne hfile 36 hentry hboot
    (by rw [htext, packWords_wordBytes]; exact hpa) tape hlen fetch hf out fun s hs => ?_
  obtain ⟨M, hE, hM⟩ := hrun s hs
  rw [htext] at hf
  obtain ⟨t, h1, h2⟩ := tail_runs hreloc hcl (E := 36#32) (by decide) (program_fetch hcl hplain hf) hs.pc hE
  refine ⟨t, h2 m (by omega), ?_⟩
  rw [← hM, ← h1]
  rfl

/-! ### The template -/

/-- The sections: the runtime, `main`, the multiplication, the tapes, the coefficients. -/
def polySecs : List SymSec :=
  [⟨".text.main", ⟨76, 4⟩, ["main"], ["INPUT", "OUTPUT", "__mulsi3", "COEFFS"]⟩, ⟨".text.__mulsi3", ⟨40, 4⟩, ["__mulsi3"], []⟩,
   ⟨".inpdata", ⟨4, 4⟩, ["INPUT"], []⟩, ⟨".outdata", ⟨4, 4⟩, ["OUTPUT"], []⟩, ⟨".rodata.COEFFS", ⟨28, 4⟩, ["COEFFS"], []⟩]

/-- The layout. -/
def polyLayout : Layout :=
  { text := ⟨0, 160⟩, inp := ⟨0x40000, 4⟩, out := ⟨0x40004, 4⟩, rodata := ⟨0x40008, 28⟩, data := ⟨0x40024, 0⟩, bss := ⟨0x40024, 0⟩
    stackStart := 0x41000, gp := 0x40824, fin := 0x40024 }

/-- The bytes of the sections. -/
def polyBytes (k : Nat) : List Byte :=
  if k = 0 then wordBytes (bootWords 0x40824#32 0x41000#32 36#32) else if k = 1 then wordBytes (tailCall.map encode)
  else if k = 3 then wordBytes ((poly.take 19).map encode) else if k = 4 then wordBytes (mulsi3.map encode)
  else if k = 5 ∨ k = 6 then List.replicate 4 0#8 else if k = 7 then Guest.coefficients.flatMap Guest.putWord else []

/-- And of the output sections. -/
def polyContents : Contents :=
  { text := wordBytes (programWords 0x40824#32 0x41000#32 poly), inp := List.replicate 4 0#8, out := List.replicate 4 0#8
    rodata := Guest.coefficients.flatMap Guest.putWord, data := [] }

def polyPlaces : List (Nat × Nat) := [(0, 0), (1, 36), (3, 44), (4, 120), (5, 0x40000), (6, 0x40004), (7, 0x40008)]

/-- The numbered sections. -/
def polyIn : List InSec := numbered (runtimeSecs 8 ++ polySecs)

theorem poly_links : resolve true (runtimeSecs 8 ++ polySecs) = some polyIn ∧ placements true polyIn = some (polyLayout, polyPlaces) ∧
    holdsCheck polyIn polyLayout polyPlaces polyBytes polyContents = true := by
  refine ⟨?_, by decide +kernel, by decide +kernel⟩
  have : (resolve true (runtimeSecs 8 ++ polySecs)).isSome = true := by decide +kernel
  unfold resolve at this ⊢
  split at this
  · cases this
  · rename_i h
    rw [if_neg h]
    split at this
    · cases this
    · rename_i h'
      rw [if_neg h']
      rfl

/-- Its tapes and constants: `static mut` tapes, read-only coefficients. -/
def polyKinds : Kinds := ⟨some true, some true, some false, none⟩

/-- `main` of the template, linked with the runtime: for every point both VMs return what the source says without overflow checks. -/
theorem C90_poly (F : Fhe) (rand : Nat → Nat → Nat → F.C.Rand) (chk dbg phantomDebug : Bool) (threads n : Nat) (ht : 0 < threads)
    (hn : 3286 ≤ n) (hn' : n < 2 ^ 32) (e : Elf) (he : LldFile e polyLayout polyKinds polyContents) (hfile : e.bytes.length < 2 ^ 63)
    (tape : List Byte) (hlen : tape.length = 4) :
    ∃ p out, Phantom.fromElf e = some p ∧ Guest.polyMain false tape = some out ∧
    (∃ vm0 vm1 vm2, p.testVm chk n = some vm0 ∧ vm0.readInputTape chk tape = some vm1 ∧ vm1.execute chk = some vm2 ∧
      vm2.outputTape chk = some out) ∧
    ∃ ev ev2, p.encryptedVm F.C rand dbg phantomDebug threads tape n = some ev ∧
      ev.execute F.C F.decU F.decP = some ev2 ∧ ev2.outputTape F.C chk = some out := by
  obtain ⟨v, hv⟩ := poly_total (Guest.getWord tape 0) Guest.coefficients 0#32 1#32
  have hm : Guest.polyMain false tape = some (Guest.putWord v) := by unfold Guest.polyMain; rw [hv]; rfl
  obtain ⟨p, hp, h⟩ := linked_main F rand chk dbg phantomDebug threads n 3277 ht hn hn' (gs := polySecs)
    (by unfold Piece.Valid; decide +kernel) poly_links.1 poly_links.2.1 (holds_of_check poly_links.2.2) he (by decide) (by decide)
    ⟨polyLayout.inp, by decide, by decide⟩ hfile (by decide) rfl poly (by decide) (by decide) (by decide) rfl
    (by cases dbg <;> decide +kernel) tape hlen (Guest.putWord v) fun s hs => by
      have himg : ∀ k, k < 28 → imageOf polyLayout polyContents (0x40008 + k) = (Guest.coefficients.flatMap Guest.putWord).getD k 0#8 := by
        decide +kernel
      have hco : ∀ j, j < Guest.coefficients.length →
          Guest.getWord (Guest.coefficients.flatMap Guest.putWord) (4 * j) = Guest.coefficients.getD j 0#32 := by decide +kernel
      refine ⟨storeBytes s.mem (BitVec.ofNat 32 (ramBase + 4)) v 4, fun x => ?_, ?_⟩
      · obtain ⟨v', hv', hE⟩ := poly_run x s.mem (Guest.getWord tape 0)
          (lw_of fun d hd => by
            rw [List.getD_eq_getElem?_getD, Nat.zero_add, List.getElem?_eq_getElem (by omega)]
            exact hs.tape d _ (List.getElem?_eq_getElem (by omega)))
          (fun j hj => by
            have hj' : j < 7 := hj
            rw [← hco j hj]
            refine lw_of fun d hd => ?_
            have e1 : (BitVec.ofNat 32 (ramBase + (8 + 4 * j) + d)).toNat = 0x40008 + (4 * j + d) := by
              rw [BitVec.toNat_ofNat]; unfold ramBase; omega
            rw [hs.rest _ (by rw [e1]; show ¬ (0x40000 ≤ _ ∧ _ < 0x40000 + 4); omega), e1, himg _ (by omega)])
        cases Option.some.inj (hv.symm.trans hv')
        exact hE
      · rfl
  exact ⟨p, _, hp, hm, h⟩

/-- C90_loaded on it: the coefficients are in the RAM at 0x40008. -/
example : ∃ p, Phantom.fromElf (lldElf polyLayout polyKinds polyContents) = some p ∧
    ∀ i, i < 28 → p.bootRam.data[0x40008 + i - 0x40000]? = (Guest.coefficients.flatMap Guest.putWord)[i]? := by
  obtain ⟨p, hp, -, -, h⟩ := C90_loaded (is := polyIn) (by unfold Piece.Valid; decide +kernel) poly_links.2.1
    (holds_of_check poly_links.2.2) (lldElf_is polyLayout polyKinds polyContents) (by decide) (by decide) (by decide)
    ⟨polyLayout.inp, by decide, by decide⟩
  exact ⟨p, hp, fun i hi => (h 7 0x40008 _ .rodata (by decide) rfl ((C84_names _).1 _ |>.mp (by decide +kernel)) i hi).2.1 (by decide)⟩

/-- C90_contents on it. -/
example : ∃ c, Holds polyIn polyLayout polyPlaces (fun k => List.replicate ((polyIn[k]?.map (·.piece.size)).getD 0) 1#8) c :=
  C90_contents (by unfold Piece.Valid; decide +kernel) poly_links.2.1 (fun j s h => by rw [h]; exact List.length_replicate)

/-- C90_fetch: the first instruction of the program is `auipc gp`. -/
example : ∃ fetch, FetchFrom polyContents.text fetch ∧ fetch 0#32 = some (.auipc 3#5 (hi20 0x40824#32)) := by
  obtain ⟨f, hf⟩ := C90_fetch polyContents.text
  exact ⟨f, hf, (hf _ _).mpr ⟨by decide, trivial, by unfold InstrAt; decide +kernel⟩⟩

/-- The host of the template on the linked guest gets through for every point, unless its own loop overflows where overflow is
checked. -/
theorem C90_template_host (F : Fhe) (rand : Nat → Nat → Nat → F.C.Rand) (utf8 : List Byte → Bool) (env : Host.Env) (cpus : Nat)
    (chk dbg : Bool) (hn : 3286 ≤ Host.maxCycles utf8 env 700) (hn' : Host.maxCycles utf8 env 700 < 2 ^ 32)
    (ht : 0 < Host.threads utf8 env cpus) (e : Elf) (he : LldFile e polyLayout polyKinds polyContents) (hfile : e.bytes.length < 2 ^ 63) :
    ∃ p, Phantom.fromElf e = some p ∧ ∀ x, Host.polyHost F.C rand F.decU F.decP utf8 env cpus chk dbg p x =
      Guest.polyLoop chk x Guest.coefficients 0#32 1#32 := by
  have run := fun x => C90_poly F rand chk dbg (Host.flag utf8 env "PHANTOM_DEBUG") (Host.threads utf8 env cpus) _ ht hn hn' e he hfile
    (Guest.putWord x) rfl
  obtain ⟨p, -, hp, -⟩ := run 0#32
  refine ⟨p, hp, fun x => polyHost_of F rand utf8 env cpus chk dbg p x ?_⟩
  obtain ⟨p', out, hp', hm, ⟨vm0, vm1, vm2, a1, a2, a3, a4⟩, ev, ev2, b1, b2, b3⟩ := run x
  cases Option.some.inj (hp.symm.trans hp')
  rw [hm]
  exact (C74_equal _ _ _ _ _ _ _ _ _ _ _ _).mpr ⟨⟨ev, ev2, b1, b2, b3⟩, vm0, vm1, vm2, a1, a2, a3, a4⟩

/-- `MAX_CYCLES=4000`; there is a file lld could have written. -/
example (dbg : Bool) := C90_template_host sampleFhe (fun _ _ _ => ()) (fun _ => true)
  (fun s => if s = "MAX_CYCLES" then some [0x34#8, 0x30#8, 0x30#8, 0x30#8] else none) 4 false dbg (by decide) (by decide) (by decide)
  _ (lldElf_is polyLayout polyKinds polyContents) (by decide +kernel)

/-! ### guest-test1 -/

/-- The sections; the values are a variable. -/
def sumsSecs : List SymSec :=
  [⟨".text.main", ⟨76, 4⟩, ["main"], ["INPUT", "OUTPUT", "__mulsi3", "VALUES"]⟩, ⟨".text.__mulsi3", ⟨40, 4⟩, ["__mulsi3"], []⟩,
   ⟨".inpdata", ⟨8, 4⟩, ["INPUT"], []⟩, ⟨".outdata", ⟨4, 4⟩, ["OUTPUT"], []⟩, ⟨".data.VALUES", ⟨16, 4⟩, ["VALUES"], []⟩]

/-- The layout. -/
def sumsLayout : Layout :=
  { text := ⟨0, 160⟩, inp := ⟨0x40000, 8⟩, out := ⟨0x40008, 4⟩, rodata := ⟨0x4000c, 0⟩, data := ⟨0x4000c, 16⟩, bss := ⟨0x4001c, 0⟩
    stackStart := 0x41000, gp := 0x4080c, fin := 0x4001c }

/-- The bytes of the sections. -/
def sumsBytes (k : Nat) : List Byte :=
  if k = 0 then wordBytes (bootWords 0x4080c#32 0x41000#32 36#32) else if k = 1 then wordBytes (tailCall.map encode)
  else if k = 3 then wordBytes ((sums.take 19).map encode) else if k = 4 then wordBytes (mulsi3.map encode)
  else if k = 5 then List.replicate 8 0#8 else if k = 6 then List.replicate 4 0#8
  else if k = 7 then Guest.hardcoded.flatMap Guest.putWord else []

/-- And of the output sections. -/
def sumsContents : Contents :=
  { text := wordBytes (programWords 0x4080c#32 0x41000#32 sums), inp := List.replicate 8 0#8, out := List.replicate 4 0#8
    rodata := [], data := Guest.hardcoded.flatMap Guest.putWord }

def sumsPlaces : List (Nat × Nat) := [(0, 0), (1, 36), (3, 44), (4, 120), (5, 0x40000), (6, 0x40008), (7, 0x4000c)]

def sumsIn : List InSec := numbered (runtimeSecs 8 ++ sumsSecs)

theorem sums_links : resolve true (runtimeSecs 8 ++ sumsSecs) = some sumsIn ∧ placements true sumsIn = some (sumsLayout, sumsPlaces) ∧
    holdsCheck sumsIn sumsLayout sumsPlaces sumsBytes sumsContents = true := by
  refine ⟨?_, by decide +kernel, by decide +kernel⟩
  have : (resolve true (runtimeSecs 8 ++ sumsSecs)).isSome = true := by decide +kernel
  unfold resolve at this ⊢
  split at this
  · cases this
  · rename_i h
    rw [if_neg h]
    split at this
    · cases this
    · rename_i h'
      rw [if_neg h']
      rfl

/-- All variables. -/
def sumsKinds : Kinds := ⟨some true, some true, none, some true⟩

/-- A byte of the memory as a boolean of the tape. -/
theorem lbu_of {m : Word → Byte} {tape : List Byte} {a o : Nat} (h : m (BitVec.ofNat 32 a) = tape.getD o 0#8) :
    decide (LoadOp.eval .lbu m (BitVec.ofNat 32 a) ≠ 0#32) = Guest.getBool tape o := by
  have e : LoadOp.eval .lbu m (BitVec.ofNat 32 a) = BitVec.ofNat 32 (tape.getD o 0#8).toNat := by
    show BitVec.ofNat 32 (m _).toNat = _
    rw [h]
  rw [e]
  unfold Guest.getBool
  generalize tape.getD o 0#8 = b
  revert b
  decide +kernel

/-- `main` of guest-test1, linked with the runtime: for every input both VMs return what the source says without overflow checks. -/
theorem C90_test1 (F : Fhe) (rand : Nat → Nat → Nat → F.C.Rand) (chk dbg phantomDebug : Bool) (threads n : Nat) (ht : 0 < threads)
    (hn : 965 ≤ n) (hn' : n < 2 ^ 32) (e : Elf) (he : LldFile e sumsLayout sumsKinds sumsContents) (hfile : e.bytes.length < 2 ^ 63)
    (tape : List Byte) (hlen : tape.length = 8) :
    ∃ p out, Phantom.fromElf e = some p ∧ Guest.test1Main false tape = some out ∧
    (∃ vm0 vm1 vm2, p.testVm chk n = some vm0 ∧ vm0.readInputTape chk tape = some vm1 ∧ vm1.execute chk = some vm2 ∧
      vm2.outputTape chk = some out) ∧
    ∃ ev ev2, p.encryptedVm F.C rand dbg phantomDebug threads tape n = some ev ∧
      ev.execute F.C F.decU F.decP = some ev2 ∧ ev2.outputTape F.C chk = some out := by
  generalize hv : Guest.hardcoded.foldl (sumStep (Guest.getWord tape 0) (Guest.getBool tape 4)) 0#32 = v
  have hm : Guest.test1Main false tape = some (Guest.putWord v) := by
    unfold Guest.test1Main
    rw [sums_fold, hv]
    rfl
  obtain ⟨p, hp, h⟩ := linked_main F rand chk dbg phantomDebug threads n 956 ht hn hn' (gs := sumsSecs)
    (by unfold Piece.Valid; decide +kernel) sums_links.1 sums_links.2.1 (holds_of_check sums_links.2.2) he (by decide) (by decide)
    ⟨sumsLayout.inp, by decide, by decide⟩ hfile (by decide) rfl sums (by decide) (by decide) (by decide) rfl
    (by cases dbg <;> decide +kernel) tape hlen (Guest.putWord v) fun s hs => by
      have himg : ∀ k, k < 16 → imageOf sumsLayout sumsContents (0x4000c + k) = (Guest.hardcoded.flatMap Guest.putWord).getD k 0#8 := by
        decide +kernel
      have hco : ∀ j, j < Guest.hardcoded.length →
          Guest.getWord (Guest.hardcoded.flatMap Guest.putWord) (4 * j) = Guest.hardcoded.getD j 0#32 := by decide +kernel
      have htape : ∀ d, d < 8 → s.mem (BitVec.ofNat 32 (ramBase + d)) = tape.getD d 0#8 := by
        intro d hd
        rw [List.getD_eq_getElem?_getD, List.getElem?_eq_getElem (by omega)]
        exact hs.tape d _ (List.getElem?_eq_getElem (by omega))
      refine ⟨storeBytes s.mem (BitVec.ofNat 32 (ramBase + 8)) v 4, fun x => ?_, ?_⟩
      · have hE := sums_run x s.mem (Guest.getWord tape 0)
          (lw_of fun d hd => by rw [Nat.add_zero, Nat.zero_add]; exact htape d (by omega))
          (fun j hj => by
            have hj' : j < 4 := hj
            rw [← hco j hj]
            refine lw_of fun d hd => ?_
            have e1 : (BitVec.ofNat 32 (ramBase + (12 + 4 * j) + d)).toNat = 0x4000c + (4 * j + d) := by
              rw [BitVec.toNat_ofNat]; unfold ramBase; omega
            rw [hs.rest _ (by rw [e1]; show ¬ (0x40000 ≤ _ ∧ _ < 0x40000 + 8); omega), e1, himg _ (by omega)])
        rw [lbu_of (htape 4 (by decide)), hv] at hE
        exact hE
      · rfl
  exact ⟨p, _, hp, hm, h⟩

/-- The six generated test cases of guest-test1 (C77) on the linked guest. -/
theorem C90_generated (F : Fhe) (rand : Nat → Nat → Nat → F.C.Rand) (chk dbg phantomDebug hostChk : Bool) (threads n : Nat)
    (ht : 0 < threads) (hn : 965 ≤ n) (hn' : n < 2 ^ 32) (e : Elf) (he : LldFile e sumsLayout sumsKinds sumsContents)
    (hfile : e.bytes.length < 2 ^ 63) (pad : BitVec 32 → Bool → List (BitVec 8)) (hpad : ∀ a b, (pad a b).length = 3) :
    ∃ p cs, Phantom.fromElf e = some p ∧ Gen.testCases hostChk pad = some cs ∧ cs.length = 6 ∧
      ∀ c ∈ cs, Host.bothTapes F.C rand F.decU F.decP chk dbg phantomDebug threads p c.1 n = some c.2 := by
  have run := C90_test1 F rand chk dbg phantomDebug threads n ht hn hn' e he hfile
  obtain ⟨p, -, hp, -⟩ := run (List.replicate 8 0#8) rfl
  obtain ⟨cs, h1, h2, h3, -⟩ := C77_cases hostChk false pad
  refine ⟨p, cs, hp, h1, h2, fun c hc => ?_⟩
  have hl : c.1.length = 8 := by
    rw [testCases_eq] at h1
    rw [← Option.some.inj h1] at hc
    simp only [List.mem_cons, List.not_mem_nil, or_false] at hc
    rcases hc with rfl | rfl | rfl | rfl | rfl | rfl <;> simp [Gen.inputBytes, Guest.putWord, hpad]
  obtain ⟨p', out, hp', hm, ⟨vm0, vm1, vm2, a1, a2, a3, a4⟩, ev, ev2, b1, b2, b3⟩ := run c.1 hl
  cases Option.some.inj (hp.symm.trans hp')
  rw [h3 c hc] at hm
  cases hm
  exact (C74_equal _ _ _ _ _ _ _ _ _ _ _ _).mpr ⟨⟨ev, ev2, b1, b2, b3⟩, vm0, vm1, vm2, a1, a2, a3, a4⟩

example := C90_generated sampleFhe (fun _ _ _ => ()) true true true true 3 1000 (by decide) (by decide) (by decide) _
  (lldElf_is sumsLayout sumsKinds sumsContents) (by decide +kernel) (fun _ _ => [1, 2, 3]) (fun _ _ => rfl)

end Verif.Props
