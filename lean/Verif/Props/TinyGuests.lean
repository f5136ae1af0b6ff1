import Verif.Props.AllObjects
/-
  Two guests from their object files on which the two VMs differ: one asks for the sign of a byte, one squares a word with the
  multiplication instruction.
-/
namespace Verif.Props
open Model Model.Link Spec Boot ElfFile

/-- A `main` that loads the input, does one operation, stores the output and stays where it is. -/
def tiny (o : LoadOp) (mid : Instr) (st : StoreOp) : List Instr :=
  [.lui 10 0x40, .load o 10 10 0, mid, .lui 11 0x40, .store st 11 10 4, .jal 0 0]

/-- What is there besides the load and the operation. -/
def tinyFrame (st : StoreOp) : List Instr := [.auipc 6 0, .jalr 0 6 8, .lui 10 0x40, .lui 11 0x40, .store st 11 10 4, .jal 0 0]

/-- As a machine with effects `step` goes through it from `_start_rust`, collecting whatever `R` says; `v` is what is loaded, `u` what
the operation makes of it. -/
theorem tiny_run {o : LoadOp} {mid : Instr} {st : StoreOp} {fetch : Word → Option Instr}
    (hcode : ∀ k i, (tailCall ++ tiny o mid st)[k]? = some i → fetch (BitVec.ofNat 32 (36 + 4 * k)) = some i)
    {step : Instr → Arch → Arch} {ok : Instr → Arch → Prop} {R : Nat → Arch → Arch → Prop}
    (hz : ∀ s, R 0 s s) (hs : ∀ i s s' n, fetch s.pc = some i → ok i s → R n (step i s) s' → R (n + 1) s s')
    {m : Word → Byte} {x : Reg → Word} {v u : Word}
    (hauipc : ∀ s, s.pc = 36#32 → step (.auipc 6 0) s = exec (.auipc 6 0) s ∧ ok (.auipc 6 0) s)
    (hjalr : ∀ s, s.pc = 40#32 → s.x 6 = 36#32 → step (.jalr 0 6 8) s = exec (.jalr 0 6 8) s ∧ ok (.jalr 0 6 8) s)
    (hlui : ∀ r, r = 10 ∨ r = 11 → ∀ s, s.pc.toNat < 1024 → step (.lui r 0x40) s = exec (.lui r 0x40) s ∧ ok (.lui r 0x40) s)
    (hload : ∀ s, s.pc = 48#32 → s.x 10 = 0x40000#32 → s.mem = m → step (.load o 10 10 0) s = (s.setX 10 v).next ∧ ok (.load o 10 10 0) s)
    (hmid : ∀ s, s.pc = 52#32 → s.x 10 = v → step mid s = (s.setX 10 u).next ∧ ok mid s)
    (hst : ∀ s, s.pc = 60#32 → s.x 11 = 0x40000#32 → step (.store st 11 10 4) s =
      { s with mem := storeBytes s.mem (0x40004#32) (s.x 10) st.size }.next ∧ ok (.store st 11 10 4) s)
    (hjal : ∀ s, s.pc = 64#32 → step (.jal 0 0) s = exec (.jal 0 0) s ∧ ok (.jal 0 0) s) (n : Nat) (hn : 7 ≤ n) :
    ∃ s', R n ⟨36#32, x, m⟩ s' ∧ s'.mem = storeBytes m (0x40004#32) u st.size := by
  obtain ⟨n, rfl⟩ : ∃ k, n = k + 7 := ⟨n - 7, by omega⟩
  have loop : ∀ (k : Nat) (s : Arch), s.pc = 64#32 → ∃ s', R k s s' ∧ s'.mem = s.mem := by
    intro k
    induction k with
    | zero => intro s _; exact ⟨s, hz s, rfl⟩
    | succ k ih =>
      intro s hp
      obtain ⟨e1, e2⟩ := hjal s hp
      obtain ⟨s', h1, h2⟩ := ih (step (.jal 0 0) s) (by rw [e1]; show s.pc + immJ 0 = _; rw [hp]; rfl)
      exact ⟨s', hs _ _ _ _ (by rw [hp]; exact hcode 7 _ rfl) e2 h1, by rw [h2, e1]; rfl⟩
  let a1 : Arch := exec (.auipc 6 0) ⟨36#32, x, m⟩
  let a2 : Arch := exec (.jalr 0 6 8) a1
  let a3 : Arch := exec (.lui 10 0x40) a2
  let a4 : Arch := (a3.setX 10 v).next
  let a5 : Arch := (a4.setX 10 u).next
  let a6 : Arch := exec (.lui 11 0x40) a5
  let a7 : Arch := { a6 with mem := storeBytes a6.mem (0x40004#32) (a6.x 10) st.size }.next
  have p1 : a1.pc = 40#32 := rfl
  have p2 : a2.pc = 44#32 := by
    show ((36#32 + immU 0) + immI 8) &&& _ = _
    decide
  have p3 : a3.pc = 48#32 := by show a2.pc + 4#32 = _; rw [p2]; rfl
  have p4 : a4.pc = 52#32 := by show a3.pc + 4#32 = _; rw [p3]; rfl
  have p5 : a5.pc = 56#32 := by show a4.pc + 4#32 = _; rw [p4]; rfl
  have p6 : a6.pc = 60#32 := by show a5.pc + 4#32 = _; rw [p5]; rfl
  have p7 : a7.pc = 64#32 := by show a6.pc + 4#32 = _; rw [p6]; rfl
  obtain ⟨s', l1, l2⟩ := loop n a7 p7
  obtain ⟨e1, o1⟩ := hauipc ⟨36#32, x, m⟩ rfl
  obtain ⟨e2, o2⟩ := hjalr a1 p1 rfl
  obtain ⟨e3, o3⟩ := hlui 10 (Or.inl rfl) a2 (by rw [p2]; decide)
  obtain ⟨e4, o4⟩ := hload a3 p3 rfl rfl
  obtain ⟨e5, o5⟩ := hmid a4 p4 rfl
  obtain ⟨e6, o6⟩ := hlui 11 (Or.inr rfl) a5 (by rw [p5]; decide)
  obtain ⟨e7, o7⟩ := hst a6 p6 rfl
  refine ⟨s', ?_, by rw [l2]; rfl⟩
  refine hs _ _ _ _ (hcode 0 _ rfl) o1 ?_
  rw [e1]
  refine hs _ _ _ _ (by rw [p1]; exact hcode 1 _ rfl) o2 ?_
  rw [e2]
  refine hs _ _ _ _ (by rw [p2]; exact hcode 2 _ rfl) o3 ?_
  rw [e3]
  refine hs _ _ _ _ (by rw [p3]; exact hcode 3 _ rfl) o4 ?_
  rw [e4]
  refine hs _ _ _ _ (by rw [p4]; exact hcode 4 _ rfl) o5 ?_
  rw [e5]
  refine hs _ _ _ _ (by rw [p5]; exact hcode 5 _ rfl) o6 ?_
  rw [e6]
  refine hs _ _ _ _ (by rw [p6]; exact hcode 6 _ rfl) o7 ?_
  rw [e7]
  exact l1

/-! ### Object files -/

def tinyRels : List Rel :=
  [⟨0, .hi, .sym "INPUT", 0⟩, ⟨4, .loI, .sym "INPUT", 0⟩, ⟨12, .hi, .sym "OUTPUT", 0⟩, ⟨16, .loS, .sym "OUTPUT", 0⟩]

def tinyObjs (o : LoadOp) (mid : Instr) (st : StoreOp) : List ObjSec :=
  [⟨".text.main", 4, wordBytes ((blank tinyRels (tiny o mid st)).map encode), [("main", 0)], tinyRels⟩,
   ⟨".inpdata", o.size, List.replicate o.size 0#8, [("INPUT", 0)], []⟩,
   ⟨".outdata", st.size, List.replicate st.size 0#8, [("OUTPUT", 0)], []⟩]

def tinyLayout (o : LoadOp) (st : StoreOp) : Layout :=
  { text := ⟨0, 68⟩, inp := ⟨0x40000, o.size⟩, out := ⟨0x40004, st.size⟩, rodata := ⟨0x40008, 0⟩, data := ⟨0x40008, 0⟩
    bss := ⟨0x40008, 0⟩, stackStart := 0x41000, gp := 0x40808, fin := 0x40008 }

def tinyContents (o : LoadOp) (mid : Instr) (st : StoreOp) : Contents :=
  { text := wordBytes (programWords 0x40808#32 0x41000#32 (tiny o mid st)), inp := List.replicate o.size 0#8
    out := List.replicate st.size 0#8, rodata := [], data := [] }

def tinyKinds : Kinds := ⟨some false, some true, none, none⟩

/-- What has to be computed about one of these guests. -/
structure TinyLinks (o : LoadOp) (mid : Instr) (st : StoreOp) : Prop where
  linked : ∃ r, linkObjs true (guestObjs rustObj (tinyObjs o mid st)) = some r ∧ r.layout = tinyLayout o st ∧
    ∀ c, Holds r.secs r.layout r.places r.bytes c ↔ c = tinyContents o mid st
  entry : ((linkObjs true (guestObjs rustObj (tinyObjs o mid st))).all fun r => r.places.all fun x => x.1 != 1 || x.2 == 36) = true
  valid : ∀ s ∈ tinyObjs o mid st, Piece.Valid s.sym.piece
  parsed : ∀ dbg, (Parser.new.addAll dbg (programWords 0x40808#32 0x41000#32 (tiny o mid st))).isSome = true

theorem any_code {gp sp : Word} {code : List Instr} (hlen : code.length ≤ 2 ^ 15)
    {fetch : Word → Option Instr} (hf : FetchAny (wordBytes (programWords gp sp code)) fetch) (k : Nat) (i : Instr)
    (h : (tailCall ++ code)[k]? = some i) : fetch (BitVec.ofNat 32 (36 + 4 * k)) = some i := by
  have hk := (List.getElem?_eq_some_iff.mp h).1
  have hl : (tailCall ++ code).length = code.length + 2 := by rw [List.length_append]; exact Nat.add_comm 2 _
  have e : (BitVec.ofNat 32 (36 + 4 * k)).toNat = 36 + 4 * k := by rw [BitVec.toNat_ofNat]; omega
  refine (hf _ _).mpr ⟨by omega, fun j hj => ?_⟩
  rw [e, show 36 + 4 * k + j = 4 * (k + 9) + j by omega, wordBytes_word _ _ _ hj]
  unfold programWords
  rw [List.getElem?_append_right (by rw [bootWords_length]; omega), bootWords_length, Nat.add_sub_cancel, List.getElem?_map, h]
  rfl

theorem testOk_of {chk : Bool} {i : Instr} {s : Arch} (h1 : ∀ t, i.jumpsTo s = some t → t.toNat % 4 = 0) (h2 : ¬ i.badAlign s)
    (h3 : ¬ i.badDivision s) (hpc : s.pc.toNat < 1024) (h4 : i.inWindow s ramBase 4096) : TestOk chk i s := by
  refine ⟨?_, h4⟩
  rintro (⟨t, a, b⟩ | h | h | ⟨-, ⟨a, n, b, d⟩ | h⟩)
  · exact b (h1 t a)
  · exact h2 h
  · exact h3 h
  · have := (h4 a n b).1; omega
  · have := h.2; omega

/-- What is stored is what the output section holds. -/
theorem stored_bytes (m : Word → Byte) (u : Word) (st : StoreOp) (s : Arch) (h : s.mem = storeBytes m 0x40004#32 u st.size) :
    ramBytes s (0x40004 - ramBase) st.size = (List.range st.size).map fun j => u.extractLsb' (8 * j) 8 := by
  have : st.size ≤ 4 := by cases st <;> decide
  unfold ramBytes
  refine List.map_congr_left fun j hj => ?_
  have hj := List.mem_range.mp hj
  have e : BitVec.ofNat 32 (ramBase + (0x40004 - ramBase + j)) - 0x40004#32 = BitVec.ofNat 32 j := by
    apply BitVec.eq_of_toNat_eq
    rw [BitVec.toNat_sub, BitVec.toNat_ofNat, BitVec.toNat_ofNat]
    unfold ramBase
    simp
    omega
  rw [h]
  unfold storeBytes
  rw [e, BitVec.toNat_ofNat, Nat.mod_eq_of_lt (by omega), if_pos hj]

/-- The load the encrypted VM does. -/
def encLoad : LoadOp → LoadOp
  | .lb => .lbu
  | o => o

section
variable {o : LoadOp} {mid : Instr} {st : StoreOp} {fetch : Word → Option Instr}
  (hcode : ∀ k i, (tailCall ++ tiny o mid st)[k]? = some i → fetch (BitVec.ofNat 32 (36 + 4 * k)) = some i)
include hcode

theorem tiny_test (chk : Bool) {u : Word} {s : Arch} (hpc : s.pc = 36#32)
    (hmid : ∀ t, t.pc = 52#32 → t.x 10 = o.eval s.mem 0x40000#32 → exec mid t = (t.setX 10 u).next ∧ TestOk chk mid t) (n : Nat)
    (hn : 7 ≤ n) : ∃ s', Runs fetch (TestOk chk) n s s' ∧ s'.mem = storeBytes s.mem 0x40004#32 u st.size := by
  obtain ⟨pc, x, m⟩ := s
  cases hpc
  refine tiny_run hcode (step := exec) (ok := TestOk chk) (fun s => .zero s) (fun i s s' n h1 h2 h3 => .succ h1 h2 h3)
    (v := o.eval m 0x40000#32) ?_ ?_ ?_ ?_ hmid ?_ ?_ n hn
  · intro s hp
    exact ⟨rfl, testOk_of (fun t h => by cases h) (fun h => h) (fun h => h) (by rw [hp]; decide) (fun a n h => by cases h)⟩
  · intro s hp hx
    refine ⟨rfl, testOk_of (fun t h => ?_) (fun h => h) (fun h => h) (by rw [hp]; decide) (fun a n h => by cases h)⟩
    rw [← Option.some.inj h, hx]
    decide
  · intro r _ s hp
    exact ⟨rfl, testOk_of (fun t h => by cases h) (fun h => h) (fun h => h) hp (fun a n h => by cases h)⟩
  · intro s hp hx hm
    have e : s.x 10 + immI 0 = 0x40000#32 := by rw [hx]; decide
    refine ⟨?_, testOk_of (fun t h => by cases h) (fun h => ?_) (fun h => h) (by rw [hp]; decide) (fun a n h => ?_)⟩
    · show (s.setX 10 (o.eval s.mem (s.x 10 + immI 0))).next = _
      rw [e, hm]
    · have h : (s.x 10 + immI 0).toNat % o.size ≠ 0 := h
      rw [e] at h
      cases o <;> exact h (by decide)
    · have h : (s.x 10 + immI 0, o.size) = (a, n) := Option.some.inj h
      rw [e] at h
      obtain ⟨rfl, rfl⟩ := Prod.mk.inj h
      cases o <;> decide
  · intro s hp hx
    have e : s.x 11 + immI 4 = 0x40004#32 := by rw [hx]; decide
    refine ⟨?_, testOk_of (fun t h => by cases h) (fun h => ?_) (fun h => h) (by rw [hp]; decide) (fun a n h => ?_)⟩
    · show ({ s with mem := storeBytes s.mem (s.x 11 + immI 4) (s.x 10) st.size } : Arch).next = _
      rw [e]
    · cases st with
      | sh => have h : (s.x 11 + immI 4).toNat % 4 = 3 := h; rw [e] at h; exact absurd h (by decide)
      | sb => have h : (s.x 11 + immI 4).toNat % 1 ≠ 0 := h; rw [e] at h; exact h (by decide)
      | sw => have h : (s.x 11 + immI 4).toNat % 4 ≠ 0 := h; rw [e] at h; exact h (by decide)
    · have h : (s.x 11 + immI 4, st.size) = (a, n) := Option.some.inj h
      rw [e] at h
      obtain ⟨rfl, rfl⟩ := Prod.mk.inj h
      cases st <;> decide
  · intro s hp
    refine ⟨rfl, testOk_of (fun t h => ?_) (fun h => h) (fun h => h) (by rw [hp]; decide) (fun a n h => by cases h)⟩
    rw [← Option.some.inj h, hp]
    decide

/-- On the encrypted VM and on the mirror, `l` being the load they do. -/
theorem tiny_with {step : Instr → Arch → Arch} {ok : Instr → Arch → Prop} {R : Nat → Arch → Arch → Prop} {l : LoadOp} {u : Word}
    (hz : ∀ s, R 0 s s) (hs : ∀ i s s' n, fetch s.pc = some i → ok i s → R n (step i s) s' → R (n + 1) s s')
    (h1 : ∀ i ∈ tinyFrame st, ∀ s, step i s = execMirror 1024 i s ∧ ok i s)
    {s : Arch} (hpc : s.pc = 36#32)
    (h2 : ∀ t, t.x 10 = 0x40000#32 → t.mem = s.mem → step (.load o 10 10 0) t = execMirror 1024 (.load l 10 10 0) t ∧ ok (.load o 10 10 0) t)
    (hmid : ∀ t, t.pc = 52#32 → t.x 10 = l.eval s.mem 0x40000#32 → step mid t = (t.setX 10 u).next ∧ ok mid t)
    (n : Nat) (hn : 7 ≤ n) : ∃ s', R n s s' ∧ s'.mem = storeBytes s.mem 0x40004#32 u st.size := by
  obtain ⟨pc, x, m⟩ := s
  cases hpc
  refine tiny_run hcode hz hs (v := l.eval m 0x40000#32) ?_ ?_ ?_ ?_ hmid ?_ ?_ n hn
  · exact fun s _ => h1 _ (by simp [tinyFrame]) s
  · exact fun s _ _ => h1 _ (by simp [tinyFrame]) s
  · intro r hr s _
    exact h1 _ (by rcases hr with rfl | rfl <;> simp [tinyFrame]) s
  · intro s _ hx hmem
    obtain ⟨e1, e2⟩ := h2 s hx hmem
    refine ⟨?_, e2⟩
    rw [e1]
    show (s.setX 10 (l.eval s.mem (ramWord 1024 (s.x 10 + immI 0)))).next = _
    rw [hx, hmem]
    rfl
  · intro s _ hx
    obtain ⟨e1, e2⟩ := h1 (.store st 11 10 4) (by simp [tinyFrame]) s
    refine ⟨?_, e2⟩
    rw [e1]
    show ({ s with mem := wordStore st s.mem (ramWord 1024 (s.x 11 + immI 4)) ((s.x 11 + immI 4).toNat % 4) (s.x 10) } : Arch).next = _
    rw [hx]
    cases st <;> rfl
  · exact fun s _ => h1 _ (by simp [tinyFrame]) s

theorem tiny_enc {u : Word} {s : Arch} (hpc : s.pc = 36#32)
    (hmid : ∀ t, t.pc = 52#32 → t.x 10 = (encLoad o).eval s.mem 0x40000#32 → execAll 1024 mid t = (t.setX 10 u).next) (n : Nat)
    (hn : 7 ≤ n) : ∃ s', RunsWith fetch (execAll 1024) n s s' ∧ s'.mem = storeBytes s.mem 0x40004#32 u st.size := by
  refine tiny_with hcode (step := execAll 1024) (ok := fun _ _ => True) (l := encLoad o) (fun s => .zero s)
    (fun i s s' n h1 _ h3 => .succ h1 h3) ?_ hpc (fun t _ _ => ⟨by cases o <;> rfl, trivial⟩) (fun t h1 h2 => ⟨hmid t h1 h2, trivial⟩) n hn
  intro i hi s
  simp only [tinyFrame, List.mem_cons, List.not_mem_nil, or_false] at hi
  rcases hi with rfl | rfl | rfl | rfl | rfl | rfl <;> exact ⟨rfl, trivial⟩

/-- With the comparison: what is met. -/
theorem tiny_debug {u : Word} {s : Arch} {D : Prop} (hpc : s.pc = 36#32)
    (hmid : ∀ t, t.pc = 52#32 → t.x 10 = o.eval s.mem 0x40000#32 → execMirror 1024 mid t = (t.setX 10 u).next)
    (hD : ∀ t, debugOk 1024 mid t ↔ D) (n : Nat) (hn : 7 ≤ n) :
    (∃ s', RunsWith fetch (execMirror 1024) n s s' ∧ s'.mem = storeBytes s.mem 0x40004#32 u st.size) ∧
    ((∀ m, m < n → ∀ a i, RunsWith fetch (execMirror 1024) m s a → fetch a.pc = some i → debugOk 1024 i a) ↔
      D ∧ (o = .lb → (s.mem 0x40000#32).toNat < 128)) := by
  have load : ∀ t : Arch, t.x 10 = 0x40000#32 → t.mem = s.mem → (debugOk 1024 (.load o 10 10 0) t ↔ (o = .lb → (s.mem 0x40000#32).toNat < 128)) := by
    intro t hx hm
    cases o with
    | lb =>
      show (t.mem (ramWord 1024 (t.x 10 + immI 0))).toNat < 128 ↔ _
      rw [hx, hm, show ramWord 1024 (0x40000#32 + immI 0) = 0x40000#32 by decide]
      simp
    | _ => simp [debugOk]
  have frame : ∀ i ∈ tinyFrame st, ∀ s, debugOk 1024 i s := by
    intro i hi s
    simp only [tinyFrame, List.mem_cons, List.not_mem_nil, or_false] at hi
    rcases hi with rfl | rfl | rfl | rfl | rfl | rfl <;> simp [debugOk]
  refine ⟨tiny_with hcode (step := execMirror 1024) (ok := fun _ _ => True) (l := o) (fun s => .zero s)
    (fun i s s' n h1 _ h3 => .succ h1 h3) (fun i hi s => ⟨rfl, trivial⟩) hpc (fun t _ _ => ⟨rfl, trivial⟩) (fun t h1 h2 => ⟨hmid t h1 h2, trivial⟩) n hn,
    fun g => ?_, fun ⟨hd, hb⟩ => ?_⟩
  · obtain ⟨pc, x, m⟩ := s
    cases hpc
    let a2 : Arch := exec (.jalr 0 6 8) (exec (.auipc 6 0) ⟨36#32, x, m⟩)
    have p2 : a2.pc = 44#32 := by
      show ((36#32 + immU 0) + immI 8) &&& _ = _
      decide
    let a3 : Arch := exec (.lui 10 0x40) a2
    have p3 : a3.pc = 48#32 := by show a2.pc + 4#32 = _; rw [p2]; rfl
    let a4 : Arch := execMirror 1024 (.load o 10 10 0) a3
    have p4 : a4.pc = 52#32 := by show a3.pc + 4#32 = _; rw [p3]; rfl
    have f3 : fetch a3.pc = some (.load o 10 10 0) := by rw [p3]; exact hcode 3 _ rfl
    have r3 : RunsWith fetch (execMirror 1024) 3 ⟨36#32, x, m⟩ a3 :=
      .succ (hcode 0 _ rfl) (.succ (hcode 1 _ rfl) (.succ (i := .lui 10 0x40) (by show fetch a2.pc = _; rw [p2]; exact hcode 2 _ rfl) (.zero _)))
    have r4 : RunsWith fetch (execMirror 1024) 4 ⟨36#32, x, m⟩ a4 := runsWith_append r3 (.succ f3 (.zero _))
    exact ⟨(hD _).mp (g 4 (by omega) _ mid r4 (by rw [p4]; exact hcode 4 _ rfl)), (load a3 rfl rfl).mp (g 3 (by omega) _ _ r3 f3)⟩
  · obtain ⟨s', ⟨-, h⟩, -⟩ := tiny_with hcode (step := execMirror 1024) (ok := debugOk 1024) (l := o)
      (R := fun n s s' => True ∧ ∀ m, m < n → ∀ a i, RunsWith fetch (execMirror 1024) m s a → fetch a.pc = some i → debugOk 1024 i a)
      (fun s => ⟨trivial, fun m hm => absurd hm (by omega)⟩) (fun i s s' n h1 h2 ⟨_, h3⟩ => ⟨trivial, fun m hm a j hr hj => by
        cases hr with
        | zero => rw [h1] at hj; cases hj; exact h2
        | succ g1 g3 => rw [h1] at g1; cases g1; exact h3 _ (by omega) a j g3 hj⟩)
      (fun i hi s => ⟨rfl, frame i hi s⟩) hpc (fun t hx hm => ⟨rfl, (load t hx hm).mpr hb⟩) (fun t h1 h2 => ⟨hmid t h1 h2, (hD t).mpr hd⟩) n hn
    exact h

end

/-! ### Both VMs on such a guest -/

theorem runsWith_unique {fetch : Word → Option Instr} {step : Instr → Arch → Arch} {n : Nat} {s a b : Arch}
    (h1 : RunsWith fetch step n s a) (h2 : RunsWith fetch step n s b) : a = b := by
  induction h1 with
  | zero s => cases h2; rfl
  | succ hi _ ih =>
    cases h2 with
    | succ hj h =>
      cases Option.some.inj (hi.symm.trans hj)
      exact ih h

/-- What both VMs return: `uT` is what the operation makes of what is loaded according to the manual, `uE` under encryption. -/
theorem tiny_output {o : LoadOp} {mid : Instr} {st : StoreOp} (hl : TinyLinks o mid st) (F : Fhe) (rand : Nat → Nat → Nat → F.C.Rand)
    (chk dbg : Bool) (threads n : Nat) (hth : 0 < threads) (hn : 14 ≤ n) (hn' : n < 2 ^ 32) (r : Linked)
    (hr : linkObjs true (guestObjs rustObj (tinyObjs o mid st)) = some r) (c : Contents)
    (hc : Holds r.secs r.layout r.places r.bytes c) (e : Elf) (he : LldFile e r.layout tinyKinds c) (hfile : e.bytes.length < 2 ^ 63)
    (tape : List Byte) (hlen : tape.length = o.size) {uT uE : Word}
    (hT : ∀ m : Word → Byte, (∀ i b, tape[i]? = some b → m (BitVec.ofNat 32 (0x40000 + i)) = b) → ∀ t, t.pc = 52#32 →
      t.x 10 = o.eval m 0x40000#32 → exec mid t = (t.setX 10 uT).next ∧ TestOk chk mid t)
    (hE : ∀ m : Word → Byte, (∀ i b, tape[i]? = some b → m (BitVec.ofNat 32 (0x40000 + i)) = b) → ∀ t, t.pc = 52#32 →
      t.x 10 = (encLoad o).eval m 0x40000#32 → execAll 1024 mid t = (t.setX 10 uE).next) :
    ∃ p, Phantom.fromElf e = some p ∧
    (∃ vm0 vm1 vm2, p.testVm chk n = some vm0 ∧ vm0.readInputTape chk tape = some vm1 ∧ vm1.execute chk = some vm2 ∧
      vm2.outputTape chk = some ((List.range st.size).map fun j => uT.extractLsb' (8 * j) 8)) ∧
    ∃ ev ev2, p.encryptedVm F.C rand dbg false threads tape n = some ev ∧
      ev.execute F.C F.decU F.decP = some ev2 ∧
      ev2.outputTape F.C chk = some ((List.range st.size).map fun j => uE.extractLsb' (8 * j) 8) := by
  obtain ⟨n, rfl⟩ : ∃ k, n = k + 7 := ⟨n - 7, by omega⟩
  obtain ⟨⟨r', h1, h2, h3⟩, hen, hval, hpa⟩ := hl
  cases Option.some.inj (hr.symm.trans h1)
  cases (h3 c).mp hc
  have hentry : ∀ a, (1, a) ∈ r.places → a = 36 := by
    intro a ha
    rw [hr] at hen
    simpa using List.all_eq_true.mp hen (1, a) ha
  obtain ⟨fetch, hf⟩ := fetchAny_exists (tinyContents o mid st).text
  have hcode := any_code (code := tiny o mid st) (show 6 ≤ 2 ^ 15 by decide) hf
  have hsz : 0 < o.size := by cases o <;> decide
  refine C94_output F rand chk dbg threads n hth hn' (rt := 8) (by decide) rfl rfl hval (by
      intro s hs
      simp only [tinyObjs, List.mem_cons, List.not_mem_nil, or_false] at hs
      rcases hs with rfl | rfl | rfl
      · exact (by decide : ∀ n ∈ scriptSymbols, n ∉ [("main", 0)].map (·.1))
      · exact (by decide : ∀ n ∈ scriptSymbols, n ∉ [("INPUT", 0)].map (·.1))
      · exact (by decide : ∀ n ∈ scriptSymbols, n ∉ [("OUTPUT", 0)].map (·.1))) h1 hc he (by decide) (by decide)
    ⟨r.layout.inp, by simp [Layout.ramSections], by rw [h2]; exact hsz⟩ hfile
    (by rw [show (tinyContents o mid st).text = wordBytes (programWords 0x40808#32 0x41000#32 (tiny o mid st)) from rfl,
          packWords_wordBytes]; exact hpa dbg) tape (by rw [h2]; exact hlen) fetch hf _ _ (fun en s hm hs => ?_) (fun en s hm hs => ?_)
  · cases hentry en hm
    rw [h2] at hs ⊢
    obtain ⟨s', a1, a2⟩ := tiny_test hcode chk hs.pc (hT s.mem hs.tape) n (by omega)
    exact ⟨s', a1, stored_bytes _ _ _ _ a2⟩
  · cases hentry en hm
    rw [h2] at hs ⊢
    obtain ⟨s', a1, a2⟩ := tiny_enc hcode hs.pc (hE s.mem hs.tape) n (by omega)
    exact ⟨s', a1, stored_bytes _ _ _ _ a2⟩

/-- With the comparison: it passes exactly if the operation is in RV32I and a signed byte that is loaded is not negative. -/
theorem tiny_compared {o : LoadOp} {mid : Instr} {st : StoreOp} (hl : TinyLinks o mid st) (F : Fhe) (rand : Nat → Nat → Nat → F.C.Rand)
    (chk dbg : Bool) (threads n : Nat) (hth : 0 < threads) (hn : 14 ≤ n) (hn' : n < 2 ^ 32) (r : Linked)
    (hr : linkObjs true (guestObjs rustObj (tinyObjs o mid st)) = some r) (c : Contents)
    (hc : Holds r.secs r.layout r.places r.bytes c) (e : Elf) (he : LldFile e r.layout tinyKinds c)
    (tape : List Byte) (hlen : tape.length = o.size) {u : Word} {D : Prop}
    (hM : ∀ m : Word → Byte, (∀ i b, tape[i]? = some b → m (BitVec.ofNat 32 (0x40000 + i)) = b) → ∀ t, t.pc = 52#32 →
      t.x 10 = o.eval m 0x40000#32 → execMirror 1024 mid t = (t.setX 10 u).next)
    (hD : ∀ t, debugOk 1024 mid t ↔ D) :
    ∃ p ev, Phantom.fromElf e = some p ∧ p.encryptedVm F.C rand dbg true threads tape n = some ev ∧
      ((∃ ev2, ev.execute F.C F.decU F.decP = some ev2) ↔ D ∧ (o = .lb → ∀ b, tape[0]? = some b → b.toNat < 128)) ∧
      ∀ ev2, ev.execute F.C F.decU F.decP = some ev2 →
        ev2.outputTape F.C chk = some ((List.range st.size).map fun j => u.extractLsb' (8 * j) 8) := by
  obtain ⟨n, rfl⟩ : ∃ k, n = k + 7 := ⟨n - 7, by omega⟩
  obtain ⟨⟨r', h1, h2, h3⟩, hen, hval, hpa⟩ := hl
  cases Option.some.inj (hr.symm.trans h1)
  cases (h3 c).mp hc
  have hentry : ∀ a, (1, a) ∈ r.places → a = 36 := by
    intro a ha
    rw [hr] at hen
    simpa using List.all_eq_true.mp hen (1, a) ha
  obtain ⟨fetch, hf⟩ := fetchAny_exists (tinyContents o mid st).text
  have hcode := any_code (code := tiny o mid st) (show 6 ≤ 2 ^ 15 by decide) hf
  have hsz : 0 < o.size := by cases o <;> decide
  have met : ∀ en s, (1, en) ∈ r.places → Entered r.layout (tinyContents o mid st) (BitVec.ofNat 32 en) tape s →
      (∃ s', RunsWith fetch (execMirror 1024) n s s' ∧ s'.mem = storeBytes s.mem 0x40004#32 u st.size) ∧
      ((∀ m < n, ∀ a i, RunsWith fetch (execMirror 1024) m s a → fetch a.pc = some i → debugOk 1024 i a) ↔
        D ∧ (o = .lb → (s.mem 0x40000#32).toNat < 128)) := by
    intro en s hm hs
    cases hentry en hm
    rw [h2] at hs
    exact tiny_debug hcode hs.pc (hM s.mem hs.tape) hD n (by omega)
  obtain ⟨p, ev, en, s, g1, g2, g3, g4, g5, g6⟩ := C95_output F rand chk dbg threads n hth hn' (rt := 8) (by decide) rfl rfl hval (by
      intro s hs
      simp only [tinyObjs, List.mem_cons, List.not_mem_nil, or_false] at hs
      rcases hs with rfl | rfl | rfl
      · exact (by decide : ∀ n ∈ scriptSymbols, n ∉ [("main", 0)].map (·.1))
      · exact (by decide : ∀ n ∈ scriptSymbols, n ∉ [("INPUT", 0)].map (·.1))
      · exact (by decide : ∀ n ∈ scriptSymbols, n ∉ [("OUTPUT", 0)].map (·.1))) h1 hc he (by decide) (by decide)
    ⟨r.layout.inp, by simp [Layout.ramSections], by rw [h2]; exact hsz⟩
    (by rw [show (tinyContents o mid st).text = wordBytes (programWords 0x40808#32 0x41000#32 (tiny o mid st)) from rfl,
          packWords_wordBytes]; exact hpa dbg) tape (by rw [h2]; exact hlen) fetch hf
    (fun en s hm hs => let ⟨s', a, _⟩ := (met en s hm hs).1; ⟨s', a⟩)
  obtain ⟨⟨s', q1, q2⟩, q3⟩ := met en s g3 g4
  refine ⟨p, ev, g1, g2, g5.trans (q3.trans ?_), fun ev2 e2 => ?_⟩
  · have hb : ∀ b, tape[0]? = some b → s.mem 0x40000#32 = b := fun b hb => by
      have := g4.tape 0 b hb
      rw [h2] at this
      exact this
    refine and_congr_right fun _ => imp_congr_right fun _ => ⟨fun h b hb' => by rw [← hb b hb']; exact h, fun h => ?_⟩
    have := List.getElem?_eq_getElem (l := tape) (i := 0) (by omega)
    rw [hb _ this]
    exact h _ this
  · obtain ⟨t, w1, w2⟩ := g6 ev2 e2
    cases runsWith_unique w1 q1
    rw [h2] at w2
    rw [w2]
    exact congrArg some (stored_bytes _ _ _ _ q2)

/-! ### A guest that returns the sign of a byte -/

/-- `OUTPUT[0] = ((INPUT[0] as i8) < 0) as u8`. -/
def sign : List ObjSec := tinyObjs .lb (.shImm .srli 10 10 31) .sb

theorem sign_links : TinyLinks .lb (.shImm .srli 10 10 31) .sb where
  linked := link_of_check (by decide +kernel)
  entry := by decide +kernel
  valid := by unfold Piece.Valid; decide +kernel
  parsed := by decide +kernel

theorem byte_load {m : Word → Byte} {b : Byte} (h : m 0x40000#32 = b) :
    LoadOp.lb.eval m 0x40000#32 = b.signExtend 32 ∧ LoadOp.lbu.eval m 0x40000#32 = b.setWidth 32 := by
  subst h
  constructor
  · show (BitVec.ofNat 8 ((m 0x40000#32).toNat + 256 * 0)).signExtend 32 = _
    rw [Nat.mul_zero, Nat.add_zero, BitVec.ofNat_toNat, BitVec.setWidth_eq]
  · show BitVec.ofNat 32 ((m 0x40000#32).toNat + 256 * 0) = _
    rw [Nat.mul_zero, Nat.add_zero, BitVec.ofNat_toNat]

/-- The test VM returns the sign of the byte; the encrypted VM returns 0 whatever the byte. -/
theorem C94_sign (F : Fhe) (rand : Nat → Nat → Nat → F.C.Rand) (chk dbg : Bool) (threads n : Nat) (hth : 0 < threads) (hn : 14 ≤ n)
    (hn' : n < 2 ^ 32) (r : Linked) (hr : linkObjs true (guestObjs rustObj sign) = some r) (c : Contents)
    (hc : Holds r.secs r.layout r.places r.bytes c) (e : Elf) (he : LldFile e r.layout tinyKinds c) (hfile : e.bytes.length < 2 ^ 63)
    (b : Byte) :
    ∃ p, Phantom.fromElf e = some p ∧
    (∃ vm0 vm1 vm2, p.testVm chk n = some vm0 ∧ vm0.readInputTape chk [b] = some vm1 ∧ vm1.execute chk = some vm2 ∧
      vm2.outputTape chk = some [if b.toInt < 0 then 1#8 else 0#8]) ∧
    ∃ ev ev2, p.encryptedVm F.C rand dbg false threads [b] n = some ev ∧
      ev.execute F.C F.decU F.decP = some ev2 ∧ ev2.outputTape F.C chk = some [0#8] := by
  have e1 : [if b.toInt < 0 then 1#8 else 0#8] = (List.range 1).map fun j => (ShiftOp.srli.eval (b.signExtend 32) 31).extractLsb' (8 * j) 8 := by
    revert b; decide +kernel
  have e2 : [0#8] = (List.range 1).map fun j => (ShiftOp.srli.eval (b.setWidth 32) 31).extractLsb' (8 * j) 8 := by
    revert b; decide +kernel
  rw [e1, e2]
  refine tiny_output sign_links F rand chk dbg threads n hth hn hn' r hr c hc e he hfile [b] rfl (fun m hm t hp hx => ?_) (fun m hm t hp hx => ?_)
  · refine ⟨?_, testOk_of (fun _ h => nomatch h) (fun h => h) (fun h => h) (by rw [hp]; decide) (fun _ _ h => nomatch h)⟩
    show (t.setX 10 (ShiftOp.srli.eval (t.x 10) 31)).next = _
    rw [hx, (byte_load (hm 0 b rfl)).1]
  · show (t.setX 10 (ShiftOp.srli.eval (t.x 10) 31)).next = _
    rw [hx, show encLoad .lb = .lbu from rfl, (byte_load (hm 0 b rfl)).2]

/-- With the comparison, execution gets through exactly for the bytes with sign 0. -/
theorem C95_sign (F : Fhe) (rand : Nat → Nat → Nat → F.C.Rand) (chk dbg : Bool) (threads n : Nat) (hth : 0 < threads) (hn : 14 ≤ n)
    (hn' : n < 2 ^ 32) (r : Linked) (hr : linkObjs true (guestObjs rustObj sign) = some r) (c : Contents)
    (hc : Holds r.secs r.layout r.places r.bytes c) (e : Elf) (he : LldFile e r.layout tinyKinds c) (b : Byte) :
    ∃ p ev, Phantom.fromElf e = some p ∧ p.encryptedVm F.C rand dbg true threads [b] n = some ev ∧
      ((∃ ev2, ev.execute F.C F.decU F.decP = some ev2) ↔ 0 ≤ b.toInt) ∧
      ∀ ev2, ev.execute F.C F.decU F.decP = some ev2 → ev2.outputTape F.C chk = some [0#8] := by
  obtain ⟨p, ev, g1, g2, g3, g4⟩ := tiny_compared sign_links F rand chk dbg threads n hth hn hn' r hr c hc e he [b] rfl
    (u := ShiftOp.srli.eval (b.signExtend 32) 31) (D := True) (fun m hm t hp hx => by
      show (t.setX 10 (ShiftOp.srli.eval (t.x 10) 31)).next = _
      rw [hx, (byte_load (hm 0 b rfl)).1]) (fun _ => Iff.rfl)
  have e0 := (by decide +kernel : ∀ b : Byte, b.toNat < 128 ↔ 0 ≤ b.toInt) b
  have e1 := (by decide +kernel : ∀ b : Byte, 0 ≤ b.toInt →
    ((List.range 1).map fun j => (ShiftOp.srli.eval (b.signExtend 32) 31).extractLsb' (8 * j) 8) = [0#8]) b
  have h : (∃ ev2, ev.execute F.C F.decU F.decP = some ev2) ↔ 0 ≤ b.toInt :=
    g3.trans ⟨fun h => e0.mp (h.2 rfl b rfl), fun h => ⟨trivial, fun _ b' hb => by cases hb; exact e0.mpr h⟩⟩
  refine ⟨p, ev, g1, g2, h, fun ev2 e2 => ?_⟩
  rw [g4 ev2 e2]
  exact congrArg some (e1 (h.mp ⟨ev2, e2⟩))

/-! ### Guests that multiply or divide a word by itself -/

/-- `OUTPUT[0] = x op x` where `x` is the word `INPUT[0]`. -/
def selfOp (op : MulOp) : List ObjSec := tinyObjs .lw (.mul op 10 10 10) .sw

theorem selfOp_links (op : MulOp) : TinyLinks .lw (.mul op 10 10 10) .sw where
  linked := by cases op <;> exact link_of_check (by decide +kernel)
  entry := by cases op <;> decide +kernel
  valid := by unfold Piece.Valid; cases op <;> decide +kernel
  parsed := by cases op <;> decide +kernel

/-- The bytes of a word, lowest first. -/
def fourBytes (x : Word) : List Byte := (List.range 4).map fun j => x.extractLsb' (8 * j) 8

theorem word_load {m : Word → Byte} {x : Word} (h : ∀ i b, (fourBytes x)[i]? = some b → m (BitVec.ofNat 32 (0x40000 + i)) = b) :
    LoadOp.lw.eval m 0x40000#32 = x := by
  have h0 := h 0 _ rfl
  have h1 := h 1 _ rfl
  have h2 := h 2 _ rfl
  have h3 := h 3 _ rfl
  show BitVec.ofNat 32 ((m 0x40000#32).toNat + 256 * ((m 0x40001#32).toNat + 256 * ((m 0x40002#32).toNat + 256 * ((m 0x40003#32).toNat + 256 * 0)))) = x
  rw [show m 0x40000#32 = _ from h0, show m 0x40001#32 = _ from h1, show m 0x40002#32 = _ from h2, show m 0x40003#32 = _ from h3]
  apply BitVec.eq_of_toNat_eq
  simp only [BitVec.toNat_ofNat, BitVec.extractLsb'_toNat, Nat.shiftRight_eq_div_pow]
  have := x.isLt
  omega

/-- The test VM returns what the manual says, if that is not a division by zero; the encrypted VM returns 0 for the multiplications and
for `div`, 52 for `divu`, `x` for `rem`, and the sign of `x` for `remu`. -/
theorem C94_selfOp (F : Fhe) (rand : Nat → Nat → Nat → F.C.Rand) (chk dbg : Bool) (threads n : Nat) (hth : 0 < threads) (hn : 14 ≤ n)
    (hn' : n < 2 ^ 32) (op : MulOp) (r : Linked) (hr : linkObjs true (guestObjs rustObj (selfOp op)) = some r) (c : Contents)
    (hc : Holds r.secs r.layout r.places r.bytes c) (e : Elf) (he : LldFile e r.layout tinyKinds c) (hfile : e.bytes.length < 2 ^ 63)
    (x : Word) (hx : x = 0#32 → op = .mul ∨ op = .mulh ∨ op = .mulhsu ∨ op = .mulhu) :
    ∃ p, Phantom.fromElf e = some p ∧
    (∃ vm0 vm1 vm2, p.testVm chk n = some vm0 ∧ vm0.readInputTape chk (fourBytes x) = some vm1 ∧ vm1.execute chk = some vm2 ∧
      vm2.outputTape chk = some (fourBytes (op.eval x x))) ∧
    ∃ ev ev2, p.encryptedVm F.C rand dbg false threads (fourBytes x) n = some ev ∧
      ev.execute F.C F.decU F.decP = some ev2 ∧ ev2.outputTape F.C chk = some (fourBytes (encMulDiv op 52#32 x)) := by
  refine tiny_output (selfOp_links op) F rand chk dbg threads n hth hn hn' r hr c hc e he hfile (fourBytes x) rfl
    (fun m hm t hp hx' => ?_) (fun m hm t hp hx' => ?_)
  · rw [word_load hm] at hx'
    refine ⟨?_, testOk_of (fun _ h => nomatch h) (fun h => h) (fun h => ?_) (by rw [hp]; decide) (fun _ _ h => nomatch h)⟩
    · show (t.setX 10 (op.eval (t.x 10) (t.x 10))).next = _
      rw [hx']
    · cases op with
      | mul | mulh | mulhsu | mulhu => exact h
      | div | rem =>
        rcases h with h | ⟨h, h'⟩
        · rcases hx (hx'.symm.trans h) with h | h | h | h <;> exact nomatch h
        · exact absurd (h.symm.trans h') (by decide)
      | divu | remu => rcases hx (hx'.symm.trans h) with h | h | h | h <;> exact nomatch h
  · rw [show encLoad .lw = .lw from rfl, word_load hm] at hx'
    show (t.setX 10 (encMulDiv op t.pc (t.x 10))).next = _
    rw [hx', hp]

/-- With the comparison none of them gets through. -/
theorem C95_selfOp (F : Fhe) (rand : Nat → Nat → Nat → F.C.Rand) (dbg : Bool) (threads n : Nat) (hth : 0 < threads) (hn : 14 ≤ n)
    (hn' : n < 2 ^ 32) (op : MulOp) (r : Linked) (hr : linkObjs true (guestObjs rustObj (selfOp op)) = some r) (c : Contents)
    (hc : Holds r.secs r.layout r.places r.bytes c) (e : Elf) (he : LldFile e r.layout tinyKinds c) (x : Word) :
    ∃ p ev, Phantom.fromElf e = some p ∧ p.encryptedVm F.C rand dbg true threads (fourBytes x) n = some ev ∧
      ev.execute F.C F.decU F.decP = none := by
  obtain ⟨p, ev, g1, g2, g3, -⟩ := tiny_compared (selfOp_links op) F rand true dbg threads n hth hn hn' r hr c hc e he (fourBytes x) rfl
    (u := op.eval x x) (D := False) (fun m hm t hp hx => by
      rw [word_load hm] at hx
      show (t.setX 10 (op.eval (t.x 10) (t.x 10))).next = _
      rw [hx]) (fun _ => Iff.rfl)
  refine ⟨p, ev, g1, g2, ?_⟩
  cases h : ev.execute F.C F.decU F.decP with
  | none => rfl
  | some ev2 => exact ((g3.mp ⟨ev2, h⟩).1).elim

/-- A square under encryption: 5 * 5 = 25 for the test VM and 0 for the encrypted VM, from object files. -/
example (dbg : Bool) : ∃ (r : Linked) (e : Elf) (p : Phantom), linkObjs true (guestObjs rustObj (selfOp .mul)) = some r ∧
    Phantom.fromElf e = some p ∧
    (∃ vm0 vm1 vm2, p.testVm true 20 = some vm0 ∧ vm0.readInputTape true [5#8, 0#8, 0#8, 0#8] = some vm1 ∧ vm1.execute true = some vm2 ∧
      vm2.outputTape true = some [25#8, 0#8, 0#8, 0#8]) ∧
    ∃ ev ev2, p.encryptedVm sampleFhe.C (fun _ _ _ => ()) dbg false 3 [5#8, 0#8, 0#8, 0#8] 20 = some ev ∧
      ev.execute sampleFhe.C sampleFhe.decU sampleFhe.decP = some ev2 ∧ ev2.outputTape sampleFhe.C true = some [0#8, 0#8, 0#8, 0#8] := by
  obtain ⟨r, h1, h2, h3⟩ := (selfOp_links .mul).linked
  have he := lldElf_is (tinyLayout .lw .sw) tinyKinds (tinyContents .lw (.mul .mul 10 10 10) .sw)
  rw [← h2] at he
  obtain ⟨p, g1, g2, g3⟩ := C94_selfOp sampleFhe (fun _ _ _ => ()) true dbg 3 20 (by decide) (by decide) (by decide) .mul r h1
    _ ((h3 _).mpr rfl) _ he (by rw [h2]; decide +kernel) 5#32 (fun _ => Or.inl rfl)
  exact ⟨r, _, p, h1, g1, g2, g3⟩

/-- The sign of -1, from object files: with the comparison the execution stops. -/
example (dbg : Bool) : ∃ (r : Linked) (e : Elf) (p : Phantom), linkObjs true (guestObjs rustObj sign) = some r ∧
    Phantom.fromElf e = some p ∧
    ∃ ev, p.encryptedVm sampleFhe.C (fun _ _ _ => ()) dbg true 3 [0xff#8] 20 = some ev ∧
      ev.execute sampleFhe.C sampleFhe.decU sampleFhe.decP = none := by
  obtain ⟨r, h1, h2, h3⟩ := sign_links.linked
  have he := lldElf_is (tinyLayout .lb .sb) tinyKinds (tinyContents .lb (.shImm .srli 10 10 31) .sb)
  rw [← h2] at he
  obtain ⟨p, ev, g1, g2, g3, -⟩ := C95_sign sampleFhe (fun _ _ _ => ()) true dbg 3 20 (by decide) (by decide) (by decide) r h1
    _ ((h3 _).mpr rfl) _ he 0xff#8
  refine ⟨r, _, p, h1, g1, ev, g2, ?_⟩
  cases h : ev.execute sampleFhe.C sampleFhe.decU sampleFhe.decP with
  | none => rfl
  | some ev2 => exact absurd (g3.mp ⟨ev2, h⟩) (by decide)

/-- Where the two VMs differ: for every negative byte, and for no other. -/
example (b : Byte) : (if b.toInt < 0 then 1#8 else 0#8) = 0#8 ↔ 0 ≤ b.toInt := by
  by_cases h : b.toInt < 0
  · rw [if_pos h]
    exact ⟨fun h => (nomatch h), fun g => by omega⟩
  · rw [if_neg h]
    exact ⟨fun _ => by omega, fun _ => rfl⟩

end Verif.Props
