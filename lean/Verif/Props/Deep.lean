import Verif.Props.Profiles
/-
  Property C106: nothing stops a stack that grows into the data.
-/
namespace Verif.Props
open Model Spec

/-- A guest with a stack as the start-up code sets it, from the end of the RAM downwards (linker script, default.x:12-13; runtime/src/lib.rs:30).
It pushes as many words as its input says and returns a variable that is 42 from the beginning. -/
def deepCode : List Instr :=
  [ .lui 2 0x41                --  0  sp = 0x41000
  , .lui 5 0x40                --  1  x5 = 0x40000
  , .load .lw 6 5 0            --  2  x6 = input
  , .opImm .addi 7 0 7         --  3  x7 = 7
  , .branch .beq 6 0 10        --  4  until x6 = 0:
  , .opImm .addi 2 2 (-4)      --  5    push x7
  , .store .sw 2 7 0           --  6
  , .opImm .addi 6 6 (-1)      --  7    x6 -= 1
  , .jal 0 (-8)                --  8
  , .load .lw 8 5 8            --  9  output = variable
  , .store .sw 5 8 4           -- 10
  , .jal 0 0 ]                 -- 11

/-- Input, output, variable. -/
def deepData : List Byte := [0, 0, 0, 0, 0, 0, 0, 0, 42, 0, 0, 0]

abbrev deepElf : Elf := asmElf deepCode deepData 4 4 4
abbrev deepGuest : Phantom := asmImage deepCode deepData 4 4 4

theorem deep_elf : Phantom.fromElf deepElf = some deepGuest := asm_elf _ _ _ _ _ (by decide) (by decide)

theorem deep_fetch {fetch : Word → Option Instr} (hf : FetchTest deepGuest.bootRom.data fetch) (k : Nat) (hk : k < 12) :
    fetch (BitVec.ofNat 32 (4 * k)) = deepCode[k]? := by
  have e : (BitVec.ofNat 32 (4 * k)).toNat = 4 * k := by rw [BitVec.toNat_ofNat, Nat.mod_eq_of_lt (by omega)]
  obtain ⟨i, hi⟩ : ∃ i, deepCode[k]? = some i := ⟨_, List.getElem?_eq_getElem (show k < deepCode.length from hk)⟩
  rw [hi]
  refine (hf _ _).mpr ⟨by rw [e]; omega, encode i, ?_, .own _⟩
  rw [e]
  intro j hj
  have hl : deepGuest.bootRom.data.length = 48 := by
    show (wordBytes (deepCode.map encode)).length = 48
    rw [wordBytes_length]; rfl
  rw [hl, Nat.mod_eq_of_lt (by omega)]
  show (wordBytes (deepCode.map encode))[4 * k + j]? = _
  rw [wordBytes_get, show (4 * k + j) / 4 = k by omega, show (4 * k + j) % 4 = j by omega, List.getElem?_map, hi]
  rfl

/-- The byte that an aligned access gets. -/
theorem ramByte_low (a : Word) (n : Nat) (h4 : a.toNat % 4 = 0) (hn : n < 4) :
    ramByte ramBase 4096 (a + BitVec.ofNat 32 n) = BitVec.ofNat 32 (ramBase + (a.toNat % 4096 + n)) := by
  have ha := a.isLt
  have e : (a + BitVec.ofNat 32 n).toNat = a.toNat + n := by
    rw [BitVec.toNat_add, BitVec.toNat_ofNat]; omega
  unfold ramByte
  rw [e]
  congr 2
  simp only [show ramBase = 262144 from rfl]
  split <;> omega

theorem addr_eq {u v : Nat} (hu : u < 4096) (hv : v < 4096) : BitVec.ofNat 32 (ramBase + u) = BitVec.ofNat 32 (ramBase + v) ↔ u = v := by
  constructor
  · intro h
    have := congrArg BitVec.toNat h
    simp only [BitVec.toNat_ofNat, show ramBase = 262144 from rfl] at this
    omega
  · rintro rfl; rfl

/-- After `j` of the pushes, with `r` to go. -/
structure DeepAt (m : Nat → Byte) (j r : Nat) (s : Arch) : Prop where
  pc : s.pc = 16#32
  sp : s.x 2 = 0x41000#32 - BitVec.ofNat 32 (4 * j)
  x5 : s.x 5 = 0x40000#32
  x6 : s.x 6 = BitVec.ofNat 32 r
  x7 : s.x 7 = 7#32
  mem : ∀ v, v < 4096 → s.mem (BitVec.ofNat 32 (ramBase + v)) =
    if 4096 ≤ v + 4 * j then (if v % 4 = 0 then 7#8 else 0#8) else m v

/-- What both VMs execute alike, in a program of 48 bytes. -/
abbrev deepOk (chk : Bool) (i : Instr) (s : Arch) : Prop := (¬ stuck i s chk ramBase ∧ s.pc.toNat < 48) ∧ sameStep i s

/-- Neither an access nor a jump. -/
theorem plain_fine {i : Instr} {s : Arch} (chk : Bool) (h1 : i.access s = none) (h2 : i.jumpsTo s = none) (h3 : ¬ i.badAlign s)
    (h4 : ¬ i.badDivision s) (hp : s.pc.toNat < 48) : ¬ stuck i s chk ramBase := by
  rintro (⟨t, h, -⟩ | h | h | ⟨-, ⟨a, n, h, -⟩ | h⟩)
  · rw [h2] at h; cases h
  · exact h3 h
  · exact h4 h
  · rw [h1] at h; cases h
  · have := h.2; omega

/-- A jump to a multiple of four. -/
theorem jump_fine {i : Instr} {s : Arch} (chk : Bool) (h1 : i.access s = none) (h2 : ∀ t, i.jumpsTo s = some t → t.toNat % 4 = 0)
    (h3 : ¬ i.badAlign s) (h4 : ¬ i.badDivision s) (hp : s.pc.toNat < 48) : ¬ stuck i s chk ramBase := by
  rintro (⟨t, h, h'⟩ | h | h | ⟨-, ⟨a, n, h, -⟩ | h⟩)
  · exact h' (h2 t h)
  · exact h3 h
  · exact h4 h
  · rw [h1] at h; cases h
  · have := h.2; omega

/-- An aligned access, not below the RAM if that is checked. -/
theorem access_fine {i : Instr} {s : Arch} {a : Word} {n : Nat} (chk : Bool) (h1 : i.access s = some (a, n)) (h2 : i.jumpsTo s = none)
    (h3 : ¬ i.badAlign s) (h4 : ¬ i.badDivision s) (hp : s.pc.toNat < 48) (ha : chk = true → ramBase ≤ a.toNat) : ¬ stuck i s chk ramBase := by
  rintro (⟨t, h, -⟩ | h | h | ⟨hc, ⟨b, n', h, hb⟩ | h⟩)
  · rw [h2] at h; cases h
  · exact h3 h
  · exact h4 h
  · rw [h1] at h; cases h
    exact absurd (ha hc) (by omega)
  · have := h.2; omega

theorem sp_low (j : Nat) : (0x41000#32 - BitVec.ofNat 32 (4 * j)).toNat % 4 = 0 ∧
    ((0x41000#32 - BitVec.ofNat 32 (4 * j)).toNat + 4 * j) % 4096 = 0 := by
  rw [BitVec.toNat_sub, BitVec.toNat_ofNat, show (0x41000#32).toNat = 266240 from rfl]
  omega

theorem sp_next (j : Nat) : 0x41000#32 - BitVec.ofNat 32 (4 * j) + immI (-4) = 0x41000#32 - BitVec.ofNat 32 (4 * (j + 1)) := by
  rw [show immI (-4) = -4#32 from by decide, Nat.mul_succ, BitVec.ofNat_add]
  generalize BitVec.ofNat 32 (4 * j) = b
  rw [BitVec.sub_eq_add_neg, BitVec.sub_eq_add_neg, BitVec.neg_add, BitVec.sub_eq_add_neg, BitVec.add_assoc]

theorem word_pred (r : Nat) : BitVec.ofNat 32 (r + 1) + immI (-1) = BitVec.ofNat 32 r := by
  rw [show immI (-1) = -1#32 from by decide, BitVec.ofNat_add, BitVec.add_assoc, show BitVec.ofNat 32 1 + -1#32 = 0#32 by decide, BitVec.add_zero]

theorem jal_to (base size : Nat) (imm : BitVec 20) (s : Arch) : execTest base size (.jal 0 imm) s = { s with pc := s.pc + immJ imm } := by
  show ({ s.setX 0 _ with pc := s.pc + immJ imm } : Arch) = _
  rw [Arch.setX_zero]

theorem jal_x (base size : Nat) (imm : BitVec 20) (s : Arch) (q : Reg) : (execTest base size (.jal 0 imm) s).x q = s.x q := by
  rw [jal_to]; rfl

theorem jal_mem (base size : Nat) (imm : BitVec 20) (s : Arch) : (execTest base size (.jal 0 imm) s).mem = s.mem := by
  rw [jal_to]

theorem jal_fine {imm : BitVec 20} {s : Arch} {k : Nat} (chk : Bool) (hk : s.pc + immJ imm = BitVec.ofNat 32 (4 * k)) (hp : s.pc.toNat < 48) :
    ¬ stuck (.jal 0 imm) s chk ramBase := by
  refine jump_fine chk rfl (fun t ht => ?_) id id hp
  rw [← Option.some.inj ht]
  rw [hk, BitVec.toNat_ofNat]
  omega

/-- One push. -/
theorem deep_push {fetch : Word → Option Instr} (hf : FetchTest deepGuest.bootRom.data fetch) (chk : Bool) {m : Nat → Byte} {j r : Nat} {s : Arch}
    (hr : r + 1 < 2 ^ 32) (hs : DeepAt m j (r + 1) s) :
    ∃ t u, RunsIf fetch (deepOk chk) (execTest ramBase 4096) 2 s t ∧ t.pc = 24#32 ∧ t.x 2 = 0x41000#32 - BitVec.ofNat 32 (4 * (j + 1)) ∧
      ((chk = true → j < 1024) → RunsIf fetch (deepOk chk) (execTest ramBase 4096) 5 s u) ∧ DeepAt m (j + 1) r u := by
  have f4 : fetch 16#32 = some (.branch .beq 6 0 10) := deep_fetch hf 4 (by decide)
  have f5 : fetch 20#32 = some (.opImm .addi 2 2 (-4)) := deep_fetch hf 5 (by decide)
  have f6 : fetch 24#32 = some (.store .sw 2 7 0) := deep_fetch hf 6 (by decide)
  have f7 : fetch 28#32 = some (.opImm .addi 6 6 (-1)) := deep_fetch hf 7 (by decide)
  have f8 : fetch 32#32 = some (.jal 0 (-8)) := deep_fetch hf 8 (by decide)
  have nt : ¬ BranchOp.beq.taken (s.x 6) (s.x 0) := by
    show ¬ s.x 6 = 0#32
    rw [hs.x6]
    intro h
    have := congrArg BitVec.toNat h
    rw [BitVec.toNat_ofNat, Nat.mod_eq_of_lt hr] at this
    cases this
  have b1 : execTest ramBase 4096 (.branch .beq 6 0 10) s = s.next := by
    show (if BranchOp.beq.taken (s.x 6) (s.x 0) then _ else s.next) = _
    rw [if_neg nt]
  obtain ⟨s1, e1⟩ : ∃ t, t = s.next := ⟨_, rfl⟩
  obtain ⟨s2, e2⟩ : ∃ t, t = execTest ramBase 4096 (.opImm .addi 2 2 (-4)) s1 := ⟨_, rfl⟩
  obtain ⟨s3, e3⟩ : ∃ t, t = execTest ramBase 4096 (.store .sw 2 7 0) s2 := ⟨_, rfl⟩
  obtain ⟨s4, e4⟩ : ∃ t, t = execTest ramBase 4096 (.opImm .addi 6 6 (-1)) s3 := ⟨_, rfl⟩
  obtain ⟨s5, e5⟩ : ∃ t, t = execTest ramBase 4096 (.jal 0 (-8)) s4 := ⟨_, rfl⟩
  have q1 : s1.pc = 20#32 := by rw [e1]; show s.pc + 4#32 = _; rw [hs.pc]; rfl
  have q2 : s2.pc = 24#32 := by rw [e2]; show s1.pc + 4#32 = _; rw [q1]; rfl
  have q3 : s3.pc = 28#32 := by rw [e3]; show s2.pc + 4#32 = _; rw [q2]; rfl
  have q4 : s4.pc = 32#32 := by rw [e4]; show s3.pc + 4#32 = _; rw [q3]; rfl
  have q5 : s5.pc = 16#32 := by rw [e5, jal_to]; show s4.pc + immJ (-8) = _; rw [q4]; decide
  have x1 : ∀ q, s1.x q = s.x q := fun q => by rw [e1]; rfl
  have z2 : s2.x 2 = 0x41000#32 - BitVec.ofNat 32 (4 * (j + 1)) := by
    rw [e2]
    show s1.x 2 + immI (-4) = _
    rw [x1, hs.sp, sp_next]
  have a2 : s2.x 2 + immI 0 = 0x41000#32 - BitVec.ofNat 32 (4 * (j + 1)) := by rw [z2, show immI 0 = 0#32 from by decide, BitVec.add_zero]
  have x25 : s2.x 5 = 0x40000#32 := by rw [e2]; show s1.x 5 = _; rw [x1, hs.x5]
  have x26 : s2.x 6 = BitVec.ofNat 32 (r + 1) := by rw [e2]; show s1.x 6 = _; rw [x1, hs.x6]
  have x27 : s2.x 7 = 7#32 := by rw [e2]; show s1.x 7 = _; rw [x1, hs.x7]
  have m2 : s2.mem = s.mem := by rw [e2, e1]; rfl
  have x3 : ∀ q, s3.x q = s2.x q := fun q => by rw [e3]; rfl
  have x4 : s4.x 2 = s3.x 2 ∧ s4.x 5 = s3.x 5 ∧ s4.x 7 = s3.x 7 := by rw [e4]; exact ⟨rfl, rfl, rfl⟩
  have x46 : s4.x 6 = BitVec.ofNat 32 r := by
    rw [e4]
    show s3.x 6 + immI (-1) = _
    rw [x3, x26, word_pred]
  have x5 : ∀ q, s5.x q = s4.x q := fun q => by rw [e5, jal_x]
  obtain ⟨l1, l2⟩ := sp_low (j + 1)
  have r1 : RunsIf fetch (deepOk chk) (execTest ramBase 4096) 1 s s1 := by
    rw [e1, ← b1]
    refine .succ (i := .branch .beq 6 0 10) (by rw [hs.pc]; exact f4) ⟨⟨jump_fine chk rfl ?_ id id (by rw [hs.pc]; decide), by rw [hs.pc]; decide⟩, trivial⟩ (.zero _)
    intro t ht
    simp only [Instr.jumpsTo] at ht
    rw [if_neg nt] at ht
    cases ht
  have r2 : RunsIf fetch (deepOk chk) (execTest ramBase 4096) 1 s1 s2 := by
    rw [e2]
    exact .succ (i := .opImm .addi 2 2 (-4)) (by rw [q1]; exact f5) ⟨⟨plain_fine chk rfl rfl id id (by rw [q1]; decide), by rw [q1]; decide⟩, trivial⟩ (.zero _)
  have r3 (hc : chk = true → j < 1024) : RunsIf fetch (deepOk chk) (execTest ramBase 4096) 1 s2 s3 := by
    rw [e3]
    refine .succ (i := .store .sw 2 7 0) (by rw [q2]; exact f6) ⟨⟨access_fine (a := s2.x 2 + immI 0) (n := 4) chk rfl rfl ?_ id (by rw [q2]; decide) ?_,
      by rw [q2]; decide⟩, trivial⟩ (.zero _)
    · show ¬ (s2.x 2 + immI 0).toNat % 4 ≠ 0
      rw [a2]; omega
    · intro h
      have := hc h
      rw [a2, BitVec.toNat_sub, BitVec.toNat_ofNat, show (0x41000#32).toNat = 266240 from rfl, show ramBase = 262144 from rfl]
      omega
  have r4 : RunsIf fetch (deepOk chk) (execTest ramBase 4096) 1 s3 s4 := by
    rw [e4]
    exact .succ (i := .opImm .addi 6 6 (-1)) (by rw [q3]; exact f7) ⟨⟨plain_fine chk rfl rfl id id (by rw [q3]; decide), by rw [q3]; decide⟩, trivial⟩ (.zero _)
  have r5 : RunsIf fetch (deepOk chk) (execTest ramBase 4096) 1 s4 s5 := by
    rw [e5]
    refine .succ (i := .jal 0 (-8)) (by rw [q4]; exact f8) ⟨⟨jal_fine (k := 4) chk (by rw [q4]; decide) (by rw [q4]; decide), by rw [q4]; decide⟩,
      (⟨by decide, by decide⟩ : _ ∧ _)⟩ (.zero _)
  refine ⟨s2, s5, runsIf_append (a := 1) r1 r2, q2, z2, fun hc =>
    runsIf_append (a := 4) (runsIf_append (a := 3) (runsIf_append (a := 2) (runsIf_append (a := 1) r1 r2) (r3 hc)) r4) r5,
    q5, ?_, ?_, ?_, ?_, ?_⟩
  · rw [x5, x4.1, x3, z2]
  · rw [x5, x4.2.1, x3, x25]
  · rw [x5, x46]
  · rw [x5, x4.2.2, x3, x27]
  · intro v hv
    have m5 : s5.mem = storeEach (ramByte ramBase 4096) s.mem (s2.x 2 + immI 0) (s2.x 7) 4 := by rw [e5, jal_mem, e4, e3, ← m2]; rfl
    rw [m5, a2, x27]
    have hA : (0x41000#32 - BitVec.ofNat 32 (4 * (j + 1))).toNat % 4096 < 4096 := Nat.mod_lt _ (by decide)
    simp only [storeEach]
    rw [ramByte_low _ 0 l1 (by decide), ramByte_low _ 1 l1 (by decide), ramByte_low _ 2 l1 (by decide), ramByte_low _ 3 l1 (by decide), hs.mem v hv]
    generalize (0x41000#32 - BitVec.ofNat 32 (4 * (j + 1))).toNat = A at *
    simp only [addr_eq hv (show A % 4096 + 0 < 4096 by omega), addr_eq hv (show A % 4096 + 1 < 4096 by omega),
      addr_eq hv (show A % 4096 + 2 < 4096 by omega), addr_eq hv (show A % 4096 + 3 < 4096 by omega)]
    by_cases h3 : v = A % 4096 + 3
    · rw [if_pos h3, if_pos (by omega), if_neg (by omega)]; rfl
    by_cases h2 : v = A % 4096 + 2
    · rw [if_neg h3, if_pos h2, if_pos (by omega), if_neg (by omega)]; rfl
    by_cases h1 : v = A % 4096 + 1
    · rw [if_neg h3, if_neg h2, if_pos h1, if_pos (by omega), if_neg (by omega)]; rfl
    by_cases h0 : v = A % 4096 + 0
    · rw [if_neg h3, if_neg h2, if_neg h1, if_pos h0, if_pos (by omega), if_pos (by omega)]; rfl
    rw [if_neg h3, if_neg h2, if_neg h1, if_neg h0]
    by_cases hj : 4096 ≤ v + 4 * j
    · rw [if_pos hj, if_pos (show 4096 ≤ v + 4 * (j + 1) by omega)]
    · rw [if_neg hj, if_neg (show ¬ 4096 ≤ v + 4 * (j + 1) by omega)]

/-- Any number of them. -/
theorem deep_pushes {fetch : Word → Option Instr} (hf : FetchTest deepGuest.bootRom.data fetch) (chk : Bool) {m : Nat → Byte} (d : Nat) {j r : Nat}
    {s : Arch} (hr : d + r < 2 ^ 32) (hc : chk = true → j + d ≤ 1024) (hs : DeepAt m j (d + r) s) :
    ∃ u, RunsIf fetch (deepOk chk) (execTest ramBase 4096) (5 * d) s u ∧ DeepAt m (j + d) r u := by
  induction d generalizing j s with
  | zero => exact ⟨s, .zero s, by simpa using hs⟩
  | succ d ih =>
    obtain ⟨-, u, -, -, -, h1, h2⟩ := deep_push hf chk (r := d + r) (by omega) (by rw [show d + r + 1 = d + 1 + r by omega]; exact hs)
    obtain ⟨v, h3, h4⟩ := ih (j := j + 1) (by omega) (fun h => by have := hc h; omega) h2
    refine ⟨v, ?_, by rw [show j + (d + 1) = j + 1 + d by omega]; exact h4⟩
    rw [show 5 * (d + 1) = 5 + 5 * d by omega]
    exact runsIf_append (h1 fun h => by have := hc h; omega) h3

theorem runsIf_first {fetch : Word → Option Instr} {ok : Instr → Arch → Prop} {step : Instr → Arch → Arch} {n : Nat} {s s' : Arch}
    (h : RunsIf fetch ok step (n + 1) s s') : ∃ i, fetch s.pc = some i ∧ ok i s := by
  cases h with
  | succ hf hok _ => exact ⟨_, hf, hok⟩

/-- The beginning. -/
theorem deep_start {fetch : Word → Option Instr} (hf : FetchTest deepGuest.bootRom.data fetch) (chk : Bool) (x : Word) :
    ∃ m s, RunsIf fetch (deepOk chk) (execTest ramBase 4096) 4 (startState (asmRam deepData (fourBytes x))) s ∧ DeepAt m 0 x.toNat s ∧
      m 8 = 42#8 ∧ m 9 = 0#8 ∧ m 10 = 0#8 ∧ m 11 = 0#8 := by
  have f0 : fetch 0#32 = some (.lui 2 0x41) := deep_fetch hf 0 (by decide)
  have f1 : fetch 4#32 = some (.lui 5 0x40) := deep_fetch hf 1 (by decide)
  have f2 : fetch 8#32 = some (.load .lw 6 5 0) := deep_fetch hf 2 (by decide)
  have f3 : fetch 12#32 = some (.opImm .addi 7 0 7) := deep_fetch hf 3 (by decide)
  have hin : ∀ i b, (fourBytes x)[i]? = some b → (startState (asmRam deepData (fourBytes x))).mem (BitVec.ofNat 32 (0x40000 + i)) = b := by
    intro i b hb
    have hi : i < 4 := (List.getElem?_eq_some_iff.mp hb).1
    have := asm_input deepData (fourBytes x) i hi (by show 4 ≤ 4096; decide)
    rw [List.getD_eq_getElem?_getD, hb] at this
    exact this
  have hd : ∀ v, 4 ≤ v → v < 4096 → (startState (asmRam deepData (fourBytes x))).mem (BitVec.ofNat 32 (ramBase + v)) = deepData.getD v 0#8 :=
    fun v h1 h2 => asm_data deepData (fourBytes x) v h1 h2
  have p0 : (startState (asmRam deepData (fourBytes x))).pc = 0#32 := rfl
  generalize startState (asmRam deepData (fourBytes x)) = s0 at *
  obtain ⟨s1, e1⟩ : ∃ t, t = execTest ramBase 4096 (.lui 2 0x41) s0 := ⟨_, rfl⟩
  obtain ⟨s2, e2⟩ : ∃ t, t = execTest ramBase 4096 (.lui 5 0x40) s1 := ⟨_, rfl⟩
  obtain ⟨s3, e3⟩ : ∃ t, t = execTest ramBase 4096 (.load .lw 6 5 0) s2 := ⟨_, rfl⟩
  obtain ⟨s4, e4⟩ : ∃ t, t = execTest ramBase 4096 (.opImm .addi 7 0 7) s3 := ⟨_, rfl⟩
  have q1 : s1.pc = 4#32 := by rw [e1]; show s0.pc + 4#32 = _; rw [p0]; rfl
  have q2 : s2.pc = 8#32 := by rw [e2]; show s1.pc + 4#32 = _; rw [q1]; rfl
  have q3 : s3.pc = 12#32 := by rw [e3]; show s2.pc + 4#32 = _; rw [q2]; rfl
  have q4 : s4.pc = 16#32 := by rw [e4]; show s3.pc + 4#32 = _; rw [q3]; rfl
  have x22 : s2.x 2 = 0x41000#32 := by rw [e2, e1]; rfl
  have x25 : s2.x 5 = 0x40000#32 := by rw [e2]; rfl
  have a2 : s2.x 5 + immI 0 = 0x40000#32 := by rw [x25]; rfl
  have m2 : s2.mem = s0.mem := by rw [e2, e1]; rfl
  have x3 : s3.x 2 = s2.x 2 ∧ s3.x 5 = s2.x 5 := by rw [e3]; exact ⟨rfl, rfl⟩
  have x36 : s3.x 6 = x := by
    rw [e3]
    show LoadOp.lw.eval (fun b => s2.mem (ramByte ramBase 4096 b)) (s2.x 5 + immI 0) = x
    rw [a2, m2]
    refine Eq.trans ?_ (word_load hin)
    have r0 : ramByte ramBase 4096 0x40000#32 = 0x40000#32 := by decide
    have r1 : ramByte ramBase 4096 0x40001#32 = 0x40001#32 := by decide
    have r2 : ramByte ramBase 4096 0x40002#32 = 0x40002#32 := by decide
    have r3 : ramByte ramBase 4096 0x40003#32 = 0x40003#32 := by decide
    generalize s0.mem = m
    show BitVec.ofNat 32 ((m (ramByte ramBase 4096 0x40000#32)).toNat + 256 * ((m (ramByte ramBase 4096 0x40001#32)).toNat + 256 *
      ((m (ramByte ramBase 4096 0x40002#32)).toNat + 256 * ((m (ramByte ramBase 4096 0x40003#32)).toNat + 256 * 0)))) = _
    rw [r0, r1, r2, r3]
    rfl
  have x4 : s4.x 2 = s3.x 2 ∧ s4.x 5 = s3.x 5 ∧ s4.x 6 = s3.x 6 := by rw [e4]; exact ⟨rfl, rfl, rfl⟩
  have x47 : s4.x 7 = 7#32 := by rw [e4]; rfl
  have m4 : s4.mem = s0.mem := by rw [e4, e3, ← m2]; rfl
  have r1 : RunsIf fetch (deepOk chk) (execTest ramBase 4096) 1 s0 s1 := by
    rw [e1]
    exact .succ (i := .lui 2 0x41) (by rw [p0]; exact f0) ⟨⟨plain_fine chk rfl rfl id id (by rw [p0]; decide), by rw [p0]; decide⟩, trivial⟩ (.zero _)
  have r2 : RunsIf fetch (deepOk chk) (execTest ramBase 4096) 1 s1 s2 := by
    rw [e2]
    exact .succ (i := .lui 5 0x40) (by rw [q1]; exact f1) ⟨⟨plain_fine chk rfl rfl id id (by rw [q1]; decide), by rw [q1]; decide⟩, trivial⟩ (.zero _)
  have r3 : RunsIf fetch (deepOk chk) (execTest ramBase 4096) 1 s2 s3 := by
    rw [e3]
    refine .succ (i := .load .lw 6 5 0) (by rw [q2]; exact f2) ⟨⟨access_fine (a := s2.x 5 + immI 0) (n := 4) chk rfl rfl ?_ id (by rw [q2]; decide) ?_,
      by rw [q2]; decide⟩, Or.inr trivial⟩ (.zero _)
    · show ¬ (s2.x 5 + immI 0).toNat % 4 ≠ 0
      rw [a2]; decide
    · intro _; rw [a2]; decide
  have r4 : RunsIf fetch (deepOk chk) (execTest ramBase 4096) 1 s3 s4 := by
    rw [e4]
    exact .succ (i := .opImm .addi 7 0 7) (by rw [q3]; exact f3) ⟨⟨plain_fine chk rfl rfl id id (by rw [q3]; decide), by rw [q3]; decide⟩, trivial⟩ (.zero _)
  refine ⟨fun v => s0.mem (BitVec.ofNat 32 (ramBase + v)), s4,
    runsIf_append (a := 3) (runsIf_append (a := 2) (runsIf_append (a := 1) r1 r2) r3) r4,
    ⟨q4, ?_, ?_, ?_, x47, ?_⟩, hd 8 (by decide) (by decide), hd 9 (by decide) (by decide), hd 10 (by decide) (by decide), hd 11 (by decide) (by decide)⟩
  · rw [x4.1, x3.1, x22]; rfl
  · rw [x4.2.1, x3.2, x25]
  · rw [x4.2.2, x36]; simp
  · intro v hv
    rw [m4, if_neg (by omega)]

/-- The end. -/
theorem deep_end {fetch : Word → Option Instr} (hf : FetchTest deepGuest.bootRom.data fetch) (chk : Bool) {m : Nat → Byte} {j : Nat} {s : Arch}
    (hs : DeepAt m j 0 s) (h8 : m 8 = 42#8) (h9 : m 9 = 0#8) (h10 : m 10 = 0#8) (h11 : m 11 = 0#8) (n : Nat) :
    ∃ u, RunsIf fetch (deepOk chk) (execTest ramBase 4096) (3 + n) s u ∧ ramBytes u 4 4 = fourBytes (if j ≤ 1021 then 42#32 else 7#32) := by
  have f4 : fetch 16#32 = some (.branch .beq 6 0 10) := deep_fetch hf 4 (by decide)
  have f9 : fetch 36#32 = some (.load .lw 8 5 8) := deep_fetch hf 9 (by decide)
  have f10 : fetch 40#32 = some (.store .sw 5 8 4) := deep_fetch hf 10 (by decide)
  have f11 : fetch 44#32 = some (.jal 0 0) := deep_fetch hf 11 (by decide)
  have tk : BranchOp.beq.taken (s.x 6) (s.x 0) := by
    show s.x 6 = 0#32
    rw [hs.x6]
  have b1 : execTest ramBase 4096 (.branch .beq 6 0 10) s = { s with pc := s.pc + immB 10 } := by
    show (if BranchOp.beq.taken (s.x 6) (s.x 0) then _ else s.next) = _
    rw [if_pos tk]
  obtain ⟨s1, e1⟩ : ∃ t, t = ({ s with pc := s.pc + immB 10 } : Arch) := ⟨_, rfl⟩
  obtain ⟨s2, e2⟩ : ∃ t, t = execTest ramBase 4096 (.load .lw 8 5 8) s1 := ⟨_, rfl⟩
  obtain ⟨s3, e3⟩ : ∃ t, t = execTest ramBase 4096 (.store .sw 5 8 4) s2 := ⟨_, rfl⟩
  have q1 : s1.pc = 36#32 := by rw [e1]; show s.pc + immB 10 = _; rw [hs.pc]; rfl
  have q2 : s2.pc = 40#32 := by rw [e2]; show s1.pc + 4#32 = _; rw [q1]; rfl
  have q3 : s3.pc = 44#32 := by rw [e3]; show s2.pc + 4#32 = _; rw [q2]; rfl
  have x15 : s1.x 5 = 0x40000#32 := by rw [e1]; exact hs.x5
  have a1 : s1.x 5 + immI 8 = 0x40008#32 := by rw [x15]; rfl
  have x25 : s2.x 5 = 0x40000#32 := by rw [e2]; exact x15
  have a2 : s2.x 5 + immI 4 = 0x40004#32 := by rw [x25]; rfl
  have x28 : s2.x 8 = if j ≤ 1021 then 42#32 else 7#32 := by
    rw [e2]
    show LoadOp.lw.eval (fun b => s1.mem (ramByte ramBase 4096 b)) (s1.x 5 + immI 8) = _
    rw [a1, show s1.mem = s.mem by rw [e1]]
    have r0 : ramByte ramBase 4096 0x40008#32 = BitVec.ofNat 32 (ramBase + 8) := by decide
    have r1 : ramByte ramBase 4096 0x40009#32 = BitVec.ofNat 32 (ramBase + 9) := by decide
    have r2 : ramByte ramBase 4096 0x4000A#32 = BitVec.ofNat 32 (ramBase + 10) := by decide
    have r3 : ramByte ramBase 4096 0x4000B#32 = BitVec.ofNat 32 (ramBase + 11) := by decide
    have v8 := hs.mem 8 (by decide)
    have v9 := hs.mem 9 (by decide)
    have v10 := hs.mem 10 (by decide)
    have v11 := hs.mem 11 (by decide)
    generalize s.mem = M at *
    show BitVec.ofNat 32 ((M (ramByte ramBase 4096 0x40008#32)).toNat + 256 * ((M (ramByte ramBase 4096 0x40009#32)).toNat + 256 *
      ((M (ramByte ramBase 4096 0x4000A#32)).toNat + 256 * ((M (ramByte ramBase 4096 0x4000B#32)).toNat + 256 * 0)))) = _
    rw [r0, r1, r2, r3, v8, v9, v10, v11, h8, h9, h10, h11]
    by_cases hj : j ≤ 1021
    · rw [if_neg (show ¬ 4096 ≤ 8 + 4 * j by omega), if_neg (show ¬ 4096 ≤ 9 + 4 * j by omega), if_neg (show ¬ 4096 ≤ 10 + 4 * j by omega),
        if_neg (show ¬ 4096 ≤ 11 + 4 * j by omega), if_pos hj]; rfl
    · rw [if_pos (show 4096 ≤ 8 + 4 * j by omega), if_pos (show 4096 ≤ 9 + 4 * j by omega), if_pos (show 4096 ≤ 10 + 4 * j by omega),
        if_pos (show 4096 ≤ 11 + 4 * j by omega), if_neg hj]; rfl
  have r1 : RunsIf fetch (deepOk chk) (execTest ramBase 4096) 1 s s1 := by
    rw [e1, ← b1]
    refine .succ (i := .branch .beq 6 0 10) (by rw [hs.pc]; exact f4) ⟨⟨jump_fine chk rfl ?_ id id (by rw [hs.pc]; decide), by rw [hs.pc]; decide⟩, trivial⟩ (.zero _)
    intro t ht
    simp only [Instr.jumpsTo] at ht
    rw [if_pos tk] at ht
    cases ht
    rw [hs.pc]; decide
  have r2 : RunsIf fetch (deepOk chk) (execTest ramBase 4096) 1 s1 s2 := by
    rw [e2]
    refine .succ (i := .load .lw 8 5 8) (by rw [q1]; exact f9) ⟨⟨access_fine (a := s1.x 5 + immI 8) (n := 4) chk rfl rfl ?_ id (by rw [q1]; decide) ?_,
      by rw [q1]; decide⟩, Or.inr trivial⟩ (.zero _)
    · show ¬ (s1.x 5 + immI 8).toNat % 4 ≠ 0
      rw [a1]; decide
    · intro _; rw [a1]; decide
  have r3 : RunsIf fetch (deepOk chk) (execTest ramBase 4096) 1 s2 s3 := by
    rw [e3]
    refine .succ (i := .store .sw 5 8 4) (by rw [q2]; exact f10) ⟨⟨access_fine (a := s2.x 5 + immI 4) (n := 4) chk rfl rfl ?_ id (by rw [q2]; decide) ?_,
      by rw [q2]; decide⟩, trivial⟩ (.zero _)
    · show ¬ (s2.x 5 + immI 4).toNat % 4 ≠ 0
      rw [a2]; decide
    · intro _; rw [a2]; decide
  have r4 (n : Nat) : RunsIf fetch (deepOk chk) (execTest ramBase 4096) n s3 s3 := by
    induction n with
    | zero => exact .zero _
    | succ n ih =>
      refine .succ (i := .jal 0 0) (by rw [q3]; exact f11) ⟨⟨spin_fine (by rw [q3]; decide), by rw [q3]; decide⟩, (⟨by decide, by decide⟩ : _ ∧ _)⟩ ?_
      rw [show execTest ramBase 4096 (.jal 0 0) s3 = s3 from spin_stays]
      exact ih
  refine ⟨s3, runsIf_append (a := 3) (runsIf_append (a := 2) (runsIf_append (a := 1) r1 r2) r3) (r4 n), ?_⟩
  refine List.map_congr_left fun q hq => ?_
  have hw : execTest ramBase 4096 (.store .sw 5 8 4) s2 = exec (.store .sw 5 8 4) s2 := C97_window _ _ _ _ (by decide) (by
    intro a k h
    cases h
    rw [a2]; decide)
  rw [e3, hw, show ramBase + (4 + q) = 0x40004 + q by unfold ramBase; omega]
  show storeBytes s2.mem (s2.x 5 + immI 4) (s2.x 8) 4 _ = _
  rw [a2, x28]
  exact out_store _ _ q (List.mem_range.mp hq)

theorem deep_placed {x : Word} {bytes : List Byte} (h : Placed deepGuest.bootRam.data (deepGuest.input.startAddr - ramBase) (fourBytes x) bytes) :
    bytes = asmRam deepData (fourBytes x) :=
  placed_unique h (asm_placed deepData (fourBytes x) (by show 4 ≤ deepData.length; decide))

/-- The guest with any number of pushes and cycles enough for them.  Up to 1021 pushes it returns its variable.  From 1022 on it returns what was
pushed, on both VMs alike, so that the comparison of the two passes: in a release build whatever the number, in a debug build up to 1024, where the
RAM ends; with more a debug build of the test VM panics. -/
theorem C106_deep (F : Fhe) (rand : Nat → Nat → Nat → F.C.Rand) (chk dbg : Bool) (threads n : Nat) (ht : 0 < threads) (hn : n < 2 ^ 32) (x : Word) :
    ((chk = true → x.toNat ≤ 1024) → 7 + 5 * x.toNat ≤ n →
      Host.bothTapes F.C rand F.decU F.decP chk dbg false threads deepGuest (fourBytes x) n =
        some (fourBytes (if x.toNat ≤ 1021 then 42#32 else 7#32))) ∧
    (chk = true → 1024 < x.toNat → 5127 ≤ n → ∀ phantomDebug,
      Host.bothTapes F.C rand F.decU F.decP chk dbg phantomDebug threads deepGuest (fourBytes x) n = none) := by
  have hl : (fourBytes x).length = 4 := rfl
  have hrl : deepGuest.bootRom.data.length = 48 := by decide +kernel
  constructor
  · intro hc hcyc
    obtain ⟨q, hq⟩ : ∃ q, Parser.new.addAll dbg (packWords deepGuest.bootRom.data) = some q := by
      rw [← Option.isSome_iff_exists]; cases dbg <;> decide +kernel
    obtain ⟨ev, hev⟩ := C42_setup F rand dbg false threads n deepElf deepGuest (fourBytes x) q deep_elf
      (by decide +kernel) (by decide +kernel) hq hl (by decide +kernel) (by decide +kernel)
    obtain ⟨fetch, bytes, hf, hin, hall⟩ := C99_output F rand chk dbg threads n deepElf deepGuest (fourBytes x) ev
      (by decide +kernel) deep_elf ht hn hev (by decide +kernel) hl (by decide +kernel) (by decide +kernel)
      (by decide +kernel) (by decide +kernel)
    rw [deep_placed hin, hrl] at hall
    obtain ⟨m, s, h1, h2, h8, h9, h10, h11⟩ := deep_start hf chk x
    obtain ⟨t, h3, h4⟩ := deep_pushes hf chk x.toNat (j := 0) (r := 0) (by have := x.isLt; omega) (fun h => by have := hc h; omega) h2
    obtain ⟨u, h5, h6⟩ := deep_end hf chk h4 h8 h9 h10 h11 (n - 7 - 5 * x.toNat)
    have hr := runsIf_append h1 (runsIf_append h3 h5)
    rw [show 4 + (5 * x.toNat + (3 + (n - 7 - 5 * x.toNat))) = n by omega] at hr
    obtain ⟨vm0, vm1, vm2, ev2, e0, e1, e2, e3, o1, o2⟩ := hall u hr
    rw [show deepGuest.output.startAddr - ramBase = 4 by decide +kernel, show deepGuest.output.size = 4 from rfl, h6, Nat.zero_add] at o1 o2
    exact (C74_equal _ _ _ _ _ _ _ _ _ _ _ _).mpr ⟨⟨ev, ev2, hev, e3, o2⟩, vm0, vm1, vm2, e0, e1, e2, o1⟩
  · intro hc hx hcyc phantomDebug
    cases hb : Host.bothTapes F.C rand F.decU F.decP chk dbg phantomDebug threads deepGuest (fourBytes x) n with
    | none => rfl
    | some out =>
      obtain ⟨-, vm0, vm1, vm2, h0, h1, h2, -⟩ := (C74_equal _ _ _ _ _ _ _ _ _ _ _ _).mp hb
      obtain ⟨fetch, bytes, wm0, wm1, hf, hin, e0, e1, hx', -⟩ := C97_testvm chk n deepElf deepGuest (fourBytes x) (by decide +kernel) deep_elf
        (by decide +kernel) hl (by decide +kernel) (by decide +kernel) (by decide +kernel) (by decide +kernel)
      have w0 := Option.some.inj (e0.symm.trans h0)
      rw [w0] at e1
      have w1 := Option.some.inj (e1.symm.trans h1)
      rw [w1] at hx'
      obtain ⟨s', hr⟩ := hx'.mp ⟨vm2, h2⟩
      rw [deep_placed hin] at hr
      obtain ⟨m, s, k1, k2, -⟩ := deep_start hf chk x
      obtain ⟨t, k3, k4⟩ := deep_pushes hf chk 1024 (j := 0) (r := x.toNat - 1025 + 1) (by have := x.isLt; omega) (fun _ => by omega)
        (by rw [show 1024 + (x.toNat - 1025 + 1) = x.toNat by omega]; exact k2)
      obtain ⟨u, -, k5, k6, k7, -, -⟩ := deep_push hf chk (by have := x.isLt; omega) k4
      have run := runsIf_mono (fun _ _ h => h.1.1) (runsIf_append k1 (runsIf_append k3 k5))
      obtain ⟨e, rfl⟩ : ∃ e, n = (4 + (5 * 1024 + 2)) + (e + 1) := ⟨n - 5127, by omega⟩
      obtain ⟨u', g1, g2⟩ := runsIf_split hr
      rw [← runsIf_unique run g1] at g2
      obtain ⟨i, hfi, hok⟩ := runsIf_first g2
      rw [k6, show fetch 24#32 = some (.store .sw 2 7 0) from deep_fetch hf 6 (by decide)] at hfi
      rw [← Option.some.inj hfi] at hok
      refine absurd (Or.inr (Or.inr (Or.inr ⟨hc, Or.inl ⟨_, _, rfl, ?_⟩⟩))) hok
      rw [k7]
      decide

-- the theorem applies: 1021 and 1022 pushes in a debug build, 5000 in a release build and 1025 in a debug build
example : Host.bothTapes sampleFhe.C (fun _ _ _ => ()) sampleFhe.decU sampleFhe.decP true true false 3 deepGuest (fourBytes 1021#32) 6000 =
    some [42, 0, 0, 0] := (C106_deep sampleFhe _ true true 3 6000 (by decide) (by decide) 1021#32).1 (fun _ => by decide) (by decide)
example : Host.bothTapes sampleFhe.C (fun _ _ _ => ()) sampleFhe.decU sampleFhe.decP true true false 3 deepGuest (fourBytes 1022#32) 6000 =
    some [7, 0, 0, 0] := (C106_deep sampleFhe _ true true 3 6000 (by decide) (by decide) 1022#32).1 (fun _ => by decide) (by decide)
example : Host.bothTapes sampleFhe.C (fun _ _ _ => ()) sampleFhe.decU sampleFhe.decP false false false 3 deepGuest (fourBytes 5000#32) 30000 =
    some [7, 0, 0, 0] := (C106_deep sampleFhe _ false false 3 30000 (by decide) (by decide) 5000#32).1 (fun h => by cases h) (by decide)
example : Host.bothTapes sampleFhe.C (fun _ _ _ => ()) sampleFhe.decU sampleFhe.decP true true true 3 deepGuest (fourBytes 1025#32) 6000 =
    none := (C106_deep sampleFhe _ true true 3 6000 (by decide) (by decide) 1025#32).2 rfl (by decide) (by decide) true

end Verif.Props
