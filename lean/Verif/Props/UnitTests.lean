import Verif.Model.UnitTests
import Verif.Lemmas.Runs
import Verif.Lemmas.Setup
import Verif.Props.Memory
import Verif.Props.Accept
import Verif.Props.Interp
/-
  The crate's own unit tests (fhevm/src/tests): for every correct library, all randomness of the
  encryptions and all inputs, C72 says exactly when each of them passes.
-/
namespace Verif.Props
open Model Spec

/-! ### Running tests -/

theorem assertEq_iff (a b : Word) : assertEq a b = some () ↔ a = b := by
  unfold assertEq
  split <;> simp [*]

theorem assertEq_self (a : Word) : assertEq a a = some () := (assertEq_iff a a).mpr rfl

theorem checkAll_iff (cs : List (Option Unit)) : checkAll cs = some () ↔ ∀ c ∈ cs, c = some () := by
  induction cs with
  | nil => simp [checkAll]
  | cons c cs ih =>
    cases c with
    | none => simp [checkAll]
    | some u => simp [checkAll, ih]

variable {F : Fhe}

/-! ### tests/memory.rs -/

/-- `test_fhe_ram` passes for any memory contents, any index inside and any word written. -/
theorem C72_memory (E : TestKey F) (rand : Nat → Nat → F.C.Rand) (data : List Word)
    (idx value : Word) (hi : idx.toNat < data.length) :
    testFheRam E rand data.length data idx value = some () := by
  have hpos : data.length ≠ 0 := by omega
  obtain ⟨m0, m, e0, e1, -⟩ := C21_round_trip F.B F.C (fun r p => F.dec_sim _ _ (F.enc_sim r p)) rand
    data.length (by omega) data data (Nat.le_refl _) rfl
  have h : F.Holds m data := by
    apply encrypted_self (rand := rand)
    unfold encrypted
    rw [e0]; exact e1
  have hl := h.length
  have hd : data[idx.toNat]? = some data[idx.toNat] := List.getElem?_eq_getElem hi
  have acc : accessIndex idx 0 (bitsFor m.size) = idx.toNat := by
    unfold accessIndex
    rw [Nat.pow_zero, Nat.div_one]
    exact Nat.mod_eq_of_lt (Nat.lt_of_lt_of_le (by omega) (le_two_pow_bitsFor m.size))
  obtain ⟨u, e2, hu⟩ := h.readStateless 1 (by decide) (E.prep 0 idx) idx (E.prep_sim 0 idx) 0
    data[idx.toNat] (by rw [Nat.pow_zero, Nat.div_one]; exact hd)
  obtain ⟨m1, v, e3, hv, hp1⟩ := h.readStatefull 1 (by decide) (E.prep 0 idx) idx (E.prep_sim 0 idx) 0
    data[idx.toNat] (by rw [acc]; exact hd)
  rw [acc] at hp1
  have hsz : m1.size = m.size := by rw [← hp1.length, hl]
  obtain ⟨m2, e4, hs2, h2⟩ := hp1.finish 1 (by decide) (F.encU (E.rand 0) value) value (F.encU_sim _ _)
    (E.prep 0 idx) idx (E.prep_sim 0 idx) 0 (by rw [hsz, acc])
  have hset : (data.set idx.toNat value)[idx.toNat]? = some value := by
    rw [List.getElem?_set]; simp [hi]
  obtain ⟨w, e5, hw⟩ := h2.readStateless 1 (by decide) (E.prep 0 idx) idx (E.prep_sim 0 idx) 0 value
    (by rw [Nat.pow_zero, Nat.div_one]; exact hset)
  have e6 := h2.decrypt (List.replicate data.length 0#32) (by simp; omega)
  unfold testFheRam
  rw [e0, Option.bind_some, e1, Option.bind_some]
  simp only
  rw [e2, Option.bind_some, hd, Option.bind_some, F.decU_sim u _ hu, assertEq_self, Option.bind_some, e3,
    Option.bind_some]
  simp only
  rw [F.decU_sim v _ hv, assertEq_self, Option.bind_some, hset, Option.bind_some, e4, Option.bind_some, e5,
    Option.bind_some, F.decU_sim w _ hw, assertEq_self, Option.bind_some, e6, Option.bind_some, hset,
    Option.bind_some, assertEq_self]

/-- The test as it is in the crate, whatever the random word. -/
theorem C72_memory_crate (E : TestKey F) (rand : Nat → Nat → F.C.Rand) (value : Word) :
    testFheRam E rand 1024 ((List.range 1024).map (BitVec.ofNat 32)) 512#32 value = some () := by
  have h := C72_memory E rand ((List.range 1024).map (BitVec.ofNat 32)) 512#32 value
    (by rw [List.length_map, List.length_range]; decide)
  rwa [List.length_map, List.length_range] at h

/-! ### tests/ram_offset.rs -/

/-- `test_ram_offset` passes for any two words. -/
theorem C72_ram_offset (E : TestKey F) (rs1 imm : Word) : testRamOffset E rs1 imm = some () := by
  have r := ramOffset_rel F.sim (E.prep_sim 0 rs1) (E.prep_sim 1 imm)
  rw [ramOffset_plain] at r
  obtain ⟨u, e, hu⟩ := r.of_some
  unfold testRamOffset
  rw [e, Option.bind_some, F.decU_sim u _ hu]
  exact assertEq_self _

/-! ### tests/pc_update.rs -/

theorem sext19 (x : Word) :
    sext (x &&& ((1#32 <<< 20) - 1#32)) 19 = some (((x &&& ((1#32 <<< 20) - 1#32)).setWidth 20).signExtend 32) := by
  show sext (x &&& 0xFFFFF#32) 19 = some (((x &&& 0xFFFFF#32).setWidth 20).signExtend 32)
  exact C09_sext _ 19 (by omega) (by omega)

/-- One case passes for all words, if the immediate has 20 bits. -/
theorem pcu_check (E : TestKey F) (k : Nat) (p : Pcu) (x : Word) (hx : p.imm = x &&& ((1#32 <<< 20) - 1#32)) :
    pcuCheck E k p = some () := by
  have r := updatePc_rel F.sim (E.prep_sim (5 * k) p.rs1) (E.prep_sim (5 * k + 1) p.rs2)
    (E.prep_sim (5 * k + 3) p.pc) (E.prep_sim (5 * k + 2) p.imm) (E.prep_sim (5 * k + 4) p.op.id)
  rw [updatePc_plain p.op _ _ _ _ _ rfl] at r
  obtain ⟨u, e, hu⟩ := r.of_some
  unfold pcuCheck Pcu.expected
  rw [e, Option.bind_some, F.decU_sim u _ hu, hx, sext19, Option.map_some, Option.bind_some, assertEq_self]


/-- What the helpers of `PCU` leave alone. -/
structure Pcu.Like (p q : Pcu) : Prop where
  op : q.op = p.op
  imm : q.imm = p.imm
  pc : q.pc = p.pc

theorem bump_some {chk : Bool} {p q : Pcu} (h : p.bump chk = some q) : Pcu.Like p q ∧ q.rs1 ≠ q.rs2 := by
  unfold Pcu.bump at h
  split at h
  · rename_i he
    split at h
    · cases h
    · cases h
      refine ⟨⟨rfl, rfl, rfl⟩, ?_⟩
      show p.rs1 + 1#32 ≠ p.rs2
      rw [← he]
      intro hh
      have := congrArg BitVec.toNat hh
      rw [BitVec.toNat_add] at this
      simp at this
      have := p.rs1.isLt
      omega
  · rename_i hne
    cases h
    exact ⟨⟨rfl, rfl, rfl⟩, hne⟩

/-- `self.rs1 += 1` overflows exactly when both registers are `u32::MAX`. -/
theorem bump_none (chk : Bool) (p : Pcu) :
    p.bump chk = none ↔ chk = true ∧ p.rs1 = 0xFFFFFFFF#32 ∧ p.rs2 = 0xFFFFFFFF#32 := by
  unfold Pcu.bump
  by_cases he : p.rs1 = p.rs2
  · rw [if_pos he]
    by_cases h1 : p.rs1 = 0xFFFFFFFF#32
    · cases chk <;> simp [h1, ← he]
    · cases chk <;> simp [h1, ← he]
  · rw [if_neg he]
    simp only [reduceCtorEq, false_iff]
    rintro ⟨-, h1, h2⟩
    exact he (h1.trans h2.symm)

theorem lt_some {chk : Bool} {p q : Pcu} (h : p.lt chk = some q) :
    Pcu.Like p q ∧ q.rs1.toNat < q.rs2.toNat := by
  obtain ⟨r, hr, rfl⟩ := Option.map_eq_some_iff.mp h
  obtain ⟨hl, hne⟩ := bump_some hr
  refine ⟨⟨hl.op, hl.imm, hl.pc⟩, ?_⟩
  have hne' : r.rs1.toNat ≠ r.rs2.toNat := fun hh => hne (BitVec.eq_of_toNat_eq hh)
  simp only [BitVec.ule_eq_decide, decide_eq_true_eq, BitVec.le_def]
  by_cases h1 : r.rs1.toNat ≤ r.rs2.toNat
  · rw [if_pos h1, if_neg (by omega)]; omega
  · rw [if_neg h1, if_pos (by omega)]; omega

theorem gte_some {p q : Pcu} (h : p.gte = some q) : Pcu.Like p q ∧ q.rs2.toNat ≤ q.rs1.toNat := by
  cases h
  refine ⟨⟨rfl, rfl, rfl⟩, ?_⟩
  simp only [BitVec.ule_eq_decide, decide_eq_true_eq, BitVec.le_def]
  by_cases h1 : p.rs1.toNat ≤ p.rs2.toNat
  · rw [if_pos h1]
    by_cases h2 : p.rs2.toNat ≤ p.rs1.toNat
    · rw [if_pos h2]; exact Nat.le_refl _
    · rw [if_neg h2]; omega
  · rw [if_neg h1, if_pos (by omega)]; omega

theorem ltSigned_some {chk : Bool} {p q : Pcu} (h : p.ltSigned chk = some q) :
    Pcu.Like p q ∧ q.rs1.toInt < q.rs2.toInt := by
  obtain ⟨r, hr, rfl⟩ := Option.map_eq_some_iff.mp h
  obtain ⟨hl, hne⟩ := bump_some hr
  refine ⟨⟨hl.op, hl.imm, hl.pc⟩, ?_⟩
  have hne' : r.rs1.toInt ≠ r.rs2.toInt := fun hh => hne (BitVec.eq_of_toInt_eq hh)
  simp only [BitVec.sle_eq_decide, decide_eq_true_eq]
  by_cases h1 : r.rs1.toInt ≤ r.rs2.toInt
  · rw [if_pos h1, if_neg (by omega)]; omega
  · rw [if_neg h1, if_pos (by omega)]; omega

theorem gteSigned_some {p q : Pcu} (h : p.gteSigned = some q) :
    Pcu.Like p q ∧ q.rs2.toInt ≤ q.rs1.toInt := by
  cases h
  refine ⟨⟨rfl, rfl, rfl⟩, ?_⟩
  simp only [BitVec.sle_eq_decide, decide_eq_true_eq]
  by_cases h1 : p.rs1.toInt ≤ p.rs2.toInt
  · rw [if_pos h1]
    by_cases h2 : p.rs2.toInt ≤ p.rs1.toInt
    · rw [if_pos h2]; exact Int.le_refl _
    · rw [if_neg h2]; omega
  · rw [if_neg h1, if_pos (by omega)]; omega

theorem equal_some {p q : Pcu} (h : p.equal = some q) : Pcu.Like p q ∧ q.rs1 = q.rs2 := by
  cases h
  exact ⟨⟨rfl, rfl, rfl⟩, rfl⟩

/-- The cases with words drawn for both source registers and a strict comparison asked for. -/
def strictCases : List Nat := [1, 2, 4, 7, 8, 11]

/-- `test_pc_update` panics while making its cases exactly when overflow is checked and one of six
pairs of registers is drawn as `u32::MAX` twice. -/
theorem C72_pc_cases (chk : Bool) (draw : Nat → Word) :
    collect (pcuCases chk draw) = none ↔ chk = true ∧ ∃ k ∈ strictCases,
      draw (4 * k + 2) = 0xFFFFFFFF#32 ∧ draw (4 * k + 3) = 0xFFFFFFFF#32 := by
  have b : ∀ k op, (Pcu.drawn draw k op).bump chk = none ↔ chk = true ∧
      draw (4 * k + 2) = 0xFFFFFFFF#32 ∧ draw (4 * k + 3) = 0xFFFFFFFF#32 := fun k op => bump_none chk _
  have key : ∀ l : List (Option Pcu), collect l = none ↔ none ∈ l := by
    intro l
    induction l with
    | nil => simp [collect]
    | cons a l ih =>
      cases a with
      | none => simp [collect]
      | some a => simp [collect, ih]
  rw [key]
  have hl : ∀ k op, (Pcu.drawn draw k op).lt chk = none ↔ (Pcu.drawn draw k op).bump chk = none := by
    intro k op; unfold Pcu.lt; simp
  have hs : ∀ k op, (Pcu.drawn draw k op).ltSigned chk = none ↔ (Pcu.drawn draw k op).bump chk = none := by
    intro k op; unfold Pcu.ltSigned; simp
  simp only [pcuCases, List.mem_cons, List.not_mem_nil, or_false, Pcu.equal, Pcu.gte, Pcu.gteSigned, reduceCtorEq,
    false_or, eq_comm (a := (none : Option Pcu)), hl, hs, b, strictCases, exists_eq_or_imp, exists_eq_left]
  constructor
  · rintro (⟨h, h'⟩ | ⟨h, h'⟩ | ⟨h, h'⟩ | ⟨h, h'⟩ | ⟨h, h'⟩ | ⟨h, h'⟩)
    · exact ⟨h, .inl h'⟩
    · exact ⟨h, .inr (.inl h')⟩
    · exact ⟨h, .inr (.inr (.inl h'))⟩
    · exact ⟨h, .inr (.inr (.inr (.inl h')))⟩
    · exact ⟨h, .inr (.inr (.inr (.inr (.inl h'))))⟩
    · exact ⟨h, .inr (.inr (.inr (.inr (.inr h'))))⟩
  · rintro ⟨h, h' | h' | h' | h' | h' | h'⟩
    · exact .inl ⟨h, h'⟩
    · exact .inr (.inl ⟨h, h'⟩)
    · exact .inr (.inr (.inl ⟨h, h'⟩))
    · exact .inr (.inr (.inr (.inl ⟨h, h'⟩)))
    · exact .inr (.inr (.inr (.inr (.inl ⟨h, h'⟩))))
    · exact .inr (.inr (.inr (.inr (.inr ⟨h, h'⟩))))

theorem mem_pcuCases {chk : Bool} {draw : Nat → Word} {p : Pcu} (h : some p ∈ pcuCases chk draw) :
    ∃ x, p.imm = x &&& ((1#32 <<< 20) - 1#32) := by
  simp only [pcuCases, List.mem_cons, List.not_mem_nil, or_false] at h
  rcases h with h | h | h | h | h | h | h | h | h | h | h | h | h | h | h
  · exact ⟨_, (equal_some h.symm).1.imm⟩
  · exact ⟨_, (lt_some h.symm).1.imm⟩
  · exact ⟨_, (lt_some h.symm).1.imm⟩
  · exact ⟨_, (equal_some h.symm).1.imm⟩
  · exact ⟨_, (lt_some h.symm).1.imm⟩
  · exact ⟨_, (gte_some h.symm).1.imm⟩
  · exact ⟨_, (gte_some h.symm).1.imm⟩
  · exact ⟨_, (lt_some h.symm).1.imm⟩
  · exact ⟨_, (ltSigned_some h.symm).1.imm⟩
  · exact ⟨_, (gteSigned_some h.symm).1.imm⟩
  · exact ⟨_, (gteSigned_some h.symm).1.imm⟩
  · exact ⟨_, (ltSigned_some h.symm).1.imm⟩
  · cases h; exact ⟨_, rfl⟩
  · cases h; exact ⟨_, rfl⟩
  · cases h; exact ⟨_, rfl⟩

/-- `test_pc_update` passes for all random words, but for the overflow of `C72_pc_cases`. -/
theorem C72_pc_update (E : TestKey F) (chk : Bool) (draw : Nat → Word) :
    testPcUpdate E chk draw = some () ↔ ¬ (chk = true ∧ ∃ k ∈ strictCases,
      draw (4 * k + 2) = 0xFFFFFFFF#32 ∧ draw (4 * k + 3) = 0xFFFFFFFF#32) := by
  rw [← C72_pc_cases]
  unfold testPcUpdate
  cases h : collect (pcuCases chk draw) with
  | none => simp
  | some ps =>
    rw [Option.bind_some, checkAll_iff]
    refine ⟨fun _ => by simp, fun _ c hc => ?_⟩
    obtain ⟨k, hk, rfl⟩ := List.mem_mapIdx.mp hc
    obtain ⟨x, hx⟩ := mem_pcuCases (mem_collect _ _ h ps[k] (List.getElem_mem hk))
    exact pcu_check E k _ x hx

/-- The branch of the manual an operation stands for. -/
def branchOf : PcUpdate → Option BranchOp
  | .BEQ => some .beq
  | .BNE => some .bne
  | .BLT => some .blt
  | .BGE => some .bge
  | .BLTU => some .bltu
  | .BGEU => some .bgeu
  | _ => none

/-- Operation of each case and, for a branch, whether it must be taken. -/
def covered : List (PcUpdate × Option Bool) :=
  [ (.BEQ, some true), (.BEQ, some false), (.BNE, some true), (.BNE, some false), (.BLTU, some true), (.BLTU, some false)
  , (.BGEU, some true), (.BGEU, some false), (.BLT, some true), (.BLT, some false), (.BGE, some true), (.BGE, some false)
  , (.JAL, none), (.JALR, none), (.NONE, none) ]

/-- A case is for the operation, and the branch is taken or not as wanted. -/
def Covers (c : PcUpdate × Option Bool) (p : Pcu) : Prop :=
  p.op = c.1 ∧ ∀ o t, branchOf c.1 = some o → c.2 = some t → (o.taken p.rs1 p.rs2 ↔ t = true)

theorem collect_cons {α : Type} {a : Option α} {l : List (Option α)} {r : List α} (h : collect (a :: l) = some r) :
    ∃ x xs, a = some x ∧ collect l = some xs ∧ r = x :: xs := by
  cases a with
  | none => cases h
  | some x =>
    obtain ⟨xs, h', rfl⟩ := Option.map_eq_some_iff.mp h
    exact ⟨x, xs, rfl, h', rfl⟩

/-- Whatever the random words, every branch is tested once taken and once not taken. -/
theorem C72_pc_coverage (chk : Bool) (draw : Nat → Word) (ps : List Pcu)
    (h : collect (pcuCases chk draw) = some ps) : LRel Covers covered ps := by
  unfold pcuCases at h
  obtain ⟨p0, r0, h0, g0, e0⟩ := collect_cons h
  obtain ⟨p1, r1, h1, g1, e1⟩ := collect_cons g0
  obtain ⟨p2, r2, h2, g2, e2⟩ := collect_cons g1
  obtain ⟨p3, r3, h3, g3, e3⟩ := collect_cons g2
  obtain ⟨p4, r4, h4, g4, e4⟩ := collect_cons g3
  obtain ⟨p5, r5, h5, g5, e5⟩ := collect_cons g4
  obtain ⟨p6, r6, h6, g6, e6⟩ := collect_cons g5
  obtain ⟨p7, r7, h7, g7, e7⟩ := collect_cons g6
  obtain ⟨p8, r8, h8, g8, e8⟩ := collect_cons g7
  obtain ⟨p9, r9, h9, g9, e9⟩ := collect_cons g8
  obtain ⟨p10, r10, h10, g10, e10⟩ := collect_cons g9
  obtain ⟨p11, r11, h11, g11, e11⟩ := collect_cons g10
  obtain ⟨p12, r12, h12, g12, e12⟩ := collect_cons g11
  obtain ⟨p13, r13, h13, g13, e13⟩ := collect_cons g12
  obtain ⟨p14, r14, h14, g14, e14⟩ := collect_cons g13
  have e15 := (Option.some.inj g14).symm
  subst e15 e14 e13 e12 e11 e10 e9 e8 e7 e6 e5 e4 e3 e2 e1 e0
  cases h12
  cases h13
  cases h14
  obtain ⟨l0, c0⟩ := equal_some h0
  obtain ⟨l1, c1⟩ := lt_some h1
  obtain ⟨l2, c2⟩ := lt_some h2
  obtain ⟨l3, c3⟩ := equal_some h3
  obtain ⟨l4, c4⟩ := lt_some h4
  obtain ⟨l5, c5⟩ := gte_some h5
  obtain ⟨l6, c6⟩ := gte_some h6
  obtain ⟨l7, c7⟩ := lt_some h7
  obtain ⟨l8, c8⟩ := ltSigned_some h8
  obtain ⟨l9, c9⟩ := gteSigned_some h9
  obtain ⟨l10, c10⟩ := gteSigned_some h10
  obtain ⟨l11, c11⟩ := ltSigned_some h11
  have ne : ∀ {x y : Word}, x.toNat < y.toNat → x ≠ y := by
    rintro x y hh rfl; omega
  unfold covered
  refine LRel.cons ⟨l0.op, ?_⟩ (LRel.cons ⟨l1.op, ?_⟩ (LRel.cons ⟨l2.op, ?_⟩ (LRel.cons ⟨l3.op, ?_⟩ (LRel.cons ⟨l4.op, ?_⟩
    (LRel.cons ⟨l5.op, ?_⟩ (LRel.cons ⟨l6.op, ?_⟩ (LRel.cons ⟨l7.op, ?_⟩ (LRel.cons ⟨l8.op, ?_⟩ (LRel.cons ⟨l9.op, ?_⟩
    (LRel.cons ⟨l10.op, ?_⟩ (LRel.cons ⟨l11.op, ?_⟩ (LRel.cons ⟨rfl, ?_⟩ (LRel.cons ⟨rfl, ?_⟩ (LRel.cons ⟨rfl, ?_⟩
    LRel.nil))))))))))))))
  all_goals
    intro o t ho ht
    cases ho
    try cases ht
  · exact iff_of_true c0 rfl
  · exact iff_of_false (ne c1) (by decide)
  · exact iff_of_true (ne c2) rfl
  · exact iff_of_false (fun hh => hh c3) (by decide)
  · exact iff_of_true c4 rfl
  · exact iff_of_false (fun hh => absurd hh (by show ¬ _ < _; omega)) (by decide)
  · exact iff_of_true c6 rfl
  · exact iff_of_false (fun hh => absurd hh (by show ¬ _ ≤ _; omega)) (by decide)
  · exact iff_of_true c8 rfl
  · exact iff_of_false (fun hh => absurd hh (by show ¬ _ < _; omega)) (by decide)
  · exact iff_of_true c10 rfl
  · exact iff_of_false (fun hh => absurd hh (by show ¬ _ ≤ _; omega)) (by decide)

/-! ### tests/interpreters.rs: start -/

theorem alloc_total (B : Backend) (size : Nat) (hs : 0 < size) :
    ∃ m, Memory.alloc B 32 size = some m ∧ m.bits.length = 32 ∧ m.size = size := by
  unfold Memory.alloc
  rw [if_neg (by omega)]
  exact ⟨_, rfl, List.length_replicate, rfl⟩

theorem encrypt_total {B : Backend} (C : Cipher B) (rand : Nat → Nat → C.Rand) (m : Memory B) (data : List Word)
    (hb : m.bits.length = 32) (hd : data.length ≤ m.size) : ∃ m', m.encrypt C rand data = some m' := by
  unfold Memory.encrypt
  rw [hb, if_neg (by omega), if_pos (Nat.le_trans (Nat.div_le_self _ _) hd)]
  exact ⟨_, rfl⟩

/-- A parser accepts a list of words exactly if it accepts every one. -/
theorem addAll_accepts (dbg : Bool) (ws : List Word) :
    ∀ p : Parser, (p.addAll dbg ws).isSome = true ↔ ∀ w ∈ ws, Accepted w := by
  induction ws with
  | nil => simp [Parser.addAll]
  | cons w ws ih =>
    intro p
    have ha := C06_parser_accepts dbg p w
    simp only [Parser.addAll, List.mem_cons, forall_eq_or_imp]
    cases h : p.add dbg w with
    | none => simp [h] at ha; simp [ha]
    | some q => simp [h] at ha; simp [ha, ih q]

theorem testStart_runs {rand : Nat → Nat → Nat → F.C.Rand} {dbg : Bool} {romSize ramSize : Nat} {ws : List Word}
    {p : Parser} {vm : Interp F.B} (h : testStart rand dbg romSize ramSize ws = some (p, vm)) :
    ∃ ds vm', Parser.new.addAll dbg ws = some p ∧ ws.map (decodeWord dbg) = ds.map some ∧ ds.length ≤ romSize ∧
      Interp.Rel F.sim vm vm' ∧ Mirrors vm' (Debug.image romSize ramSize ds []) ∧ vm'.cycle = 0#32 ∧
      vm'.pc = 0#32 ∧ vm'.pcP = 0#32 := by
  unfold testStart at h
  obtain ⟨v0, h0, h⟩ := Option.bind_eq_some_iff.mp h
  obtain ⟨p', hp, h⟩ := Option.bind_eq_some_iff.mp h
  obtain ⟨v1, h1, h⟩ := Option.map_eq_some_iff.mp h
  obtain ⟨rfl, rfl⟩ := Prod.mk.inj h
  obtain ⟨ds, hd, hds⟩ := decodeProgram_words dbg ws p' hp
  have r0 := Interp.new_rel (F := F) romSize ramSize
  rw [h0] at r0
  obtain ⟨v0', e0, r0⟩ := r0.of_some_left
  have r1 := r0.encryptInstructions rand dbg p'
  rw [h1] at r1
  obtain ⟨v1', e1, r1⟩ := r1.of_some_left
  unfold Interp.new at e0
  obtain ⟨rom, a1, e0⟩ := Option.bind_eq_some_iff.mp e0
  obtain ⟨regs, a2, e0⟩ := Option.bind_eq_some_iff.mp e0
  obtain ⟨ram, a3, e0⟩ := Option.map_eq_some_iff.mp e0
  subst e0
  unfold Interp.encryptInstructions at e1
  split at e1
  · cases e1
  rename_i hlen
  rw [hd, Option.bind_some] at e1
  simp only at e1 hlen
  have hlen' : ds.length ≤ romSize := by rw [length_decodeProgram dbg p' ds hd]; omega
  obtain ⟨m1, s1, e1⟩ := Option.bind_eq_some_iff.mp e1
  obtain ⟨m2, s2, e1⟩ := Option.bind_eq_some_iff.mp e1
  obtain ⟨m3, s3, e1⟩ := Option.bind_eq_some_iff.mp e1
  obtain ⟨m4, s4, e1⟩ := Option.bind_eq_some_iff.mp e1
  obtain ⟨m5, s5, e1⟩ := Option.bind_eq_some_iff.mp e1
  obtain ⟨m6, s6, e1⟩ := Option.bind_eq_some_iff.mp e1
  obtain ⟨m7, s7, e1⟩ := Option.map_eq_some_iff.mp e1
  subst e1
  have col : ∀ {f : Decoded → BitVec 32} {m : Memory (plain F.B.logN F.lib)} {r : Nat → Nat → Unit},
      f Decoded.zero = 0#32 →
      rom.encrypt (plainCipher F.B.logN F.lib) r
        ((List.range romSize).map fun i => (ds[i]?).elim 0#32 f) = some m →
      m.Stores ((ds ++ List.replicate (romSize - ds.length) Decoded.zero).map f) := by
    intro f m r hf hm
    have := encrypt_column a1 hm (by simp)
    rwa [column_eq romSize ds hlen' f hf] at this
  have rl : romSize = (Debug.image romSize ramSize ds []).rom.length := by
    simp [Debug.image]; omega
  have al : ramSize = (Debug.image romSize ramSize ds []).ram.length := by
    simp [Debug.image]
  refine ⟨ds, _, hp, hds, hlen', r1, ⟨Nat.one_pos, congrArg bitsFor rl, congrArg bitsFor al, al, col rfl s4, col rfl s1,
    col rfl s2, col rfl s3, col rfl s5, col rfl s6, col rfl s7, Memory.alloc_stores _ _ a2, List.length_replicate, ?_,
    fun _ => ⟨rfl, Nat.two_pow_pos _⟩, fun h => absurd rfl h⟩, rfl, rfl, rfl⟩
  have := Memory.alloc_stores _ _ a3
  simpa [Debug.image] using this

/-- The start of the tests panics exactly when a memory is empty, a word is not accepted or the
program is too long. -/
theorem testStart_defined (rand : Nat → Nat → Nat → F.C.Rand) (dbg : Bool) (romSize ramSize : Nat) (ws : List Word) :
    (testStart rand dbg romSize ramSize ws).isSome = true ↔
      0 < romSize ∧ 0 < ramSize ∧ (∀ w ∈ ws, Accepted w) ∧ ws.length ≤ romSize := by
  unfold testStart
  by_cases hr : 0 < romSize
  case neg => simp [Interp.new, Memory.alloc, show romSize = 0 by omega]
  obtain ⟨rom, a1, b1, z1⟩ := alloc_total F.B romSize hr
  obtain ⟨regs, a2, b2, z2⟩ := alloc_total F.B 32 (by decide)
  by_cases ha : 0 < ramSize
  case neg => simp [Interp.new, a1, a2, Memory.alloc, show ramSize = 0 by omega]
  obtain ⟨ram, a3, b3, z3⟩ := alloc_total F.B ramSize ha
  unfold Interp.new
  rw [a1, Option.bind_some, a2, Option.bind_some, a3, Option.map_some, Option.bind_some]
  have hacc := addAll_accepts dbg ws Parser.new
  cases hp : Parser.new.addAll dbg ws with
  | none =>
    rw [hp] at hacc
    simp only [Option.isSome_none, Bool.false_eq_true, false_iff] at hacc
    simp [hacc]
  | some p =>
    rw [hp] at hacc
    simp only [Option.isSome_some, true_iff] at hacc
    obtain ⟨ds, hd, hds⟩ := decodeProgram_words dbg ws p hp
    have hl : p.instructions.length = ws.length := by
      rw [← length_decodeProgram dbg p ds hd]
      have := congrArg List.length hds
      simpa using this.symm
    rw [Option.bind_some]
    unfold Interp.encryptInstructions
    simp only
    rw [hl]
    by_cases hlen : romSize < ws.length
    · rw [if_pos hlen]; simp; omega
    · rw [if_neg hlen, hd, Option.bind_some]
      have enc : ∀ (r : Nat → Nat → F.C.Rand) (l : List Word), l.length = romSize →
          ∃ m, rom.encrypt F.C r l = some m := fun r l h => encrypt_total F.C r rom l b1 (by omega)
      have len : ∀ f : Decoded → Word, ((List.range romSize).map fun i => (ds[i]?).elim 0#32 f).length = romSize := by
        simp
      obtain ⟨m1, s1⟩ := enc (rand 0) _ (len Decoded.rs1)
      obtain ⟨m2, s2⟩ := enc (rand 1) _ (len Decoded.rs2)
      obtain ⟨m3, s3⟩ := enc (rand 2) _ (len Decoded.rd)
      obtain ⟨m4, s4⟩ := enc (rand 3) _ (len Decoded.imm)
      obtain ⟨m5, s5⟩ := enc (rand 4) _ (len Decoded.rdu)
      obtain ⟨m6, s6⟩ := enc (rand 5) _ (len Decoded.mu)
      obtain ⟨m7, s7⟩ := enc (rand 6) _ (len Decoded.pcu)
      rw [s1, Option.bind_some, s2, Option.bind_some, s3, Option.bind_some, s4, Option.bind_some, s5, Option.bind_some,
        s6, Option.bind_some, s7]
      simp
      exact ⟨hr, ha, hacc, by omega⟩

/-! ### Fetching -/

/-- The components fetched, whatever they are. -/
theorem fetch_components {vm : Interp F.B} {vm' : Interp (plain F.B.logN F.lib)} {d : Debug}
    (hr : Interp.Rel F.sim vm vm') (hm : Mirrors vm' d) (p : F.B.Prep) (pc : Word) (hp : F.Prepares p pc) (i : Decoded)
    (hi : d.rom[pc.toNat / 4]? = some i) :
    ∃ f, vm.fetch p = some f ∧ F.decU f.imm = i.imm ∧ F.decU f.rs1 = i.rs1 ∧ F.decU f.rs2 = i.rs2 ∧
      F.decU f.rd = i.rd ∧ F.decU f.rdu = i.rdu ∧ F.decU f.mu = i.mu ∧ F.decU f.pcu = i.pcu := by
  have get (f : Decoded → BitVec 32) : (d.rom.map f)[pc.toNat / 2 ^ 2]? = some (f i) := by
    rw [List.getElem?_map]; show Option.map f (d.rom[pc.toNat / 4]?) = _; rw [hi]; rfl
  have hb1 : bitsFor rdUpdateRv32iOpList.length = 5 := by decide +kernel
  have hb2 : bitsFor ramUpdateOpList.length = 2 := by decide +kernel
  have e : ∃ f', vm'.fetch pc = some f' ∧ f'.imm = i.imm ∧ f'.rs1 = i.rs1 ∧ f'.rs2 = i.rs2 ∧ f'.rd = i.rd ∧
      f'.rdu = i.rdu ∧ f'.mu = i.mu ∧ f'.pcu = i.pcu := by
    unfold Interp.fetch
    rw [hm.imm.readStateless vm'.threads hm.threads pc 2 i.imm (get _), Option.bind_some,
      hm.rdu.readStateless vm'.threads hm.threads pc 2 i.rdu (get _), Option.bind_some,
      hm.mu.readStateless vm'.threads hm.threads pc 2 i.mu (get _), Option.bind_some,
      hm.pcu.readStateless vm'.threads hm.threads pc 2 i.pcu (get _), Option.bind_some,
      hm.rs1.readStateless vm'.threads hm.threads pc 2 i.rs1 (get _), Option.bind_some,
      hm.rs2.readStateless vm'.threads hm.threads pc 2 i.rs2 (get _), Option.bind_some,
      hm.rd.readStateless vm'.threads hm.threads pc 2 i.rd (get _), Option.bind_some,
      hb1, hb2, prepareMultiple_eq _ vm'.threads hm.threads _ _ rfl (by decide) (by decide), Option.map_some]
    exact ⟨_, rfl, rfl, rfl, rfl, rfl, rfl, rfl, rfl⟩
  obtain ⟨f', e, e1, e2, e3, e4, e5, e6, e7⟩ := e
  have r := hr.fetch hp
  rw [e] at r
  obtain ⟨f, ef, rf⟩ := r.of_some
  have U : ∀ {u u' w}, F.sim.U u u' → u' = w → F.decU u = w := fun h e => by
    subst e; exact F.decU_sim _ _ h
  exact ⟨f, ef, U rf.imm e1, U rf.rs1 e2, U rf.rs2 e3, U rf.rd e4, U rf.rdu e5, U rf.mu e6, U rf.pcu e7⟩

/-- The comparison with instruction `idx` succeeds exactly if the components fetched are those of the
word `idx`. -/
theorem checkFetch_iff {dbg : Bool} {ws : List Word} {p : Parser} {ds : List Decoded}
    {vm : Interp F.B} {vm' : Interp (plain F.B.logN F.lib)} {romSize ramSize : Nat}
    (hp : Parser.new.addAll dbg ws = some p) (hds : ws.map (decodeWord dbg) = ds.map some)
    (hr : Interp.Rel F.sim vm vm') (hm : Mirrors vm' (Debug.image romSize ramSize ds [])) (idx : Nat)
    (q : F.B.Prep) (pc : Word) (hq : F.Prepares q pc) (i : Decoded)
    (hi : (Debug.image romSize ramSize ds []).rom[pc.toNat / 4]? = some i) :
    checkFetch dbg p vm idx q = some () ↔ ds[idx]? = some i := by
  obtain ⟨-, hraw, -, -⟩ := addAll_spec dbg ws Parser.new p ⟨rfl, rfl⟩ hp
  have hraw' : p.raw = ws := by simpa [Parser.new] using hraw
  obtain ⟨f, ef, f1, f2, f3, f4, f5, f6, f7⟩ := fetch_components hr hm q pc hq i hi
  have hget : ∀ n : Nat, (ws[n]?).map (decodeWord dbg) = (ds[n]?).map some := by
    intro n
    rw [← List.getElem?_map, ← List.getElem?_map, hds]
  have hn := hget idx
  unfold checkFetch Parser.getRaw
  rw [hraw']
  cases hw : ws[idx]? with
  | none =>
    rw [hw] at hn
    cases hdi : ds[idx]? with
    | none => simp
    | some x => rw [hdi] at hn; cases hn
  | some w =>
    rw [hw] at hn
    cases hdi : ds[idx]? with
    | none => rw [hdi] at hn; cases hn
    | some x =>
      rw [hdi] at hn
      have hx : decodeWord dbg w = some x := Option.some.inj hn
      unfold decodeWord at hx
      obtain ⟨imm, h1, hx⟩ := Option.bind_eq_some_iff.mp hx
      obtain ⟨r, h2, hx⟩ := Option.bind_eq_some_iff.mp hx
      obtain ⟨o, h3, hx⟩ := Option.map_eq_some_iff.mp hx
      rw [Option.bind_some, h1, Option.bind_some, h2, Option.bind_some, h3, Option.bind_some, ef, Option.bind_some,
        checkAll_iff]
      simp only [List.mem_cons, List.not_mem_nil, or_false, forall_eq_or_imp, forall_eq, assertEq_iff, f1, f2, f3, f4, f5,
        f6, f7, Option.some.injEq]
      rw [← hx]
      constructor
      · rintro ⟨a1, a2, a3, a4, a5, a6, a7⟩
        rw [a1, a2, a3, a4, a5, a6, a7]
      · intro hh
        rw [← hh]
        exact ⟨rfl, rfl, rfl, rfl, rfl, rfl, rfl⟩

/-- `test_interpreter_init_many_instructions` passes for exactly the programs of accepted words which
fit the program memory (at most 2^30 words, so that `idx << 2` is an address). -/
theorem C72_many (E : TestKey F) (rand : Nat → Nat → Nat → F.C.Rand) (dbg : Bool) (romSize ramSize : Nat)
    (ws : List Word) (hr : 0 < romSize) (ha : 0 < ramSize) (hl : romSize ≤ 2 ^ 30) :
    testManyInstructions E rand dbg romSize ramSize ws = some () ↔
      (∀ w ∈ ws, Accepted w) ∧ ws.length ≤ romSize := by
  have hdef := testStart_defined rand dbg romSize ramSize ws (F := F)
  unfold testManyInstructions
  cases h : testStart rand dbg romSize ramSize ws with
  | none =>
    rw [h] at hdef
    simp only [Option.isSome_none, Bool.false_eq_true, false_iff] at hdef
    simp only [Option.bind_none, reduceCtorEq, false_iff]
    exact fun hh => hdef ⟨hr, ha, hh⟩
  | some x =>
    obtain ⟨p, vm⟩ := x
    rw [h] at hdef
    simp only [Option.isSome_some, true_iff] at hdef
    obtain ⟨ds, vm', hp, hds, hlen, rel, mir, -, -, -⟩ := testStart_runs h
    have hdl : ds.length = ws.length := by
      have := congrArg List.length hds
      simpa using this.symm
    refine iff_of_true ?_ hdef.2.2
    rw [Option.bind_some, checkAll_iff]
    intro c hc
    obtain ⟨idx, hidx, rfl⟩ := List.mem_map.mp hc
    have hlt : idx < ws.length := List.mem_range.mp hidx
    have hpc : (BitVec.ofNat 32 (idx <<< 2)).toNat / 4 = idx := by
      rw [Nat.shiftLeft_eq, BitVec.toNat_ofNat]
      omega
    have hx : ds[idx]? = some ds[idx] := List.getElem?_eq_getElem (by omega)
    show checkFetch dbg p vm idx (E.prep idx (BitVec.ofNat 32 (idx <<< 2))) = some ()
    refine (checkFetch_iff hp hds rel mir idx _ _ (E.prep_sim idx _) ds[idx] ?_).mpr hx
    rw [hpc]
    show (ds ++ _)[idx]? = _
    rw [List.getElem?_append_left (by omega)]
    exact hx

/-- The test as it is in the crate. -/
theorem C72_many_crate (E : TestKey F) (rand : Nat → Nat → Nat → F.C.Rand) (dbg : Bool) :
    testManyInstructions E rand dbg 1024 1024 manyWords = some () := by
  refine (C72_many E rand dbg 1024 1024 manyWords (by omega) (by omega) (by omega)).mpr ⟨?_, by show 12 ≤ 1024; omega⟩
  intro w hw
  rw [← C06_accept_exact dbg w]
  have h1 : manyWords.all (fun w => (getOpid true w).isSome) = true := by decide +kernel
  have h2 : manyWords.all (fun w => (getOpid false w).isSome) = true := by decide +kernel
  cases dbg
  · exact List.all_eq_true.mp h2 w hw
  · exact List.all_eq_true.mp h1 w hw

/-- `test_interpreter_init_one_instruction` always looks at the first instruction: with index `idx` it
passes exactly if the instruction of that index has the components of the first one. -/
theorem C72_one (E : TestKey F) (rand : Nat → Nat → Nat → F.C.Rand) (dbg : Bool) (romSize ramSize : Nat)
    (ws : List Word) (idx : Nat) (hr : 0 < romSize) (ha : 0 < ramSize) :
    testOneInstruction E rand dbg romSize ramSize ws idx = some () ↔
      (∀ w ∈ ws, Accepted w) ∧ ws.length ≤ romSize ∧
        ∃ w w', ws[0]? = some w ∧ ws[idx]? = some w' ∧ decodeWord dbg w' = decodeWord dbg w := by
  have hdef := testStart_defined rand dbg romSize ramSize ws (F := F)
  unfold testOneInstruction
  cases h : testStart rand dbg romSize ramSize ws with
  | none =>
    rw [h] at hdef
    simp only [Option.isSome_none, Bool.false_eq_true, false_iff] at hdef
    simp only [Option.bind_none, reduceCtorEq, false_iff]
    exact fun hh => hdef ⟨hr, ha, hh.1, hh.2.1⟩
  | some x =>
    obtain ⟨p, vm⟩ := x
    rw [h] at hdef
    simp only [Option.isSome_some, true_iff] at hdef
    obtain ⟨ds, vm', hp, hds, hlen, rel, mir, -, -, hz⟩ := testStart_runs h
    have hget : ∀ n : Nat, (ws[n]?).map (decodeWord dbg) = (ds[n]?).map some := by
      intro n
      rw [← List.getElem?_map, ← List.getElem?_map, hds]
    have hpz : F.Prepares vm.pcP 0#32 := by
      have := rel.pcP
      rw [hz] at this
      exact this
    rw [Option.bind_some]
    show checkFetch dbg p vm idx vm.pcP = some () ↔ _
    have h0 := hget 0
    have hn := hget idx
    cases hd0 : ds[0]? with
    | none =>
      have hnil : ds = [] := List.eq_nil_of_length_eq_zero (by
        have := List.getElem?_eq_none_iff.mp hd0; omega)
      subst hnil
      have hw : ws = [] := by simpa using hds
      subst hw
      refine iff_of_false ?_ (by simp)
      unfold checkFetch Parser.getRaw
      obtain ⟨-, hraw, -, -⟩ := addAll_spec dbg [] Parser.new p ⟨rfl, rfl⟩ hp
      have hraw' : p.raw = [] := by simpa [Parser.new] using hraw
      rw [hraw']
      simp
    | some i =>
      rw [checkFetch_iff hp hds rel mir idx _ 0#32 hpz i (by
        show (ds ++ _)[0]? = _
        rw [List.getElem?_append_left (List.getElem?_eq_some_iff.mp hd0).1]
        exact hd0)]
      rw [hd0] at h0
      cases hw0 : ws[0]? with
      | none => rw [hw0] at h0; cases h0
      | some w =>
        rw [hw0] at h0
        have e0 : decodeWord dbg w = some i := Option.some.inj h0
        cases hwn : ws[idx]? with
        | none =>
          rw [hwn] at hn
          cases hdn : ds[idx]? with
          | some x => rw [hdn] at hn; cases hn
          | none => simp
        | some w' =>
          rw [hwn] at hn
          cases hdn : ds[idx]? with
          | none => rw [hdn] at hn; cases hn
          | some x =>
            rw [hdn] at hn
            have en : decodeWord dbg w' = some x := Option.some.inj hn
            constructor
            · intro hh
              exact ⟨hdef.2.2.1, hdef.2.2.2, w, w', rfl, rfl, by rw [en, e0]; exact hh⟩
            · rintro ⟨-, -, a, b, ea, eb, hh⟩
              cases ea
              cases eb
              rw [← en, hh, e0]

/-- The test as it is in the crate. -/
theorem C72_one_crate (E : TestKey F) (rand : Nat → Nat → Nat → F.C.Rand) (dbg : Bool) :
    testOneInstruction E rand dbg 1024 1024 [258455#32] 0 = some () := by
  refine (C72_one E rand dbg 1024 1024 _ 0 (by omega) (by omega)).mpr ⟨?_, by show 1 ≤ 1024; omega, _, _, rfl, rfl, rfl⟩
  intro w hw
  rw [← C06_accept_exact dbg w, List.mem_singleton.mp hw]
  cases dbg <;> decide +kernel

/-! ### All operations on random words -/

theorem op_check (E : TestKey F) (imm rs1 rs2 pc ram : Word) (o : RdUpdate) (ho : o ∈ rdUpdateRv32iOpList) :
    opCheck E imm rs1 rs2 pc ram o = some () ↔ (o = .LB → ram.getLsbD 7 = false) := by
  have r := evalEnc_rel F.sim o (E.prep_sim 0 rs1) (E.prep_sim 1 rs2) (E.prep_sim 2 imm) (E.prep_sim 3 pc)
    (F.encU_sim (E.rand 0) ram)
  rw [evalEnc_plain o ho] at r
  obtain ⟨v, hv⟩ := rv32i_plain_total o ho imm rs1 rs2 pc ram
  unfold opCheck
  by_cases hlb : o = .LB
  · subst hlb
    rw [if_pos rfl] at r
    obtain ⟨u, e, hu⟩ := r.of_some
    rw [e, Option.bind_some, F.decU_sim u _ hu]
    have ev : RdUpdate.evalPlain .LB imm rs1 rs2 pc ram = some ((ram.setWidth 8).signExtend 32) := sext7 ram
    rw [ev, Option.bind_some, assertEq_iff]
    constructor
    · intro hh _
      have := congrArg (fun z => z.getLsbD 8) hh
      simpa [BitVec.getLsbD_signExtend, BitVec.msb_eq_getLsbD_last, -BitVec.getLsbD_eq_getElem] using this.symm
    · intro hh
      have h7 := hh rfl
      exact (byte_positive ram h7).symm
  · rw [if_neg hlb, hv] at r
    obtain ⟨u, e, hu⟩ := r.of_some
    rw [e, Option.bind_some, F.decU_sim u _ hu, hv, Option.bind_some, assertEq_self]
    simp [hlb]

/-- A new interpreter is in the state of a zero program, RAM and registers. -/
theorem new_mirrors (romSize ramSize : Nat) (hr : 0 < romSize) (ha : 0 < ramSize) :
    ∃ (vm : Interp F.B) (vm' : Interp (plain F.B.logN F.lib)), Interp.new F.B romSize ramSize = some vm ∧
      Interp.Rel F.sim vm vm' ∧ Mirrors vm' (Debug.image romSize ramSize [] []) ∧ vm'.pcP = 0#32 := by
  obtain ⟨rom, a1, b1, z1⟩ := alloc_total (plain F.B.logN F.lib) romSize hr
  obtain ⟨regs, a2, b2, z2⟩ := alloc_total (plain F.B.logN F.lib) 32 (by decide)
  obtain ⟨ram, a3, b3, z3⟩ := alloc_total (plain F.B.logN F.lib) ramSize ha
  have r := Interp.new_rel (F := F) romSize ramSize
  have e : Interp.new (plain F.B.logN F.lib) romSize ramSize = some
      { cycle := 0#32, threads := 1, romSize := romSize, ramSize := ramSize
        romBits := bitsFor romSize, ramBits := bitsFor ramSize
        immRom := rom, rs1Rom := rom, rs2Rom := rom, rdRom := rom, rduRom := rom, muRom := rom
        pcuRom := rom, registers := regs, ram := ram, pc := 0#32, pcP := 0#32 } := by
    unfold Interp.new
    rw [a1, Option.bind_some, a2, Option.bind_some, a3]
    rfl
  rw [e] at r
  obtain ⟨vm, ev, rv⟩ := r.of_some
  have hrom : ∀ f : Decoded → Word, f Decoded.zero = 0#32 →
      rom.Stores ((Debug.image romSize ramSize [] []).rom.map f) := by
    intro f hf
    have := Memory.alloc_stores _ _ a1
    simpa [Debug.image, hf] using this
  refine ⟨vm, _, ev, rv, ⟨Nat.one_pos, ?_, ?_, ?_, hrom _ rfl, hrom _ rfl, hrom _ rfl, hrom _ rfl, hrom _ rfl, hrom _ rfl,
    hrom _ rfl, Memory.alloc_stores _ _ a2, List.length_replicate, ?_, fun _ => ⟨rfl, Nat.two_pow_pos _⟩,
    fun h => absurd rfl h⟩, rfl⟩
  · simp [Debug.image]
  · simp [Debug.image]
  · simp [Debug.image]
  · have := Memory.alloc_stores _ _ a3
    simpa [Debug.image] using this

/-- `test_interpreter_init_one_op` passes exactly if the low byte of the word drawn for the RAM is
below 128: the encrypted `LB` does not extend the sign, `eval_plain` does. -/
theorem C72_one_op (E : TestKey F) (romSize ramSize : Nat) (hr : 0 < romSize) (ha : 0 < ramSize)
    (imm rs1 rs2 pc ram : Word) :
    testOneOp E romSize ramSize imm rs1 rs2 pc ram = some () ↔ ram.toNat % 256 < 128 := by
  obtain ⟨vm, vm', e, rel, mir, hz⟩ := new_mirrors (F := F) romSize ramSize hr ha
  have hpz : F.Prepares vm.pcP 0#32 := by
    have := rel.pcP
    rw [hz] at this
    exact this
  obtain ⟨f, ef, -⟩ := fetch_components rel mir vm.pcP 0#32 hpz Decoded.zero (by
    show (List.replicate romSize Decoded.zero)[0]? = _
    rw [List.getElem?_replicate, if_pos hr])
  have h7 : ram.getLsbD 7 = false ↔ ram.toNat % 256 < 128 := by
    rw [← BitVec.testBit_toNat, Nat.testBit_eq_decide_div_mod_eq]
    simp only [decide_eq_false_iff_not]
    omega
  unfold testOneOp
  rw [e, Option.bind_some, ef, Option.bind_some, checkAll_iff, ← h7]
  constructor
  · intro h
    have hm : RdUpdate.LB ∈ rdUpdateRv32iOpList := by decide
    exact (op_check E imm rs1 rs2 pc ram .LB hm).mp (h _ (List.mem_map_of_mem hm)) rfl
  · intro h c hc
    obtain ⟨o, ho, rfl⟩ := List.mem_map.mp hc
    exact (op_check E imm rs1 rs2 pc ram o ho).mpr fun _ => h

/-! ### A cycle -/

/-- `test_interpreter_cycle_single_instruction_noop`, for any program with a meaning (`Spec.cycle`) from
zero RAM and registers: it passes exactly if the program counter expected is the right one. -/
theorem C72_cycle (E : TestKey F) (rand : Nat → Nat → Nat → F.C.Rand) (dbg : Bool)
    (romSize ramSize threads : Nat) (ht : 0 < threads) (hr : 0 < romSize) (ha : 0 < ramSize) (ws : List Word)
    (hacc : ∀ w ∈ ws, Accepted w) (hl : ws.length ≤ romSize) (ds : List Decoded)
    (hds : ws.map (decodeWord dbg) = ds.map some) (d2 : Debug)
    (hc : Spec.cycle (Debug.image romSize ramSize ds []) = some d2) (want : Word) :
    testCycle E rand dbg romSize ramSize threads ws want = some () ↔ d2.pc = want := by
  obtain ⟨⟨p, vm⟩, h⟩ := Option.isSome_iff_exists.mp
    ((testStart_defined (F := F) rand dbg romSize ramSize ws).mpr ⟨hr, ha, hacc, hl⟩)
  obtain ⟨ds', vm', -, hds', -, rel, mir, hcy, hpc, -⟩ := testStart_runs h
  have hdd : ds' = ds := (List.map_inj_right fun _ _ h => Option.some.inj h).mp (hds'.symm.trans hds)
  subst hdd
  have runs : F.Runs { vm with pc := F.encU (E.rand 0) 0#32, threads := threads }
      (Debug.image romSize ramSize ds' []) := by
    refine ⟨{ vm' with threads := threads }, ⟨rel.cycle, rfl, rel.romSize, rel.ramSize, rel.romBits, rel.ramBits,
      rel.immRom, rel.rs1Rom, rel.rs2Rom, rel.rdRom, rel.rduRom, rel.muRom, rel.pcuRom, rel.registers, rel.ram, ?_,
      rel.pcP⟩, ⟨ht, mir.romBits, mir.ramBits, mir.ramSize, mir.imm, mir.rs1, mir.rs2, mir.rd, mir.rdu, mir.mu, mir.pcu,
      mir.registers, mir.regs, mir.ram, mir.pc0, mir.pc⟩⟩
    show F.sim.U (F.encU (E.rand 0) 0#32) vm'.pc
    rw [hpc]
    exact F.encU_sim _ _
  have hvc : vm.cycle = 0#32 := rel.cycle.trans hcy
  obtain ⟨vm2, e2, r2, c2⟩ := runs.step hc (by
    show vm.cycle ≠ _
    rw [hvc]; decide)
  have hobs := (C29_observe F vm2 d2 r2).2.2.1 (by
    rw [c2]
    show vm.cycle + 1#32 ≠ 0#32
    rw [hvc]; decide)
  unfold testCycle
  rw [h, Option.bind_some]
  simp only
  rw [e2, Option.bind_some, assertEq_iff, hobs]

/-- Components of an ECALL. -/
def ecallDecoded : Decoded := ⟨0#32, 0#32, 0#32, 0#32, 0#32, 0#32, 1#32⟩

/-- The test as it is in the crate: an ECALL moves the program counter by four. -/
theorem C72_cycle_crate (E : TestKey F) (rand : Nat → Nat → Nat → F.C.Rand) (dbg : Bool) :
    testCycle E rand dbg 1024 1024 16 [0x73#32, 0x73#32] 4#32 = some () := by
  have hd : decodeWord dbg 0x73#32 = some (ecallDecoded) := by cases dbg <;> decide +kernel
  have hc : (Spec.cycle (Debug.image 1024 1024 [ecallDecoded, ecallDecoded] [])).map (·.pc) = some 4#32 := by
    decide +kernel
  obtain ⟨d2, h2, h3⟩ := Option.map_eq_some_iff.mp hc
  refine (C72_cycle E rand dbg 1024 1024 16 (by omega) (by omega) (by omega) _ ?_ (by show 2 ≤ 1024; omega)
    [ecallDecoded, ecallDecoded] (by simp only [List.map_cons, List.map_nil, hd]) d2 h2 4#32).mpr h3
  intro w hw
  have hw : w = 0x73#32 := by simpa using hw
  rw [← C06_accept_exact dbg w, hw]
  cases dbg <;> decide +kernel

/-! ### The tests as calls -/

/-- Encryptions of the sample library. -/
def sampleKey : TestKey sampleFhe where
  prep := fun _ w => w
  prep_sim := fun _ _ => rfl
  rand := fun _ => ()

/-- They run, and what they check can fail. -/
example : testFheRam sampleKey (fun _ _ => ()) 4 [0#32, 1#32, 2#32, 3#32] 2#32 77#32 = some () := by
  decide +kernel

example : testOneOp sampleKey 2 2 1#32 2#32 3#32 4#32 0x7f#32 = some () ∧
    testOneOp sampleKey 2 2 1#32 2#32 3#32 4#32 0x80#32 = none := by
  refine ⟨(C72_one_op sampleKey 2 2 (by decide) (by decide) _ _ _ _ _).mpr (by decide), ?_⟩
  have := mt (C72_one_op sampleKey 2 2 (by decide) (by decide) 1#32 2#32 3#32 4#32 0x80#32).mp (by decide)
  cases h : testOneOp sampleKey 2 2 1#32 2#32 3#32 4#32 0x80#32 with
  | none => rfl
  | some u => exact absurd h this

example : testManyInstructions sampleKey (fun _ _ _ => ()) true 4 4 [0x33#32, 0x13#32, 0xffffffff#32] = none := by
  decide +kernel

example : testOneInstruction sampleKey (fun _ _ _ => ()) true 4 4 [0x33#32, 0x13#32] 1 ≠ some () ∧
    testOneInstruction sampleKey (fun _ _ _ => ()) true 4 4 [0x33#32, 0x33#32] 1 = some () := by
  decide +kernel

/-- A wrong expectation of the program counter is noticed. -/
example : testCycle sampleKey (fun _ _ _ => ()) true 2 2 3 [0x73#32] 8#32 = none := by
  decide +kernel

end Verif.Props
