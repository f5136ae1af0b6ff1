import Verif.Props.Amm
/-
  C88, continued: the guest of the template and guest-test1 in machine code, which call a subroutine for multiplication,
  as compiled guests call `__mulsi3`.
-/
namespace Verif.Props
open Model Spec

/-- `x10 = x10 * x11`, using x12 and x13; the return address is in x1. -/
def mulsi3 : List Instr :=
  [ .op .add 12 10 0            -- 0  x12 = x10
  , .opImm .addi 10 0 0         -- 1  x10 = 0
  , .branch .beq 12 0 14        -- 2  if x12 = 0 goto 9
  , .opImm .andi 13 12 1        -- 3
  , .branch .beq 13 0 4         -- 4  if x12 is even goto 6
  , .op .add 10 10 11           -- 5
  , .shImm .srli 12 12 1        -- 6
  , .shImm .slli 11 11 1        -- 7
  , .jal 0 (-12)                -- 8  goto 2
  , .jalr 0 1 0 ]               -- 9  return

/-- The subroutine is at number `b`. -/
def HasMul (code : List Instr) (b : Nat) : Prop := ∀ i, i < 10 → code[b + i]? = mulsi3[i]?

theorem at_fwd (d : Word) (a j : Nat) (hd : d = BitVec.ofNat 32 (4 * j)) :
    BitVec.ofNat 32 (4 * a) + d = BitVec.ofNat 32 (4 * (a + j)) := by
  rw [hd, ← BitVec.ofNat_add, ← Nat.mul_add]

theorem at_back (d : Word) (a j : Nat) (hd : d + BitVec.ofNat 32 (4 * j) = 0#32) :
    BitVec.ofNat 32 (4 * (a + j)) + d = BitVec.ofNat 32 (4 * a) := by
  rw [Nat.mul_add, BitVec.ofNat_add, BitVec.add_assoc, BitVec.add_comm _ d, hd, BitVec.add_zero]

section
variable {code : List Instr} {b r N : Nat} {m M : Word → Byte}

/-- The loop of the subroutine. -/
theorem mul_loop (h : HasMul code b) (hb : b + 10 ≤ 100) : ∀ (f : Nat) (x : Reg → Word), (x 12).toNat < 2 ^ f →
    x 1 = BitVec.ofNat 32 (4 * r) →
    (∀ y : Reg → Word, (∀ q, q ≠ 10 → q ≠ 11 → q ≠ 12 → q ≠ 13 → y q = x q) → y 10 = x 10 + x 12 * x 11 →
      Ends code N (St r y m) M) → Ends code (N + 7 * f + 2) (St (b + 2) x m) M := by
  have c2 : code[b + 2]? = some (.branch .beq 12 0 14) := h 2 (by decide)
  have c3 : code[b + 3]? = some (.opImm .andi 13 12 1) := h 3 (by decide)
  have c4 : code[b + 4]? = some (.branch .beq 13 0 4) := h 4 (by decide)
  have c5 : code[b + 5]? = some (.op .add 10 10 11) := h 5 (by decide)
  have c6 : code[b + 6]? = some (.shImm .srli 12 12 1) := h 6 (by decide)
  have c7 : code[b + 7]? = some (.shImm .slli 11 11 1) := h 7 (by decide)
  have c8 : code[b + 8]? = some (.jal 0 (-12)) := h 8 (by decide)
  have c9 : code[b + 9]? = some (.jalr 0 1 0) := h 9 (by decide)
  have exit : ∀ x : Reg → Word, x 12 = 0#32 → x 1 = BitVec.ofNat 32 (4 * r) →
      (∀ y : Reg → Word, (∀ q, q ≠ 10 → q ≠ 11 → q ≠ 12 → q ≠ 13 → y q = x q) → y 10 = x 10 + x 12 * x 11 →
        Ends code N (St r y m) M) → Ends code (N + 1) (St (b + 9) x m) M := by
    intro x h0 h1 hK
    exact .ret 1 r c9 (by omega) h1 (hK x (fun _ _ _ _ _ => rfl) (by rw [h0, BitVec.zero_mul, BitVec.add_zero]))
  intro f
  induction f with
  | zero =>
    intro x h0 h1 hK
    have h0 : x 12 = 0#32 := BitVec.eq_of_toNat_eq (by simp at h0 ⊢; omega)
    exact .branch .beq 12 0 14 (b + 9) c2 (by omega) (at_fwd _ (b + 2) 7 (by decide)) (fun _ => exit x h0 h1 hK)
      (fun h => absurd h0 h)
  | succ f ih =>
    intro x hf h1 hK
    have half : (ShiftOp.eval .srli (x 12) 1).toNat < 2 ^ f := by
      rw [Nat.pow_succ] at hf
      rw [srli_nat]; omega
    refine .branch .beq 12 0 14 (b + 9) c2 (by omega) (at_fwd _ (b + 2) 7 (by decide)) (fun h0 => ?_) (fun h0 => ?_)
    · exact (exit x h0 h1 hK).mono (by omega)
    · refine Ends.mono (N := N + 7 * f + 2 + 5 + 1) ?_ (by omega)
      refine .opImm .andi 13 12 1 c3 (by omega) ?_
      refine .branch .beq 13 0 4 (b + 6) c4 (by omega) (at_fwd _ (b + 4) 2 (by decide)) (fun hp => ?_) (fun hp => ?_)
      · have hp : x 12 &&& 1#32 = 0#32 := hp
        refine Ends.mono (N := N + 7 * f + 2 + 1 + 1 + 1) ?_ (by omega)
        refine .shImm .srli 12 12 1 c6 (by omega) (.shImm .slli 11 11 1 c7 (by omega)
          (.goto (-12) (b + 2) c8 (by omega) (at_back _ (b + 2) 6 (by decide)) (ih _ half h1 fun y hy h10 => hK y ?_ ?_)))
        · intro q h1 h2 h3 h4
          rw [hy q h1 h2 h3 h4]
          simp only [rset_def, h2, h3, h4, false_and, if_false]
        · rw [h10, ← mul_round (x 12) (x 11), if_pos hp, BitVec.add_zero]
          rfl
      · have hp : ¬ x 12 &&& 1#32 = 0#32 := hp
        refine .op .add 10 10 11 c5 (by omega) (.shImm .srli 12 12 1 c6 (by omega) (.shImm .slli 11 11 1 c7 (by omega)
          (.goto (-12) (b + 2) c8 (by omega) (at_back _ (b + 2) 6 (by decide)) (ih _ half h1 fun y hy h10 => hK y ?_ ?_))))
        · intro q h1 h2 h3 h4
          rw [hy q h1 h2 h3 h4]
          simp only [rset_def, h1, h2, h3, h4, false_and, if_false]
        · rw [h10, ← mul_round (x 12) (x 11), if_neg hp, ← add_val (x 10)]
          rfl

/-- A call. -/
theorem mul_call (h : HasMul code b) (hb : b + 10 ≤ 100) (x : Reg → Word) (h1 : x 1 = BitVec.ofNat 32 (4 * r))
    (hK : ∀ y : Reg → Word, (∀ q, q ≠ 10 → q ≠ 11 → q ≠ 12 → q ≠ 13 → y q = x q) → y 10 = x 10 * x 11 →
      Ends code N (St r y m) M) : Ends code (N + 228) (St b x m) M := by
  refine .op .add 12 10 0 (h 0 (by decide)) (by omega) (.opImm .addi 10 0 0 (h 1 (by decide)) (by omega) ?_)
  refine mul_loop h hb 32 _ (BitVec.isLt _) h1 fun y hy h10 => hK y ?_ ?_
  · intro q h1 h2 h3 h4
    rw [hy q h1 h2 h3 h4]
    simp only [rset_def, h1, h3, false_and, if_false]
  · rw [h10]
    show ImmOp.eval .addi 0#32 (immI 0) + RegOp.eval .add (x 10) 0#32 * x 11 = _
    rw [add_val, BitVec.add_zero, show ImmOp.eval .addi 0#32 (immI 0) = 0#32 by decide, BitVec.zero_add]

end

/-! ### The template -/

/-- `main` of the template: the point at 0x40000, the result at 0x40004, the coefficients at 0x40008. -/
def poly : List Instr :=
  [ .lui 2 0x40                 --  0  x2 = 0x40000
  , .load .lw 5 2 0             --  1  x5 = point
  , .opImm .addi 6 2 8          --  2  x6 = first coefficient
  , .opImm .addi 7 2 36         --  3  x7 = end of the coefficients
  , .opImm .addi 8 0 0          --  4  x8 = 0
  , .opImm .addi 9 0 1          --  5  x9 = 1
  , .branch .beq 6 7 22         --  6  if x6 = x7 goto 17
  , .load .lw 10 6 0            --  7  x10 = coefficient
  , .op .add 11 9 0             --  8  x11 = x9
  , .jal 1 20                   --  9  x10 = x10 * x11
  , .op .add 8 8 10             -- 10  x8 += x10
  , .op .add 10 9 0             -- 11  x10 = x9
  , .op .add 11 5 0             -- 12  x11 = x5
  , .jal 1 12                   -- 13  x10 = x10 * x11
  , .op .add 9 10 0             -- 14  x9 = x10
  , .opImm .addi 6 6 4          -- 15  next coefficient
  , .jal 0 (-20)                -- 16  goto 6
  , .store .sw 2 8 4            -- 17  result
  , .jal 0 0 ]                  -- 18  stop
  ++ mulsi3                     -- 19

theorem poly_mul : HasMul poly 19 := by unfold HasMul; decide

/-- Without overflow checks the source does not panic. -/
theorem poly_total (p : Word) (cs : List Word) : ∀ a b : Word, ∃ v, Guest.polyLoop false p cs a b = some v := by
  induction cs with
  | nil => exact fun a _ => ⟨a, rfl⟩
  | cons c cs ih => exact fun a b => ih _ _

/-- The loop, with the coefficients `cs` to go, the first at offset `o`. -/
theorem poly_loop (m : Word → Byte) (p : Word) : ∀ (cs : List Word) (o : Nat) (x : Reg → Word), o + 4 * cs.length = 36 → o % 4 = 0 →
    x 2 = 0x40000#32 → x 5 = p → x 6 = BitVec.ofNat 32 (ramBase + o) → x 7 = BitVec.ofNat 32 (ramBase + 36) →
    (∀ j, j < cs.length → LoadOp.eval .lw m (BitVec.ofNat 32 (ramBase + (o + 4 * j))) = cs.getD j 0#32) →
    ∃ v, Guest.polyLoop false p cs (x 8) (x 9) = some v ∧
      Ends poly (467 * cs.length + 2) (St 6 x m) (storeBytes m (BitVec.ofNat 32 (ramBase + 4)) v 4) := by
  intro cs
  induction cs with
  | nil =>
    intro o x ho h4 h2 h5 h6 h7 hc
    refine ⟨x 8, rfl, ?_⟩
    have ho : o = 36 := by simpa using ho
    refine .branch .beq 6 7 22 17 rfl (by decide) (by decide) (fun _ => ?_) (fun h => absurd (show x 6 = x 7 by rw [h6, h7, ho]) h)
    refine .sw 2 8 4 4 rfl (by decide) ?_ (by decide) (by decide) (Ends.stop rfl (by decide))
    show x 2 + immI 4 = _
    rw [h2]; decide
  | cons c cs ih =>
    intro o x ho h4 h2 h5 h6 h7 hc
    have ho' : o + 4 + 4 * cs.length = 36 := by rw [List.length_cons] at ho; omega
    obtain ⟨v, hv⟩ := poly_total p cs (x 8 + c * x 9) (x 9 * p)
    refine ⟨v, hv, ?_⟩
    have hne : x 6 ≠ x 7 := by
      rw [h6, h7]
      intro he
      have := congrArg BitVec.toNat he
      rw [BitVec.toNat_ofNat, BitVec.toNat_ofNat] at this
      unfold ramBase at this
      omega
    refine Ends.mono (N := 467 * cs.length + 2 + 1 + 1 + 1 + 228 + 1 + 1 + 1 + 1 + 228 + 1 + 1 + 1 + 1) ?_ (by rw [List.length_cons]; omega)
    refine .branch .beq 6 7 22 17 rfl (by decide) (by decide) (fun h => absurd h hne) (fun _ => ?_)
    refine .load .lw 10 6 0 o rfl (by decide) ?_ h4 (by omega) (.op .add 11 9 0 rfl (by decide) (.jal 1 20 19 rfl (by decide) (by decide) ?_))
    · show x 6 + immI 0 = _
      rw [h6, show immI 0 = 0#32 from by decide, BitVec.add_zero]
    refine mul_call poly_mul (by decide) (r := 10) _ rfl fun y hy h10 => ?_
    have y10 : y 10 = c * x 9 := by
      rw [h10]
      show LoadOp.eval .lw m (BitVec.ofNat 32 (ramBase + o)) * RegOp.eval .add (x 9) 0#32 = _
      rw [add_val, BitVec.add_zero, ← Nat.add_zero o]
      have := hc 0 (by rw [List.length_cons]; omega)
      rw [Nat.mul_zero] at this
      rw [this]; rfl
    have y2 : y 2 = x 2 := by rw [hy 2 (by decide) (by decide) (by decide) (by decide)]; rfl
    have y5 : y 5 = x 5 := by rw [hy 5 (by decide) (by decide) (by decide) (by decide)]; rfl
    have y6 : y 6 = x 6 := by rw [hy 6 (by decide) (by decide) (by decide) (by decide)]; rfl
    have y7 : y 7 = x 7 := by rw [hy 7 (by decide) (by decide) (by decide) (by decide)]; rfl
    have y8 : y 8 = x 8 := by rw [hy 8 (by decide) (by decide) (by decide) (by decide)]; rfl
    have y9 : y 9 = x 9 := by rw [hy 9 (by decide) (by decide) (by decide) (by decide)]; rfl
    clear hy h10
    refine .op .add 8 8 10 rfl (by decide) (.op .add 10 9 0 rfl (by decide) (.op .add 11 5 0 rfl (by decide)
      (.jal 1 12 19 rfl (by decide) (by decide) ?_)))
    refine mul_call poly_mul (by decide) (r := 14) _ rfl fun z hz h10 => ?_
    have z10 : z 10 = x 9 * p := by
      rw [h10]
      show RegOp.eval .add (y 9) 0#32 * RegOp.eval .add (y 5) 0#32 = _
      rw [add_val, add_val, BitVec.add_zero, BitVec.add_zero, y9, y5, h5]
    have z2 : z 2 = x 2 := by rw [hz 2 (by decide) (by decide) (by decide) (by decide), ← y2]; rfl
    have z5 : z 5 = x 5 := by rw [hz 5 (by decide) (by decide) (by decide) (by decide), ← y5]; rfl
    have z6 : z 6 = x 6 := by rw [hz 6 (by decide) (by decide) (by decide) (by decide), ← y6]; rfl
    have z7 : z 7 = x 7 := by rw [hz 7 (by decide) (by decide) (by decide) (by decide), ← y7]; rfl
    have z8 : z 8 = x 8 + c * x 9 := by
      rw [hz 8 (by decide) (by decide) (by decide) (by decide), ← y8, ← y10, ← add_val]; rfl
    clear hz h10 y2 y5 y6 y7 y8 y9 y10
    refine .op .add 9 10 0 rfl (by decide) (.opImm .addi 6 6 4 rfl (by decide) (.goto (-20) 6 rfl (by decide) (by decide) ?_))
    generalize hw : rset _ 6 _ = w
    have w9 : w 9 = x 9 * p := by
      rw [← hw]; show RegOp.eval .add (z 10) 0#32 = _; rw [add_val, BitVec.add_zero, z10]
    have w8 : w 8 = x 8 + c * x 9 := by rw [← hw]; exact z8
    have w6 : w 6 = BitVec.ofNat 32 (ramBase + (o + 4)) := by
      rw [← hw]; show ImmOp.eval .addi (z 6) (immI 4) = _
      rw [addi_val, z6, h6, show immI 4 = BitVec.ofNat 32 4 from by decide, ← BitVec.ofNat_add, Nat.add_assoc]
    obtain ⟨v', hv', hE⟩ := ih (o + 4) w ho' (by omega) (by rw [← hw]; exact z2.trans h2) (by rw [← hw]; exact z5.trans h5) w6
      (by rw [← hw]; exact z7.trans h7) (fun j hj => by
        have := hc (j + 1) (by rw [List.length_cons]; omega)
        rw [show o + 4 * (j + 1) = o + 4 + 4 * j by omega] at this
        exact this)
    rw [w8, w9, hv] at hv'
    rw [Option.some.inj hv']
    exact hE

/-- Input and output, then the coefficients. -/
def polyData : List Byte := List.replicate 8 0#8 ++ Guest.coefficients.flatMap Guest.putWord

/-- The template in machine code. -/
abbrev polyImage : Phantom := asmImage poly polyData 4 4 4

/-- A word of the data. -/
theorem data_word (data tape : List Byte) (o : Nat) (ho : tape.length ≤ o) (hl : o + 4 ≤ 4096) :
    LoadOp.eval .lw (startState (asmRam data tape)).mem (BitVec.ofNat 32 (ramBase + o)) = Guest.getWord data o := by
  have e : Guest.getWord data o = Guest.getWord [data.getD o 0, data.getD (o + 1) 0, data.getD (o + 2) 0, data.getD (o + 3) 0] 0 := rfl
  rw [e, word_of]
  show BitVec.ofNat 32 (leValue _ _ 4) = _
  have l : ∀ (m : Word → Byte) (a : Word), leValue m a 4 = (m a).toNat + 256 * ((m (a + 1#32)).toNat + 256 * ((m (a + 2#32)).toNat +
      256 * (m (a + 3#32)).toNat)) := by
    intro m a
    simp only [leValue, Nat.mul_zero, Nat.add_zero, BitVec.add_assoc]
    rfl
  rw [l]
  rw [show (1#32) = BitVec.ofNat 32 1 from rfl, show (2#32) = BitVec.ofNat 32 2 from rfl, show (3#32) = BitVec.ofNat 32 3 from rfl,
    ← BitVec.ofNat_add, ← BitVec.ofNat_add, ← BitVec.ofNat_add, Nat.add_assoc, Nat.add_assoc, Nat.add_assoc,
    asm_data data tape _ (by omega) (by omega), asm_data data tape _ (by omega) (by omega), asm_data data tape _ (by omega) (by omega),
    asm_data data tape _ (by omega) (by omega)]
  rfl

/-- The whole of it, whatever is in the registers. -/
theorem poly_run (x : Reg → Word) (m : Word → Byte) (p : Word) (hp : LoadOp.eval .lw m (BitVec.ofNat 32 (ramBase + 0)) = p)
    (hc : ∀ j, j < Guest.coefficients.length →
      LoadOp.eval .lw m (BitVec.ofNat 32 (ramBase + (8 + 4 * j))) = Guest.coefficients.getD j 0#32) :
    ∃ v, Guest.polyLoop false p Guest.coefficients 0#32 1#32 = some v ∧
      Ends poly 3277 (St 0 x m) (storeBytes m (BitVec.ofNat 32 (ramBase + 4)) v 4) := by
  obtain ⟨v, hv, hE⟩ := poly_loop m p Guest.coefficients 8
    (rset (rset (rset (rset (rset (rset x 2 0x40000#32) 5 (LoadOp.eval .lw m (BitVec.ofNat 32 (ramBase + 0)))) 6
      (ImmOp.eval .addi 0x40000#32 (immI 8))) 7 (ImmOp.eval .addi 0x40000#32 (immI 36))) 8 (ImmOp.eval .addi 0#32 (immI 0))) 9
      (ImmOp.eval .addi 0#32 (immI 1))) (by decide) (by decide) rfl hp rfl rfl hc
  exact ⟨v, hv, .lui 2 0x40 rfl (by decide) (.load .lw 5 2 0 0 rfl (by decide) rfl (by decide) (by decide)
    (.opImm .addi 6 2 8 rfl (by decide) (.opImm .addi 7 2 36 rfl (by decide) (.opImm .addi 8 0 0 rfl (by decide)
    (.opImm .addi 9 0 1 rfl (by decide) hE)))))⟩

/-- `main` of the template in machine code: for every point both VMs return what the source says without overflow checks,
which is the polynomial modulo 2^32 (C48). -/
theorem C88_poly (F : Fhe) (rand : Nat → Nat → Nat → F.C.Rand) (chk dbg phantomDebug : Bool) (threads n : Nat) (ht : 0 < threads)
    (hn : 3277 ≤ n) (hn' : n < 2 ^ 32) (tape : List Byte) (hlen : tape.length = 4) :
    (∃ vm0 vm1 vm2, polyImage.testVm chk n = some vm0 ∧ vm0.readInputTape chk tape = some vm1 ∧ vm1.execute chk = some vm2 ∧
      vm2.outputTape chk = Guest.polyMain false tape) ∧
    ∃ ev ev2, polyImage.encryptedVm F.C rand dbg phantomDebug threads tape n = some ev ∧
      ev.execute F.C F.decU F.decP = some ev2 ∧ ev2.outputTape F.C chk = Guest.polyMain false tape := by
  have hdl : polyData.length = 36 := by decide
  obtain ⟨v, hv, s', hm, hr⟩ := poly_run (fun _ => 0#32) (startState (asmRam polyData tape)).mem (Guest.getWord tape 0)
    (word_at polyData tape 0 (by omega) (by omega)) (fun j hj => by
      rw [data_word polyData tape _ (by omega) (by have : Guest.coefficients.length = 7 := rfl; omega)]
      have : ∀ j, j < Guest.coefficients.length → Guest.getWord polyData (8 + 4 * j) = Guest.coefficients.getD j 0#32 := by
        decide +kernel
      exact this j hj)
  have := asm_both F rand chk dbg phantomDebug threads n poly polyData tape 4 4 4 s' ht hn'
    (by decide) (by decide) (by decide) (by cases dbg <;> decide +kernel) (by decide) (by decide) hlen (by decide) (by decide) (hr n hn)
  have e : some (ramBytes s' 4 4) = Guest.polyMain false tape := by
    unfold Guest.polyMain ramBytes
    rw [hv, hm]
    rfl
  rw [e] at this
  exact this

/-! ### guest-test1 -/

/-- `main` of guest-test1: the number at 0x40000, the boolean at 0x40004, the result at 0x40008, `HARDCODED_VALUE` at 0x4000c. -/
def sums : List Instr :=
  [ .lui 2 0x40                 --  0  x2 = 0x40000
  , .load .lw 5 2 0             --  1  x5 = in_a
  , .load .lbu 9 2 4            --  2  x9 = branch
  , .opImm .addi 6 2 12         --  3  x6 = first value
  , .opImm .addi 7 2 28         --  4  x7 = end of the values
  , .opImm .addi 8 0 0          --  5  x8 = 0
  , .branch .beq 6 7 22         --  6  if x6 = x7 goto 17
  , .load .lw 11 6 0            --  7  x11 = value
  , .branch .bne 9 0 10         --  8  if x9 ≠ 0 goto 13
  , .op .add 10 5 0             --  9  x10 = x5
  , .jal 1 18                   -- 10  x10 = x10 * x11
  , .op .add 8 8 10             -- 11  x8 += x10
  , .jal 0 6                    -- 12  goto 15
  , .op .add 8 8 5              -- 13  x8 += x5
  , .op .add 8 8 11             -- 14  x8 += x11
  , .opImm .addi 6 6 4          -- 15  next value
  , .jal 0 (-20)                -- 16  goto 6
  , .store .sw 2 8 8            -- 17  result
  , .jal 0 0 ]                  -- 18  stop
  ++ mulsi3                     -- 19

theorem sums_mul : HasMul sums 19 := by unfold HasMul; decide

/-- One of the four steps of the fold. -/
def sumStep (inA : Word) (branch : Bool) (acc v : Word) : Word := if branch then acc + inA + v else acc + inA * v

theorem sums_fold (inA : Word) (branch : Bool) : Guest.test1 false inA branch = some (Guest.hardcoded.foldl (sumStep inA branch) 0#32) := by
  cases branch <;> rfl

/-- The loop, with the values `cs` to go, the first at offset `o`. -/
theorem sums_loop (m : Word → Byte) (a b : Word) : ∀ (cs : List Word) (o : Nat) (x : Reg → Word), o + 4 * cs.length = 28 → o % 4 = 0 →
    x 2 = 0x40000#32 → x 5 = a → x 9 = b → x 6 = BitVec.ofNat 32 (ramBase + o) → x 7 = BitVec.ofNat 32 (ramBase + 28) →
    (∀ j, j < cs.length → LoadOp.eval .lw m (BitVec.ofNat 32 (ramBase + (o + 4 * j))) = cs.getD j 0#32) →
    Ends sums (237 * cs.length + 2) (St 6 x m)
      (storeBytes m (BitVec.ofNat 32 (ramBase + 8)) (cs.foldl (sumStep a (decide (b ≠ 0#32))) (x 8)) 4) := by
  intro cs
  induction cs with
  | nil =>
    intro o x ho h4 h2 h5 h9 h6 h7 hc
    have ho : o = 28 := by simpa using ho
    refine .branch .beq 6 7 22 17 rfl (by decide) (by decide) (fun _ => ?_) (fun h => absurd (show x 6 = x 7 by rw [h6, h7, ho]) h)
    refine .sw 2 8 8 8 rfl (by decide) ?_ (by decide) (by decide) (Ends.stop rfl (by decide))
    show x 2 + immI 8 = _
    rw [h2]; decide
  | cons c cs ih =>
    intro o x ho h4 h2 h5 h9 h6 h7 hc
    have ho' : o + 4 + 4 * cs.length = 28 := by rw [List.length_cons] at ho; omega
    have hne : x 6 ≠ x 7 := by
      rw [h6, h7]
      intro he
      have := congrArg BitVec.toNat he
      rw [BitVec.toNat_ofNat, BitVec.toNat_ofNat] at this
      unfold ramBase at this
      omega
    have hl : LoadOp.eval .lw m (BitVec.ofNat 32 (ramBase + o)) = c := by
      have := hc 0 (by rw [List.length_cons]; omega)
      rw [Nat.mul_zero, Nat.add_zero] at this
      rw [this]; rfl
    have next : ∀ y : Reg → Word, y 2 = x 2 → y 5 = x 5 → y 6 = x 6 → y 7 = x 7 → y 9 = x 9 →
        y 8 = sumStep a (decide (b ≠ 0#32)) (x 8) c →
        Ends sums (237 * cs.length + 2 + 1 + 1) (St 15 y m)
          (storeBytes m (BitVec.ofNat 32 (ramBase + 8)) ((c :: cs).foldl (sumStep a (decide (b ≠ 0#32))) (x 8)) 4) := by
      intro y y2 y5 y6 y7 y9 y8
      refine .opImm .addi 6 6 4 rfl (by decide) (.goto (-20) 6 rfl (by decide) (by decide) ?_)
      generalize hw : rset _ 6 _ = w
      have w6 : w 6 = BitVec.ofNat 32 (ramBase + (o + 4)) := by
        rw [← hw]; show ImmOp.eval .addi (y 6) (immI 4) = _
        rw [addi_val, y6, h6, show immI 4 = BitVec.ofNat 32 4 from by decide, ← BitVec.ofNat_add, Nat.add_assoc]
      have := ih (o + 4) w ho' (by omega) (by rw [← hw]; exact y2.trans h2) (by rw [← hw]; exact y5.trans h5)
        (by rw [← hw]; exact y9.trans h9) w6 (by rw [← hw]; exact y7.trans h7) (fun j hj => by
          have := hc (j + 1) (by rw [List.length_cons]; omega)
          rw [show o + 4 * (j + 1) = o + 4 + 4 * j by omega] at this
          exact this)
      rw [show w 8 = y 8 by rw [← hw]; rfl, y8] at this
      exact this
    refine Ends.mono (N := 237 * cs.length + 2 + 1 + 1 + 1 + 1 + 228 + 1 + 1 + 1 + 1 + 1) ?_ (by rw [List.length_cons]; omega)
    refine .branch .beq 6 7 22 17 rfl (by decide) (by decide) (fun h => absurd h hne) (fun _ => ?_)
    refine .load .lw 11 6 0 o rfl (by decide) ?_ h4 (by omega) (.branch .bne 9 0 10 13 rfl (by decide) (by decide) (fun hb => ?_) (fun hb => ?_))
    · show x 6 + immI 0 = _
      rw [h6, show immI 0 = 0#32 from by decide, BitVec.add_zero]
    · have hb : b ≠ 0#32 := by rw [← h9]; exact hb
      refine Ends.mono (N := 237 * cs.length + 2 + 1 + 1 + 1 + 1) ?_ (by omega)
      refine .op .add 8 8 5 rfl (by decide) (.op .add 8 8 11 rfl (by decide) (next _ rfl rfl rfl rfl rfl ?_))
      show RegOp.eval .add (RegOp.eval .add (x 8) (x 5)) (LoadOp.eval .lw m (BitVec.ofNat 32 (ramBase + o))) = _
      rw [add_val, add_val, hl, h5, sumStep, if_pos (decide_eq_true hb)]
    · have hb : ¬ b ≠ 0#32 := by rw [← h9]; exact hb
      refine .op .add 10 5 0 rfl (by decide) (.jal 1 18 19 rfl (by decide) (by decide) ?_)
      refine mul_call sums_mul (by decide) (r := 11) _ rfl fun y hy h10 => ?_
      refine .op .add 8 8 10 rfl (by decide) (.goto 6 15 rfl (by decide) (by decide) (next _ ?_ ?_ ?_ ?_ ?_ ?_))
      · exact hy 2 (by decide) (by decide) (by decide) (by decide)
      · exact hy 5 (by decide) (by decide) (by decide) (by decide)
      · exact hy 6 (by decide) (by decide) (by decide) (by decide)
      · exact hy 7 (by decide) (by decide) (by decide) (by decide)
      · exact hy 9 (by decide) (by decide) (by decide) (by decide)
      · show RegOp.eval .add (y 8) (y 10) = _
        rw [add_val, h10, hy 8 (by decide) (by decide) (by decide) (by decide), sumStep, if_neg (by simpa using hb)]
        show x 8 + RegOp.eval .add (x 5) 0#32 * LoadOp.eval .lw m (BitVec.ofNat 32 (ramBase + o)) = _
        rw [add_val, BitVec.add_zero, hl, h5]

/-- Input and output, then the values. -/
def sumsData : List Byte := List.replicate 12 0#8 ++ Guest.hardcoded.flatMap Guest.putWord

/-- guest-test1 in machine code. -/
abbrev sumsImage : Phantom := asmImage sums sumsData 8 8 4

/-- The whole of it, whatever is in the registers. -/
theorem sums_run (x : Reg → Word) (m : Word → Byte) (a : Word) (hp : LoadOp.eval .lw m (BitVec.ofNat 32 (ramBase + 0)) = a)
    (hc : ∀ j, j < Guest.hardcoded.length →
      LoadOp.eval .lw m (BitVec.ofNat 32 (ramBase + (12 + 4 * j))) = Guest.hardcoded.getD j 0#32) :
    Ends sums 956 (St 0 x m) (storeBytes m (BitVec.ofNat 32 (ramBase + 8))
      (Guest.hardcoded.foldl (sumStep a (decide (LoadOp.eval .lbu m (BitVec.ofNat 32 (ramBase + 4)) ≠ 0#32))) 0#32) 4) := by
  refine .lui 2 0x40 rfl (by decide) (.load .lw 5 2 0 0 rfl (by decide) rfl (by decide) (by decide)
    (.load .lbu 9 2 4 4 rfl (by decide) rfl (by decide) (by decide)
    (.opImm .addi 6 2 12 rfl (by decide) (.opImm .addi 7 2 28 rfl (by decide) (.opImm .addi 8 0 0 rfl (by decide) ?_)))))
  generalize hx : rset _ 8 _ = y
  have := sums_loop m a (LoadOp.eval .lbu m (BitVec.ofNat 32 (ramBase + 4))) Guest.hardcoded 12 y (by decide)
    (by decide) (by rw [← hx]; rfl) (by rw [← hx]; exact hp) (by rw [← hx]; rfl) (by rw [← hx]; rfl) (by rw [← hx]; rfl) hc
  rw [show y 8 = 0#32 by rw [← hx]; rfl] at this
  exact this

/-- `main` of guest-test1 in machine code: for every input both VMs return what the source says without overflow checks. -/
theorem C88_test1 (F : Fhe) (rand : Nat → Nat → Nat → F.C.Rand) (chk dbg phantomDebug : Bool) (threads n : Nat) (ht : 0 < threads)
    (hn : 956 ≤ n) (hn' : n < 2 ^ 32) (tape : List Byte) (hlen : tape.length = 8) :
    (∃ vm0 vm1 vm2, sumsImage.testVm chk n = some vm0 ∧ vm0.readInputTape chk tape = some vm1 ∧ vm1.execute chk = some vm2 ∧
      vm2.outputTape chk = Guest.test1Main false tape) ∧
    ∃ ev ev2, sumsImage.encryptedVm F.C rand dbg phantomDebug threads tape n = some ev ∧
      ev.execute F.C F.decU F.decP = some ev2 ∧ ev2.outputTape F.C chk = Guest.test1Main false tape := by
  have hdl : sumsData.length = 28 := by decide
  obtain ⟨s', hm, hr⟩ := sums_run (fun _ => 0#32) (startState (asmRam sumsData tape)).mem (Guest.getWord tape 0)
    (word_at sumsData tape 0 (by omega) (by omega)) (fun j hj => by
      rw [data_word sumsData tape _ (by omega) (by have : Guest.hardcoded.length = 4 := rfl; omega)]
      have : ∀ j, j < Guest.hardcoded.length → Guest.getWord sumsData (12 + 4 * j) = Guest.hardcoded.getD j 0#32 := by
        decide +kernel
      exact this j hj)
  rw [bool_at sumsData tape 4 (by omega) (by omega)] at hm
  have := asm_both F rand chk dbg phantomDebug threads n sums sumsData tape 8 8 4 s' ht hn'
    (by decide) (by decide) (by decide) (by cases dbg <;> decide +kernel) (by decide) (by decide) hlen (by decide) (by decide) (hr n hn)
  have e : some (ramBytes s' 8 4) = Guest.test1Main false tape := by
    unfold Guest.test1Main ramBytes
    rw [sums_fold, hm]
    rfl
  rw [e] at this
  exact this

-- the theorems apply; with the boolean guest-test1 adds, without it multiplies
example := C88_poly sampleFhe (fun _ _ _ => ()) true true true 3 4000 (by decide) (by decide) (by decide) (Guest.putWord 3) rfl
example := C88_test1 sampleFhe (fun _ _ _ => ()) true true true 3 1000 (by decide) (by decide) (by decide) (Guest.putWord 7 ++ [1, 0, 0, 0]) rfl
example : Guest.polyMain false (Guest.putWord 3) ≠ Guest.polyMain false (Guest.putWord 4) ∧
    Guest.test1Main false (Guest.putWord 7 ++ [1, 0, 0, 0]) = some (Guest.putWord 128) ∧
    Guest.test1Main false (Guest.putWord 7 ++ [0, 0, 0, 0]) = some (Guest.putWord 700) := by decide +kernel

end Verif.Props
