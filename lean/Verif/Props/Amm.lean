import Verif.Props.Assembled
/-
  C88: `main` of uniswap in machine code, with multiplication and division in software, as guests must do them because
  the encrypted VM has no RV32M (C87).  For every input tape both VMs return what the source says.
-/
namespace Verif.Props
open Model Spec

/-- `main` of uniswap: 24 bytes of input at 0x40000, 16 bytes of output at 0x40018. -/
def amm : List Instr :=
  [ .lui 2 0x40                 --  0  x2 = 0x40000
  , .load .lw 5 2 0             --  1  x5 = pool.t0
  , .load .lw 6 2 4             --  2  x6 = pool.t1
  , .load .lw 7 2 8             --  3  x7 = trade.amount
  , .load .lbu 8 2 12           --  4  x8 = trade.direction
  , .load .lw 9 2 16            --  5  x9 = account.t0_balance
  , .load .lw 10 2 20           --  6  x10 = account.t1_balance
  , .branch .bne 8 0 14         --  7  if x8 ≠ 0 goto 14
  , .op .add 11 5 0             --  8  exchange x5 and x6
  , .op .add 5 6 0              --  9
  , .op .add 6 11 0             -- 10
  , .op .add 11 9 0             -- 11  exchange x9 and x10
  , .op .add 9 10 0             -- 12
  , .op .add 10 11 0            -- 13
  , .branch .bltu 9 7 88        -- 14  if x9 < x7 goto 58
  , .op .add 16 5 7             -- 15  x16 = x5 + x7
  , .branch .beq 16 0 84        -- 16  if x16 = 0 goto 58
  , .opImm .addi 12 0 0         -- 17  x12 = 0
  , .op .add 13 5 0             -- 18  x13 = x5
  , .op .add 14 6 0             -- 19  x14 = x6
  , .branch .beq 13 0 14        -- 20  x12 += x13 * x14: if x13 = 0 goto 27
  , .opImm .andi 15 13 1        -- 21
  , .branch .beq 15 0 4         -- 22  if x13 is even goto 24
  , .op .add 12 12 14           -- 23
  , .shImm .srli 13 13 1        -- 24
  , .shImm .slli 14 14 1        -- 25
  , .jal 0 (-12)                -- 26  goto 20
  , .opImm .addi 17 0 0         -- 27  x17 = 0
  , .opImm .addi 18 0 0         -- 28  x18 = 0
  , .opImm .addi 19 0 32        -- 29  x19 = 32
  , .shImm .srli 21 17 31       -- 30  x18 = x12 / x16: top bits of x17 and x12
  , .shImm .srli 20 12 31       -- 31
  , .shImm .slli 12 12 1        -- 32
  , .shImm .slli 17 17 1        -- 33
  , .op .add 17 17 20           -- 34
  , .shImm .slli 18 18 1        -- 35
  , .branch .bne 21 0 4         -- 36  if x21 ≠ 0 goto 38
  , .branch .bltu 17 16 6       -- 37  if x17 < x16 goto 40
  , .op .sub 17 17 16           -- 38
  , .opImm .addi 18 18 1        -- 39
  , .opImm .addi 19 19 (-1)     -- 40
  , .branch .bne 19 0 (-22)     -- 41  if x19 ≠ 0 goto 30
  , .op .sub 11 6 18            -- 42  x11 = x6 - x18
  , .op .sub 6 6 11             -- 43  x6 -= x11
  , .op .add 5 5 7              -- 44  x5 += x7
  , .op .sub 9 9 7              -- 45  x9 -= x7
  , .op .add 10 10 11           -- 46  x10 += x11
  , .branch .bne 8 0 14         -- 47  if x8 ≠ 0 goto 54
  , .op .add 11 5 0             -- 48  exchange x5 and x6
  , .op .add 5 6 0              -- 49
  , .op .add 6 11 0             -- 50
  , .op .add 11 9 0             -- 51  exchange x9 and x10
  , .op .add 9 10 0             -- 52
  , .op .add 10 11 0            -- 53
  , .store .sw 2 5 24           -- 54  output
  , .store .sw 2 6 28           -- 55
  , .store .sw 2 9 32           -- 56
  , .store .sw 2 10 36          -- 57
  , .jal 0 0 ]                  -- 58  stop

/-! ### Values -/

theorem add_val (a b : Word) : RegOp.eval .add a b = a + b := by
  show BitVec.ofNat 32 _ = _
  rw [BitVec.ofNat_add, BitVec.ofNat_toNat, BitVec.ofNat_toNat]; simp
theorem sub_val (a b : Word) : RegOp.eval .sub a b = a - b := by
  show BitVec.ofInt 32 _ = _
  apply BitVec.eq_of_toInt_eq
  rw [BitVec.toInt_ofInt, BitVec.toInt_sub]
  simp only [BitVec.toInt_eq_toNat_bmod]
  rw [Int.sub_bmod_bmod, Int.bmod_sub_bmod]
theorem addi_val (a i : Word) : ImmOp.eval .addi a i = a + i := add_val a i

/-! ### Multiplication -/

theorem and_one (a : Word) : a &&& 1#32 = BitVec.ofNat 32 (a.toNat % 2) := by
  apply BitVec.eq_of_toNat_eq
  rw [BitVec.toNat_and]
  show a.toNat &&& 1 = _
  rw [Nat.and_one_is_mod, BitVec.toNat_ofNat, Nat.mod_eq_of_lt (by omega : a.toNat % 2 < 2 ^ 32)]

theorem mul_round (a b c : Word) : c + (if a &&& 1#32 = 0#32 then 0#32 else b) +
    ShiftOp.eval .srli a 1 * ShiftOp.eval .slli b 1 = c + a * b := by
  have e1 : ShiftOp.eval .slli b 1 = b * 2#32 := by
    show BitVec.ofNat 32 (b.toNat * 2 ^ 1) = _
    rw [BitVec.ofNat_mul, BitVec.ofNat_toNat]; simp
  have e2 : a = BitVec.ofNat 32 (a.toNat / 2) * 2#32 + BitVec.ofNat 32 (a.toNat % 2) := by
    rw [← BitVec.ofNat_mul, ← BitVec.ofNat_add, Nat.mul_comm, Nat.div_add_mod, BitVec.ofNat_toNat]; simp
  have e3 : ShiftOp.eval .srli a 1 = BitVec.ofNat 32 (a.toNat / 2) := rfl
  rw [e1, e3, and_one]
  rcases Nat.mod_two_eq_zero_or_one a.toNat with h | h
  · rw [h] at e2 ⊢
    rw [if_pos rfl, BitVec.add_zero]
    have e4 : a * b = BitVec.ofNat 32 (a.toNat / 2) * 2#32 * b := by rw [BitVec.add_zero] at e2; rw [← e2]
    rw [e4]; ac_rfl
  · rw [h] at e2 ⊢
    rw [if_neg (by decide)]
    have e4 : a * b = b * (BitVec.ofNat 32 (a.toNat / 2) * 2#32) + b * 1#32 := by rw [← BitVec.mul_add, ← e2, BitVec.mul_comm]
    rw [e4, BitVec.mul_one]; ac_rfl
/-- The loop from 20 to 26. -/
theorem amm_mul (N : Nat) (m M : Word → Byte) : ∀ (f : Nat) (x : Reg → Word), (x 13).toNat < 2 ^ f →
    (∀ y : Reg → Word, (∀ r, r ≠ 12 → r ≠ 13 → r ≠ 14 → r ≠ 15 → y r = x r) → y 12 = x 12 + x 13 * x 14 →
      Ends amm N (St 27 y m) M) → Ends amm (N + 7 * f + 1) (St 20 x m) M := by
  intro f
  induction f with
  | zero =>
    intro x h0 hK
    have h0 : x 13 = 0#32 := BitVec.eq_of_toNat_eq (by simp at h0 ⊢; omega)
    refine .branch .beq 13 0 14 27 rfl (by decide) (by decide) (fun _ => ?_) (fun h => absurd h0 h)
    exact hK x (fun _ _ _ _ _ => rfl) (by rw [h0, BitVec.zero_mul, BitVec.add_zero])
  | succ f ih =>
    intro x hf hK
    have half : (ShiftOp.eval .srli (x 13) 1).toNat < 2 ^ f := by
      show (BitVec.ofNat 32 ((x 13).toNat / 2 ^ 1)).toNat < _
      rw [Nat.pow_succ] at hf
      have := (x 13).isLt
      rw [BitVec.toNat_ofNat, Nat.mod_eq_of_lt (by omega)]
      omega
    refine .branch .beq 13 0 14 27 rfl (by decide) (by decide) (fun h0 => ?_) (fun h0 => ?_)
    · have h0 : x 13 = 0#32 := h0
      exact (hK x (fun _ _ _ _ _ => rfl) (by rw [h0, BitVec.zero_mul, BitVec.add_zero])).mono (by omega)
    · refine Ends.mono (N := N + 7 * f + 1 + 5 + 1) ?_ (by omega)
      refine .opImm .andi 15 13 1 rfl (by decide) ?_
      refine .branch .beq 15 0 4 24 rfl (by decide) (by decide) (fun hb => ?_) (fun hb => ?_)
      · have hb : x 13 &&& 1#32 = 0#32 := hb
        refine Ends.mono (N := N + 7 * f + 1 + 1 + 1 + 1) ?_ (by omega)
        refine .shImm .srli 13 13 1 rfl (by decide) (.shImm .slli 14 14 1 rfl (by decide)
          (.goto (-12) 20 rfl (by decide) (by decide) (ih _ half fun y hy h12 => hK y ?_ ?_)))
        · intro r h1 h2 h3 h4
          rw [hy r h1 h2 h3 h4]
          simp only [rset_def, h2, h3, h4, false_and, if_false]
        · rw [h12, ← mul_round (x 13) (x 14), if_pos hb, BitVec.add_zero]
          rfl
      · have hb : ¬ x 13 &&& 1#32 = 0#32 := hb
        refine .op .add 12 12 14 rfl (by decide) (.shImm .srli 13 13 1 rfl (by decide) (.shImm .slli 14 14 1 rfl (by decide)
          (.goto (-12) 20 rfl (by decide) (by decide) (ih _ half fun y hy h12 => hK y ?_ ?_))))
        · intro r h1 h2 h3 h4
          rw [hy r h1 h2 h3 h4]
          simp only [rset_def, h1, h2, h3, h4, false_and, if_false]
        · rw [h12, ← mul_round (x 13) (x 14), if_neg hb, ← add_val (x 12)]
          rfl

/-! ### Division -/

/-- After `j` of the 32 rounds. -/
structure Dividing (x : Reg → Word) (K D j : Nat) : Prop where
  div : (x 16).toNat = D
  sum : K * 2 ^ j = ((x 18).toNat * D + (x 17).toNat) * 2 ^ 32 + (x 12).toNat
  rem : (x 17).toNat < D
  quo : (x 18).toNat < 2 ^ j

theorem dividing_done {x : Reg → Word} {K D : Nat} (h : Dividing x K D 32) : (x 18).toNat = K / D := by
  have h1 := h.sum
  have h2 := (x 12).isLt
  have h3 : K = (x 18).toNat * D + (x 17).toNat := by omega
  rw [h3, Nat.mul_comm, Nat.mul_add_div (Nat.lt_of_le_of_lt (Nat.zero_le _) h.rem), Nat.div_eq_of_lt h.rem, Nat.add_zero]

/-- A round without a subtraction. -/
theorem dividing_skip {x y : Reg → Word} {K D j : Nat} (h : Dividing x K D j) (hj : j < 32) (h16 : y 16 = x 16)
    (h17 : (y 17).toNat = (2 * (x 17).toNat + (x 12).toNat / 2 ^ 31)) (hlt : (y 17).toNat < D)
    (h18 : (y 18).toNat = 2 * (x 18).toNat % 2 ^ 32) (h12 : (y 12).toNat = 2 * (x 12).toNat % 2 ^ 32) : Dividing y K D (j + 1) := by
  have hp : 2 ^ j ≤ 2 ^ 31 := Nat.pow_le_pow_right (by decide) (by omega)
  have hq := h.quo
  have hs := h.sum
  have hn := (x 12).isLt
  have e18 : (y 18).toNat = 2 * (x 18).toNat := by omega
  refine ⟨by rw [h16, h.div], ?_, hlt, by rw [Nat.pow_succ]; omega⟩
  rw [Nat.pow_succ, ← Nat.mul_assoc, hs, e18, h12, h17, Nat.mul_assoc 2]
  omega

/-- A round with one. -/
theorem dividing_sub {x y : Reg → Word} {K D j : Nat} (h : Dividing x K D j) (hj : j < 32) (h16 : y 16 = x 16)
    (h17 : (y 17).toNat + D = (2 * (x 17).toNat + (x 12).toNat / 2 ^ 31))
    (h18 : (y 18).toNat = (2 * (x 18).toNat + 1) % 2 ^ 32) (h12 : (y 12).toNat = 2 * (x 12).toNat % 2 ^ 32) : Dividing y K D (j + 1) := by
  have hp : 2 ^ j ≤ 2 ^ 31 := Nat.pow_le_pow_right (by decide) (by omega)
  have hq := h.quo
  have hr := h.rem
  have hs := h.sum
  have hn := (x 12).isLt
  have e18 : (y 18).toNat = 2 * (x 18).toNat + 1 := by omega
  refine ⟨by rw [h16, h.div], ?_, by omega, by rw [Nat.pow_succ]; omega⟩
  rw [Nat.pow_succ, ← Nat.mul_assoc, hs, e18, h12, Nat.add_mul (2 * _) 1 D, Nat.mul_assoc 2, Nat.one_mul]
  omega

theorem slli_nat (a : Word) : (ShiftOp.eval .slli a 1).toNat = 2 * a.toNat % 2 ^ 32 := by
  show (BitVec.ofNat 32 (a.toNat * 2 ^ 1)).toNat = _
  rw [BitVec.toNat_ofNat]; omega
theorem srli_nat (a : Word) (s : Nat) : (ShiftOp.eval .srli a s).toNat = a.toNat / 2 ^ s := by
  show (BitVec.ofNat 32 (a.toNat / 2 ^ s)).toNat = _
  have := Nat.div_le_self a.toNat (2 ^ s)
  have := a.isLt
  rw [BitVec.toNat_ofNat, Nat.mod_eq_of_lt (by omega)]

/-- One round, from 30 to 39. -/
theorem amm_round (N K D j : Nat) (m M : Word → Byte) (x : Reg → Word) (hj : j < 32) (hD : Dividing x K D j)
    (hK : ∀ y : Reg → Word, (∀ r, r ≠ 12 → r ≠ 17 → r ≠ 18 → r ≠ 20 → r ≠ 21 → y r = x r) → Dividing y K D (j + 1) →
      Ends amm N (St 40 y m) M) : Ends amm (N + 10) (St 30 x m) M := by
  refine .shImm .srli 21 17 31 rfl (by decide) (.shImm .srli 20 12 31 rfl (by decide) (.shImm .slli 12 12 1 rfl (by decide)
    (.shImm .slli 17 17 1 rfl (by decide) (.op .add 17 17 20 rfl (by decide) (.shImm .slli 18 18 1 rfl (by decide) ?_)))))
  generalize hy : rset _ 18 _ = y
  have k : ∀ r, r ≠ 12 → r ≠ 17 → r ≠ 18 → r ≠ 20 → r ≠ 21 → y r = x r := by
    intro r h1 h2 h3 h4 h5
    rw [← hy]
    simp only [rset_def, h1, h2, h3, h4, h5, false_and, if_false]
  have e12 : (y 12).toNat = 2 * (x 12).toNat % 2 ^ 32 := by rw [← hy]; exact slli_nat (x 12)
  have e18 : (y 18).toNat = 2 * (x 18).toNat % 2 ^ 32 := by rw [← hy]; exact slli_nat (x 18)
  have e17 : (y 17).toNat = (2 * (x 17).toNat + (x 12).toNat / 2 ^ 31) % 2 ^ 32 := by
    have : y 17 = RegOp.eval .add (ShiftOp.eval .slli (x 17) 1) (ShiftOp.eval .srli (x 12) 31) := by rw [← hy]; rfl
    rw [this, add_val, BitVec.toNat_add, slli_nat, srli_nat]
    omega
  have e21 : y 21 = ShiftOp.eval .srli (x 17) 31 := by rw [← hy]; rfl
  have e16 : y 16 = x 16 := by rw [← hy]; rfl
  clear hy
  have hn := (x 12).isLt
  have hr := hD.rem
  have hd : D < 2 ^ 32 := by rw [← hD.div]; exact (x 16).isLt
  -- the subtraction
  have hsub : 2 * (x 17).toNat + (x 12).toNat / 2 ^ 31 ≥ D → Ends amm (N + 2) (St 38 y m) M := by
    intro hge
    refine .op .sub 17 17 16 rfl (by decide) (.opImm .addi 18 18 1 rfl (by decide) ?_)
    generalize hz : rset _ 18 _ = z
    have z17 : z 17 = y 17 - y 16 := by rw [← hz, ← sub_val]; rfl
    have z18 : z 18 = y 18 + 1#32 := by rw [← hz, ← addi_val]; rfl
    have z12 : z 12 = y 12 := by rw [← hz]; rfl
    have z16 : z 16 = y 16 := by rw [← hz]; rfl
    refine hK z ?_ (dividing_sub hD hj (z16.trans e16) ?_ ?_ (by rw [z12, e12]))
    · intro r h1 h2 h3 h4 h5
      rw [← hz]
      simp only [rset_def, h2, h3, false_and, if_false]
      exact k r h1 h2 h3 h4 h5
    · rw [z17, BitVec.toNat_sub, e17, e16, hD.div]
      omega
    · rw [z18, BitVec.toNat_add, e18]
      have : (1#32).toNat = 1 := rfl
      omega
  refine .branch .bne 21 0 4 38 rfl (by decide) (by decide) (fun hb => ?_) (fun hb => ?_)
  · have hb : y 21 ≠ 0#32 := hb
    refine (hsub ?_).mono (by omega)
    have : (x 17).toNat / 2 ^ 31 ≠ 0 := by
      intro h0
      apply hb
      apply BitVec.eq_of_toNat_eq
      rw [e21, srli_nat, h0]; rfl
    omega
  · have hb : y 21 = 0#32 := Classical.byContradiction hb
    have h0 : (x 17).toNat / 2 ^ 31 = 0 := by rw [← srli_nat, ← e21, hb]; rfl
    have e17' : (y 17).toNat = 2 * (x 17).toNat + (x 12).toNat / 2 ^ 31 := by rw [e17]; omega
    refine .branch .bltu 17 16 6 40 rfl (by decide) (by decide) (fun hc => ?_) (fun hc => ?_)
    · have hc : (y 17).toNat < (y 16).toNat := hc
      rw [e16, hD.div] at hc
      exact (hK y k (dividing_skip hD hj e16 e17' hc e18 e12)).mono (by omega)
    · have hc : ¬ (y 17).toNat < (y 16).toNat := hc
      rw [e16, hD.div] at hc
      exact hsub (by omega)

/-- The loop from 30 to 41. -/
theorem amm_div (N K D : Nat) (m M : Word → Byte) : ∀ (f : Nat) (x : Reg → Word), f ≤ 31 → x 19 = BitVec.ofNat 32 (f + 1) →
    Dividing x K D (31 - f) →
    (∀ y : Reg → Word, (∀ r, r ≠ 12 → r ≠ 17 → r ≠ 18 → r ≠ 19 → r ≠ 20 → r ≠ 21 → y r = x r) → (y 18).toNat = K / D →
      Ends amm N (St 42 y m) M) → Ends amm (N + 12 * f + 12) (St 30 x m) M := by
  intro f
  induction f with
  | zero =>
    intro x hf h19 hD hK
    refine amm_round (N + 2) K D 31 m M x (by decide) hD fun y hy hDy => ?_
    refine .opImm .addi 19 19 (-1) rfl (by decide) (.branch .bne 19 0 (-22) 30 rfl (by decide) (by decide) (fun hb => ?_) (fun hb => ?_))
    · exfalso
      apply hb
      show ImmOp.eval .addi (y 19) (immI (-1)) = 0#32
      rw [hy 19 (by decide) (by decide) (by decide) (by decide) (by decide), h19]
      decide
    · refine hK _ ?_ ?_
      · intro r h1 h2 h3 h4 h5 h6
        simp only [rset_def, h4, false_and, if_false]
        exact hy r h1 h2 h3 h5 h6
      · show (y 18).toNat = _
        exact dividing_done hDy
  | succ f ih =>
    intro x hf h19 hD hK
    refine Ends.mono (N := N + 12 * f + 12 + 2 + 10) ?_ (by omega)
    refine amm_round (N + 12 * f + 12 + 2) K D (31 - (f + 1)) m M x (by omega) hD fun y hy hDy => ?_
    have e19 : ImmOp.eval .addi (y 19) (immI (-1)) = BitVec.ofNat 32 (f + 1) := by
      rw [addi_val, hy 19 (by decide) (by decide) (by decide) (by decide) (by decide), h19, BitVec.ofNat_add (f + 1), BitVec.add_assoc]
      rw [show BitVec.ofNat 32 1 + immI (-1) = 0#32 by decide, BitVec.add_zero]
    refine .opImm .addi 19 19 (-1) rfl (by decide) (.branch .bne 19 0 (-22) 30 rfl (by decide) (by decide) (fun hb => ?_) (fun hb => ?_))
    · refine ih _ (by omega) e19 ?_ ?_
      · rw [show 31 - f = 31 - (f + 1) + 1 by omega]
        exact ⟨hDy.div, hDy.sum, hDy.rem, hDy.quo⟩
      · intro z hz h18
        refine hK z (fun r h1 h2 h3 h4 h5 h6 => ?_) h18
        rw [hz r h1 h2 h3 h4 h5 h6]
        simp only [rset_def, h4, false_and, if_false]
        exact hy r h1 h2 h3 h5 h6
    · exfalso
      apply hb
      show ImmOp.eval .addi (y 19) (immI (-1)) ≠ 0#32
      rw [e19]
      intro h0
      have := congrArg BitVec.toNat h0
      rw [BitVec.toNat_ofNat, Nat.mod_eq_of_lt (by omega)] at this
      simp at this

/-! ### The whole program -/

/-- From 14 on, when the trade fails: the memory stays as it is. -/
theorem amm_fail (x : Reg → Word) (m : Word → Byte) (h : (x 9).toNat < (x 7).toNat ∨ x 5 + x 7 = 0#32) :
    Ends amm 3 (St 14 x m) m := by
  refine .branch .bltu 9 7 88 58 rfl (by decide) (by decide) (fun _ => (Ends.stop rfl (by decide)).mono (by decide)) (fun hb => ?_)
  refine .op .add 16 5 7 rfl (by decide) ?_
  refine .branch .beq 16 0 84 58 rfl (by decide) (by decide) (fun _ => Ends.stop rfl (by decide)) (fun hc => ?_)
  exfalso
  rcases h with h | h
  · exact hb h
  · apply hc
    show RegOp.eval .add (x 5) (x 7) = 0#32
    rw [add_val, h]

/-- From 14 to 46, when it does not. -/
theorem amm_trade (N : Nat) (x : Reg → Word) (m M : Word → Byte) (h : (x 7).toNat ≤ (x 9).toNat) (h0 : x 5 + x 7 ≠ 0#32)
    (hK : ∀ y : Reg → Word, y 2 = x 2 → y 8 = x 8 → y 5 = x 5 + x 7 → y 6 = x 6 - (x 6 - x 5 * x 6 / (x 5 + x 7)) →
      y 9 = x 9 - x 7 → y 10 = x 10 + (x 6 - x 5 * x 6 / (x 5 + x 7)) → Ends amm N (St 47 y m) M) :
    Ends amm (N + 623) (St 14 x m) M := by
  refine Ends.mono (N := N + 5 + 384 + 3 + 224 + 1 + 3 + 1 + 1 + 1) ?_ (by omega)
  refine .branch .bltu 9 7 88 58 rfl (by decide) (by decide) (fun hb => absurd (show (x 9).toNat < (x 7).toNat from hb) (by omega)) (fun _ => ?_)
  refine .op .add 16 5 7 rfl (by decide) ?_
  refine .branch .beq 16 0 84 58 rfl (by decide) (by decide) (fun hb => absurd (show RegOp.eval .add (x 5) (x 7) = 0#32 from hb)
    (by rw [add_val]; exact h0)) (fun _ => ?_)
  refine .opImm .addi 12 0 0 rfl (by decide) (.op .add 13 5 0 rfl (by decide) (.op .add 14 6 0 rfl (by decide) ?_))
  refine amm_mul (N + 5 + 384 + 3) m M 32 _ (BitVec.isLt _) fun y hy h12 => ?_
  have y12 : y 12 = x 5 * x 6 := by
    rw [h12]
    show ImmOp.eval .addi 0#32 (immI 0) + RegOp.eval .add (x 5) 0#32 * RegOp.eval .add (x 6) 0#32 = _
    rw [add_val, add_val, BitVec.add_zero, BitVec.add_zero, show ImmOp.eval .addi 0#32 (immI 0) = 0#32 by decide, BitVec.zero_add]
  have y16 : y 16 = x 5 + x 7 := by
    rw [hy 16 (by decide) (by decide) (by decide) (by decide), ← add_val]; rfl
  have hy' : ∀ r, r ≠ 12 → r ≠ 13 → r ≠ 14 → r ≠ 15 → r ≠ 16 → y r = x r := by
    intro r h1 h2 h3 h4 h5
    rw [hy r h1 h2 h3 h4]
    simp only [rset_def, h1, h2, h3, h5, false_and, if_false]
  clear hy h12
  refine .opImm .addi 17 0 0 rfl (by decide) (.opImm .addi 18 0 0 rfl (by decide) (.opImm .addi 19 0 32 rfl (by decide) ?_))
  have hd : 0 < (x 5 + x 7).toNat := by
    apply Nat.pos_of_ne_zero
    intro hc
    exact h0 (BitVec.eq_of_toNat_eq hc)
  refine amm_div (N + 5) (x 5 * x 6).toNat (x 5 + x 7).toNat m M 31 _ (by decide)
    (show ImmOp.eval .addi 0#32 (immI 32) = 32#32 by decide) ⟨?_, ?_, ?_, ?_⟩ fun z hz h18 => ?_
  · show (y 16).toNat = _
    rw [y16]
  · show (x 5 * x 6).toNat * 1 = (0 * _ + 0) * 2 ^ 32 + (y 12).toNat
    rw [y12]; omega
  · exact hd
  · exact (by decide : 0 < 1)
  have z18 : z 18 = x 5 * x 6 / (x 5 + x 7) := by
    apply BitVec.eq_of_toNat_eq
    rw [h18, BitVec.toNat_udiv]
  have hz' : ∀ r, r ≠ 12 → r ≠ 13 → r ≠ 14 → r ≠ 15 → r ≠ 16 → r ≠ 17 → r ≠ 18 → r ≠ 19 → r ≠ 20 → r ≠ 21 → z r = x r := by
    intro r h1 h2 h3 h4 h5 h6 h7 h8 h9 h10
    rw [hz r h1 h6 h7 h8 h9 h10]
    simp only [rset_def, h6, h7, h8, false_and, if_false]
    exact hy' r h1 h2 h3 h4 h5
  clear hz h18 hy' y12 y16
  have z2 : z 2 = x 2 := hz' 2 (by decide) (by decide) (by decide) (by decide) (by decide) (by decide) (by decide) (by decide) (by decide) (by decide)
  have z5 : z 5 = x 5 := hz' 5 (by decide) (by decide) (by decide) (by decide) (by decide) (by decide) (by decide) (by decide) (by decide) (by decide)
  have z6 : z 6 = x 6 := hz' 6 (by decide) (by decide) (by decide) (by decide) (by decide) (by decide) (by decide) (by decide) (by decide) (by decide)
  have z7 : z 7 = x 7 := hz' 7 (by decide) (by decide) (by decide) (by decide) (by decide) (by decide) (by decide) (by decide) (by decide) (by decide)
  have z8 : z 8 = x 8 := hz' 8 (by decide) (by decide) (by decide) (by decide) (by decide) (by decide) (by decide) (by decide) (by decide) (by decide)
  have z9 : z 9 = x 9 := hz' 9 (by decide) (by decide) (by decide) (by decide) (by decide) (by decide) (by decide) (by decide) (by decide) (by decide)
  have z10 : z 10 = x 10 := hz' 10 (by decide) (by decide) (by decide) (by decide) (by decide) (by decide) (by decide) (by decide) (by decide) (by decide)
  refine .op .sub 11 6 18 rfl (by decide) (.op .sub 6 6 11 rfl (by decide) (.op .add 5 5 7 rfl (by decide)
    (.op .sub 9 9 7 rfl (by decide) (.op .add 10 10 11 rfl (by decide) (hK _ z2 z8 ?_ ?_ ?_ ?_)))))
  · show RegOp.eval .add (z 5) (z 7) = _
    rw [add_val, z5, z7]
  · show RegOp.eval .sub (z 6) (RegOp.eval .sub (z 6) (z 18)) = _
    rw [sub_val, sub_val, z6, z18]
  · show RegOp.eval .sub (z 9) (z 7) = _
    rw [sub_val, z9, z7]
  · show RegOp.eval .add (z 10) (RegOp.eval .sub (z 6) (z 18)) = _
    rw [add_val, sub_val, z10, z6, z18]

/-- Memory after the four stores. -/
def ammStore (m : Word → Byte) (a b c d : Word) : Word → Byte :=
  storeBytes (storeBytes (storeBytes (storeBytes m (BitVec.ofNat 32 (ramBase + 24)) a 4) (BitVec.ofNat 32 (ramBase + 28)) b 4)
    (BitVec.ofNat 32 (ramBase + 32)) c 4) (BitVec.ofNat 32 (ramBase + 36)) d 4

/-- From 54 on. -/
theorem amm_store (x : Reg → Word) (m : Word → Byte) (h2 : x 2 = 0x40000#32) :
    Ends amm 4 (St 54 x m) (ammStore m (x 5) (x 6) (x 9) (x 10)) := by
  have a (imm : BitVec 12) : rget x 2 + immI imm = 0x40000#32 + immI imm := congrArg (· + immI imm) h2
  refine .sw 2 5 24 24 rfl (by decide) (by rw [a]; decide) (by decide) (by decide) (.sw 2 6 28 28 rfl (by decide) (by rw [a]; decide) (by decide) (by decide)
    (.sw 2 9 32 32 rfl (by decide) (by rw [a]; decide) (by decide) (by decide) (.sw 2 10 36 36 rfl (by decide) (by rw [a]; decide) (by decide) (by decide)
    (Ends.stop rfl (by decide)))))

/-- From 47 on. -/
theorem amm_finish (x : Reg → Word) (m : Word → Byte) (h2 : x 2 = 0x40000#32) :
    Ends amm 11 (St 47 x m) (if x 8 = 0#32 then ammStore m (x 6) (x 5) (x 10) (x 9) else ammStore m (x 5) (x 6) (x 9) (x 10)) := by
  refine .branch .bne 8 0 14 54 rfl (by decide) (by decide) (fun hb => ?_) (fun hb => ?_)
  · rw [if_neg (show ¬ x 8 = 0#32 from hb)]
    exact (amm_store x m h2).mono (by decide)
  · rw [if_pos (show x 8 = 0#32 from Classical.byContradiction hb)]
    refine .op .add 11 5 0 rfl (by decide) (.op .add 5 6 0 rfl (by decide) (.op .add 6 11 0 rfl (by decide)
      (.op .add 11 9 0 rfl (by decide) (.op .add 9 10 0 rfl (by decide) (.op .add 10 11 0 rfl (by decide) ?_)))))
    generalize hy : rset _ 10 _ = y
    have y5 : y 5 = x 6 := by rw [← hy]; show RegOp.eval .add (x 6) 0#32 = _; rw [add_val, BitVec.add_zero]
    have y6 : y 6 = x 5 := by
      rw [← hy]; show RegOp.eval .add (RegOp.eval .add (x 5) 0#32) 0#32 = _; rw [add_val, add_val, BitVec.add_zero, BitVec.add_zero]
    have y9 : y 9 = x 10 := by rw [← hy]; show RegOp.eval .add (x 10) 0#32 = _; rw [add_val, BitVec.add_zero]
    have y10 : y 10 = x 9 := by
      rw [← hy]; show RegOp.eval .add (RegOp.eval .add (x 9) 0#32) 0#32 = _; rw [add_val, add_val, BitVec.add_zero, BitVec.add_zero]
    have := amm_store y m (by rw [← hy]; exact h2)
    rwa [y5, y6, y9, y10] at this

/-- The source without overflow checks, seen from the token that is sold. -/
theorem swap_wrap (p : Guest.Pool) (t : Guest.Trade) (a : Guest.Account) : Guest.swap false p t a =
    if t.direction then
      if a.t0Balance.toNat < t.amount.toNat ∨ p.t0 + t.amount = 0#32 then none
      else some (⟨p.t0 + t.amount, p.t1 - (p.t1 - p.t0 * p.t1 / (p.t0 + t.amount))⟩,
        ⟨a.t0Balance - t.amount, a.t1Balance + (p.t1 - p.t0 * p.t1 / (p.t0 + t.amount))⟩)
    else
      if a.t1Balance.toNat < t.amount.toNat ∨ p.t1 + t.amount = 0#32 then none
      else some (⟨p.t0 - (p.t0 - p.t1 * p.t0 / (p.t1 + t.amount)), p.t1 + t.amount⟩,
        ⟨a.t0Balance + (p.t0 - p.t1 * p.t0 / (p.t1 + t.amount)), a.t1Balance - t.amount⟩) := by
  unfold Guest.swap Guest.div Guest.sub Guest.add
  rw [BitVec.mul_comm p.t1 p.t0]
  cases t.direction
  · by_cases h1 : a.t1Balance.toNat < t.amount.toNat
    · simp [BitVec.lt_def, h1]
    · by_cases h2 : p.t1 + t.amount = 0#32
      · simp [BitVec.lt_def, h1, h2]
      · simp [BitVec.lt_def, h1, h2]
  · by_cases h1 : a.t0Balance.toNat < t.amount.toNat
    · simp [BitVec.lt_def, h1]
    · by_cases h2 : p.t0 + t.amount = 0#32
      · simp [BitVec.lt_def, h1, h2]
      · simp [BitVec.lt_def, h1, h2]

/-- Memory at the end. -/
def ammEnd (m : Word → Byte) (o : Option (Guest.Pool × Guest.Account)) : Word → Byte :=
  match o with
  | none => m
  | some o => ammStore m o.1.t0 o.1.t1 o.2.t0Balance o.2.t1Balance

/-- From 7 on. -/
theorem amm_body (x : Reg → Word) (m : Word → Byte) (d : Bool) (h2 : x 2 = 0x40000#32) (hd : d = true ↔ x 8 ≠ 0#32) :
    Ends amm 641 (St 7 x m) (ammEnd m (Guest.swap false ⟨x 5, x 6⟩ ⟨x 7, d⟩ ⟨x 9, x 10⟩)) := by
  rw [swap_wrap]
  refine .branch .bne 8 0 14 14 rfl (by decide) (by decide) (fun hb => ?_) (fun hb => ?_)
  · have hb : x 8 ≠ 0#32 := hb
    rw [if_pos (hd.mpr hb)]
    by_cases hf : (x 9).toNat < (x 7).toNat ∨ x 5 + x 7 = 0#32
    · rw [if_pos hf]
      exact (amm_fail x m hf).mono (by decide)
    · rw [if_neg hf]
      refine Ends.mono (N := 11 + 623) (amm_trade 11 x m _ (by omega) (fun h => hf (.inr h)) fun y y2 y8 y5 y6 y9 y10 => ?_) (by decide)
      have := amm_finish y m (y2.trans h2)
      rwa [if_neg (by rw [y8]; exact hb), y5, y6, y9, y10] at this
  · have hb : x 8 = 0#32 := Classical.byContradiction hb
    rw [if_neg (fun h => hd.mp h hb)]
    refine .op .add 11 5 0 rfl (by decide) (.op .add 5 6 0 rfl (by decide) (.op .add 6 11 0 rfl (by decide)
      (.op .add 11 9 0 rfl (by decide) (.op .add 9 10 0 rfl (by decide) (.op .add 10 11 0 rfl (by decide) ?_)))))
    generalize hz : rset _ 10 _ = z
    have z5 : z 5 = x 6 := by rw [← hz]; show RegOp.eval .add (x 6) 0#32 = _; rw [add_val, BitVec.add_zero]
    have z6 : z 6 = x 5 := by
      rw [← hz]; show RegOp.eval .add (RegOp.eval .add (x 5) 0#32) 0#32 = _; rw [add_val, add_val, BitVec.add_zero, BitVec.add_zero]
    have z9 : z 9 = x 10 := by rw [← hz]; show RegOp.eval .add (x 10) 0#32 = _; rw [add_val, BitVec.add_zero]
    have z10 : z 10 = x 9 := by
      rw [← hz]; show RegOp.eval .add (RegOp.eval .add (x 9) 0#32) 0#32 = _; rw [add_val, add_val, BitVec.add_zero, BitVec.add_zero]
    have z2 : z 2 = x 2 := by rw [← hz]; rfl
    have z7 : z 7 = x 7 := by rw [← hz]; rfl
    have z8 : z 8 = x 8 := by rw [← hz]; rfl
    clear hz
    by_cases hf : (x 10).toNat < (x 7).toNat ∨ x 6 + x 7 = 0#32
    · rw [if_pos hf]
      exact (amm_fail z m (by rw [z9, z7, z5]; exact hf)).mono (by decide)
    · rw [if_neg hf]
      refine amm_trade 11 z m _ (by rw [z7, z9]; omega) (fun h => hf (.inr (by rw [← z5, ← z7]; exact h))) fun y y2 y8 y5 y6 y9 y10 => ?_
      have := amm_finish y m (y2.trans (z2.trans h2))
      rwa [if_pos (by rw [y8, z8]; exact hb), y5, y6, y9, y10, z5, z6, z7, z9, z10] at this

/-- The words of the input. -/
def ammWord (m : Word → Byte) (off : Nat) : Word := LoadOp.eval .lw m (BitVec.ofNat 32 (ramBase + off))

/-- The whole program, whatever the registers held. -/
theorem amm_run (x : Reg → Word) (m : Word → Byte) :
    Ends amm 648 (St 0 x m) (ammEnd m (Guest.swap false ⟨ammWord m 0, ammWord m 4⟩
      ⟨ammWord m 8, decide (LoadOp.eval .lbu m (BitVec.ofNat 32 (ramBase + 12)) ≠ 0#32)⟩ ⟨ammWord m 16, ammWord m 20⟩)) := by
  refine .lui 2 0x40 rfl (by decide) (.load .lw 5 2 0 0 rfl (by decide) (show 0x40000#32 + immI 0 = _ by decide) (by decide) (by decide)
    (.load .lw 6 2 4 4 rfl (by decide) (show 0x40000#32 + immI 4 = _ by decide) (by decide) (by decide)
    (.load .lw 7 2 8 8 rfl (by decide) (show 0x40000#32 + immI 8 = _ by decide) (by decide) (by decide)
    (.load .lbu 8 2 12 12 rfl (by decide) (show 0x40000#32 + immI 12 = _ by decide) (by decide) (by decide)
    (.load .lw 9 2 16 16 rfl (by decide) (show 0x40000#32 + immI 16 = _ by decide) (by decide) (by decide)
    (.load .lw 10 2 20 20 rfl (by decide) (show 0x40000#32 + immI 20 = _ by decide) (by decide) (by decide) ?_))))))
  exact amm_body _ m (decide (LoadOp.eval .lbu m (BitVec.ofNat 32 (ramBase + 12)) ≠ 0#32)) rfl decide_eq_true_iff

theorem amm_main (bytes : List Byte) (m : Word → Byte) (hm : (startState bytes).mem = m) :
    Ends amm 648 (startState bytes) (ammEnd m (Guest.swap false ⟨ammWord m 0, ammWord m 4⟩
      ⟨ammWord m 8, decide (LoadOp.eval .lbu m (BitVec.ofNat 32 (ramBase + 12)) ≠ 0#32)⟩ ⟨ammWord m 16, ammWord m 20⟩)) := by
  have e : startState bytes = St 0 (fun _ => 0#32) m := by rw [← hm]; rfl
  rw [e]
  exact amm_run _ m

/-! ### The tapes -/

/-- The image: the data are 40 zero bytes, for the input and the output. -/
abbrev ammImage : Phantom := asmImage amm (List.replicate 40 0#8) 24 24 16

/-- Its RAM with the tape. -/
abbrev ammRam (tape : List Byte) : List Byte := asmRam (List.replicate 40 0#8) tape

/-- A word of the tape as the load reads it. -/
theorem word_of (b0 b1 b2 b3 : Byte) : Guest.getWord [b0, b1, b2, b3] 0 =
    BitVec.ofNat 32 (b0.toNat + 256 * (b1.toNat + 256 * (b2.toNat + 256 * b3.toNat))) := by
  have h0 := b0.isLt
  have h1 := b1.isLt
  have h2 := b2.isLt
  have h3 := b3.isLt
  refine getWord_at [] [] ?_ rfl
  rw [List.nil_append, List.append_nil]
  unfold Guest.putWord
  simp only [List.cons.injEq, and_true]
  refine ⟨?_, ?_, ?_, ?_⟩ <;> apply BitVec.eq_of_toNat_eq <;>
    rw [BitVec.extractLsb'_toNat, BitVec.toNat_ofNat, Nat.shiftRight_eq_div_pow] <;> omega

theorem word_at (data tape : List Byte) (o : Nat) (ho : o + 4 ≤ tape.length) (hl : tape.length ≤ 4096) :
    LoadOp.eval .lw (startState (asmRam data tape)).mem (BitVec.ofNat 32 (ramBase + o)) = Guest.getWord tape o := by
  have e : Guest.getWord tape o = Guest.getWord [tape.getD o 0, tape.getD (o + 1) 0, tape.getD (o + 2) 0, tape.getD (o + 3) 0] 0 := rfl
  rw [e, word_of]
  show BitVec.ofNat 32 (leValue _ _ 4) = _
  have l : ∀ (m : Word → Byte) (a : Word), leValue m a 4 = (m a).toNat + 256 * ((m (a + 1#32)).toNat + 256 * ((m (a + 2#32)).toNat +
      256 * (m (a + 3#32)).toNat)) := by
    intro m a
    simp only [leValue, Nat.mul_zero, Nat.add_zero, BitVec.add_assoc]
    rfl
  rw [l]
  rw [show (1#32) = BitVec.ofNat 32 1 from rfl, show (2#32) = BitVec.ofNat 32 2 from rfl, show (3#32) = BitVec.ofNat 32 3 from rfl,
    ← BitVec.ofNat_add, ← BitVec.ofNat_add, ← BitVec.ofNat_add, Nat.add_assoc, Nat.add_assoc, Nat.add_assoc,
    asm_input data tape _ (by omega) hl, asm_input data tape _ (by omega) hl, asm_input data tape _ (by omega) hl,
    asm_input data tape _ (by omega) hl]
  rfl

theorem bool_at (data tape : List Byte) (o : Nat) (ho : o < tape.length) (hl : tape.length ≤ 4096) :
    decide (LoadOp.eval .lbu (startState (asmRam data tape)).mem (BitVec.ofNat 32 (ramBase + o)) ≠ 0#32) = Guest.getBool tape o := by
  have e : LoadOp.eval .lbu (startState (asmRam data tape)).mem (BitVec.ofNat 32 (ramBase + o)) = BitVec.ofNat 32 (tape.getD o 0#8).toNat := by
    show BitVec.ofNat 32 ((startState (asmRam data tape)).mem _).toNat = _
    rw [asm_input data tape o ho hl]
  rw [e]
  unfold Guest.getBool
  generalize tape.getD o 0#8 = b
  revert b
  decide +kernel

/-- The output section at the end. -/
theorem amm_tape (tape : List Byte) (h : tape.length = 24) (s' : Arch) (o : Option (Guest.Pool × Guest.Account))
    (hs : s'.mem = ammEnd (startState (ammRam tape)).mem o) :
    ramBytes s' 24 16 = (o.map fun o => Guest.putWord o.1.t0 ++ Guest.putWord o.1.t1 ++ Guest.putWord o.2.t0Balance ++
      Guest.putWord o.2.t1Balance).getD (List.replicate 16 0#8) := by
  cases o with
  | none =>
    apply List.ext_getElem?
    intro k
    unfold ramBytes
    rw [List.getElem?_map]
    by_cases hk : k < 16
    · rw [List.getElem?_range hk, Option.map_some, hs]
      show some ((startState (ammRam tape)).mem _) = (List.replicate 16 0#8)[k]?
      rw [asm_data _ tape _ (by omega) (by omega), List.getElem?_replicate, if_pos hk, List.getD_eq_getElem?_getD,
        List.getElem?_replicate, if_pos (by omega)]
      rfl
    · rw [List.getElem?_eq_none_iff.mpr (by simp; omega)]
      exact (List.getElem?_eq_none_iff.mpr (by simp; omega)).symm
  | some o =>
    unfold ramBytes
    rw [hs]
    rfl

/-- `main` of uniswap in machine code: for every input tape, under any correct library, both VMs return what the source
says without overflow checks, and zeros if it panics. -/
theorem C88_amm (F : Fhe) (rand : Nat → Nat → Nat → F.C.Rand) (chk dbg phantomDebug : Bool) (threads n : Nat) (ht : 0 < threads)
    (hn : 648 ≤ n) (hn' : n < 2 ^ 32) (tape : List Byte) (hlen : tape.length = 24) :
    (∃ vm0 vm1 vm2, ammImage.testVm chk n = some vm0 ∧ vm0.readInputTape chk tape = some vm1 ∧ vm1.execute chk = some vm2 ∧
      vm2.outputTape chk = some ((Guest.swapMain false tape).getD (List.replicate 16 0#8))) ∧
    ∃ ev ev2, ammImage.encryptedVm F.C rand dbg phantomDebug threads tape n = some ev ∧
      ev.execute F.C F.decU F.decP = some ev2 ∧
      ev2.outputTape F.C chk = some ((Guest.swapMain false tape).getD (List.replicate 16 0#8)) := by
  obtain ⟨s', hm, hr⟩ := amm_main (ammRam tape) _ rfl
  have l : ∀ o, o + 4 ≤ 24 → ammWord (startState (ammRam tape)).mem o = Guest.getWord tape o := fun o ho =>
    word_at _ tape o (by omega) (by omega)
  rw [l 0 (by decide), l 4 (by decide), l 8 (by decide), l 16 (by decide), l 20 (by decide),
    bool_at _ tape 12 (by omega) (by omega)] at hm
  have := asm_both F rand chk dbg phantomDebug threads n amm (List.replicate 40 0#8) tape 24 24 16 s' ht hn'
    (by decide) (by decide) (by decide) (by cases dbg <;> decide +kernel) (by decide) (by decide) hlen (by decide) (by decide) (hr n hn)
  rw [amm_tape tape hlen s' _ hm] at this
  exact this

-- the theorems apply: a library, a trade that goes through and one that panics
example := C88_amm sampleFhe (fun _ _ _ => ()) true true true 3 700 (by decide) (by decide) (by decide)
  (Guest.swapInput ⟨100, 500⟩ ⟨50, true⟩ ⟨60, 0⟩ [0, 0, 0]) rfl
example : Guest.swapMain false (Guest.swapInput ⟨100, 500⟩ ⟨50, true⟩ ⟨60, 0⟩ [0, 0, 0]) =
    some (Guest.putWord 150 ++ Guest.putWord 333 ++ Guest.putWord 10 ++ Guest.putWord 167) ∧
    Guest.swapMain false (Guest.swapInput ⟨100, 500⟩ ⟨70, true⟩ ⟨60, 0⟩ [0, 0, 0]) = none := by decide +kernel

end Verif.Props
