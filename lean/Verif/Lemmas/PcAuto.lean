import Verif.Lemmas.AdderWord
/-
  Specification automaton of the program counter update: an optional comparison of two words, most
  significant bit first, followed by one of three additions.
-/
namespace Verif.Bdd

/-- pc + imm, pc + 4, rs1 + imm. -/
inductive Sum | pcImm | pc4 | rs1Imm
  deriving DecidableEq

def Sum.par : Sum → AdderP
  | .pcImm => ⟨fun k => some (68 + k), fun k => some (100 + k), 0, some 19, false⟩
  | .pc4 => ⟨fun k => some (68 + k), fun _ => none, 4, none, true⟩
  | .rs1Imm => ⟨fun k => some (4 + k), fun k => some (100 + k), 0, some 19, false⟩

inductive Cmp | eq | ne | lt | ge | ltu | geu
  deriving DecidableEq

/-- Outcome on equal operands. -/
def Cmp.tie : Cmp → Bool
  | .eq => true | .ne => false | .lt => false | .ge => true | .ltu => false | .geu => true

/-- Outcome when the operands first differ at bit `n`, the left one having bit `a` there. -/
def Cmp.diff (c : Cmp) (n : Nat) (a : Bool) : Bool :=
  match c with
  | .eq => false
  | .ne => true
  | .ltu => !a
  | .geu => a
  | .lt => if Nat.beq n 31 then a else !a
  | .ge => if Nat.beq n 31 then !a else a

inductive PcSt
  | cmp (c : Cmp) (n : Nat) (half : Option Bool)
  | add (s : Sum) (st : AddSt)
  deriving DecidableEq

def branchTo (t : Nat) (b : Bool) : PcSt :=
  if b then .add .pcImm (mk Sum.pcImm.par t t 0 none) else .add .pc4 (mk Sum.pc4.par t t 0 none)

def pcAuto (t : Nat) : Auto PcSt where
  head
    | .cmp _ n none => some (4 + n)
    | .cmp _ n (some _) => some (36 + n)
    | .add s st => (addAuto s.par t).head st
  step
    | .cmp c n none, b => .cmp c n (some b)
    | .cmp c n (some a), b =>
      if a = b then
        match n with
        | 0 => branchTo t c.tie
        | m + 1 => .cmp c m none
      else branchTo t (c.diff n a)
    | .add s st, b => .add s ((addAuto s.par t).step st b)
  out
    | .cmp .. => false
    | .add s st => (addAuto s.par t).out st

variable (bit : Nat → Bool) (t : Nat)

def semCmp (c : Cmp) : Nat → Bool
  | 0 => if bit 4 = bit 36 then c.tie else c.diff 0 (bit 4)
  | n + 1 => if bit (4 + (n + 1)) = bit (36 + (n + 1)) then semCmp c n
      else c.diff (n + 1) (bit (4 + (n + 1)))

def semSum (s : Sum) : Bool := addSem s.par t bit (mk s.par t t 0 none)

def semBranch (b : Bool) : Bool := if b then semSum bit t .pcImm else semSum bit t .pc4

def pcSem : PcSt → Bool
  | .cmp c n none => semBranch bit t (semCmp bit c n)
  | .cmp c n (some a) =>
    semBranch bit t (if a = bit (36 + n) then
      (match n with
        | 0 => c.tie
        | m + 1 => semCmp bit c m) else c.diff n a)
  | .add s st => addSem s.par t bit st

theorem pcSem_branchTo (b : Bool) : pcSem bit t (branchTo t b) = semBranch bit t b := by
  cases b <;> rfl

theorem pcAuto_step (s : PcSt) (v : Nat) (h : (pcAuto t).head s = some v) :
    pcSem bit t s = pcSem bit t ((pcAuto t).step s (bit v)) := by
  cases s with
  | add s st => exact addAuto_step s.par t bit st v h
  | cmp c n half =>
    cases half with
    | none =>
      simp only [pcAuto, Option.some.injEq] at h; subst h
      cases n <;> rfl
    | some a =>
      simp only [pcAuto, Option.some.injEq] at h; subst h
      simp only [pcAuto, pcSem]
      by_cases hab : a = bit (36 + n)
      · rw [if_pos hab, if_pos hab]
        cases n with
        | zero => exact (pcSem_branchTo bit t _).symm
        | succ m => rfl
      · rw [if_neg hab, if_neg hab]; exact (pcSem_branchTo bit t _).symm

theorem pcAuto_out (s : PcSt) (h : (pcAuto t).head s = none) :
    pcSem bit t s = (pcAuto t).out s := by
  cases s with
  | add s st => exact addAuto_out s.par t bit st h
  | cmp c n half => cases half <;> simp [pcAuto] at h

/-! ### The comparison -/

theorem mod_two_pow_succ_bit (x : BitVec 32) (n : Nat) :
    x.toNat % 2 ^ (n + 1) = x.toNat % 2 ^ n + 2 ^ n * (x.getLsbD n).toNat := by
  rw [toNat_bit, Nat.mod_pow_succ]

/-- Meaning of a comparison. -/
def Cmp.holds (c : Cmp) (x y : BitVec 32) : Prop :=
  match c with
  | .eq => x = y
  | .ne => x ≠ y
  | .lt => x.toInt < y.toInt
  | .ge => y.toInt ≤ x.toInt
  | .ltu => x.toNat < y.toNat
  | .geu => y.toNat ≤ x.toNat

/-- The comparison of the low `n + 1` bits. -/
def Cmp.low (c : Cmp) (x y : Nat) : Bool :=
  match c with
  | .eq => x == y
  | .ne => x != y
  | .lt | .ltu => decide (x < y)
  | .ge | .geu => decide (y ≤ x)

theorem semCmp_low (x y : BitVec 32) (hx : ∀ k, k < 32 → bit (4 + k) = x.getLsbD k)
    (hy : ∀ k, k < 32 → bit (36 + k) = y.getLsbD k) (c : Cmp) :
    ∀ n, n < 31 → semCmp bit c n = c.low (x.toNat % 2 ^ (n + 1)) (y.toNat % 2 ^ (n + 1)) := by
  intro n
  induction n with
  | zero =>
    intro _
    have h1 := hx 0 (by omega); have h2 := hy 0 (by omega)
    simp only [Nat.add_zero] at h1 h2
    simp only [semCmp, h1, h2]
    rw [mod_two_pow_succ_bit x 0, mod_two_pow_succ_bit y 0]
    simp only [Nat.pow_zero, Nat.mod_one]
    cases x.getLsbD 0 <;> cases y.getLsbD 0 <;> cases c <;> rfl
  | succ n ih =>
    intro hn
    have ih := ih (by omega)
    simp only [semCmp]
    rw [hx (n + 1) (by omega), hy (n + 1) (by omega), ih, mod_two_pow_succ_bit x (n + 1),
      mod_two_pow_succ_bit y (n + 1)]
    have bx := Nat.mod_lt x.toNat (Nat.two_pow_pos (n + 1))
    have by' := Nat.mod_lt y.toNat (Nat.two_pow_pos (n + 1))
    have h31 : Nat.beq (n + 1) 31 = false := by
      cases h : Nat.beq (n + 1) 31
      · rfl
      · have := Nat.eq_of_beq_eq_true h; omega
    generalize x.toNat % 2 ^ (n + 1) = a at *
    generalize y.toNat % 2 ^ (n + 1) = b at *
    generalize 2 ^ (n + 1) = p at *
    cases x.getLsbD (n + 1) <;> cases y.getLsbD (n + 1) <;> cases c <;>
      simp [Cmp.low, Cmp.diff, h31] <;> grind

theorem semCmp_holds (x y : BitVec 32) (hx : ∀ k, k < 32 → bit (4 + k) = x.getLsbD k)
    (hy : ∀ k, k < 32 → bit (36 + k) = y.getLsbD k) (c : Cmp) :
    semCmp bit c 31 = true ↔ c.holds x y := by
  have ih := semCmp_low bit x y hx hy c 30 (by omega)
  have e : semCmp bit c 31 = if bit (4 + 31) = bit (36 + 31) then semCmp bit c 30
      else c.diff 31 (bit (4 + 31)) := rfl
  simp only [show (30 : Nat) + 1 = 31 from rfl] at ih
  rw [e, hx 31 (by omega), hy 31 (by omega), ih]
  have ex : x.toNat = x.toNat % 2 ^ 31 + 2 ^ 31 * (x.getLsbD 31).toNat := by
    have := mod_two_pow_succ_bit x 31; have := x.isLt; omega
  have ey : y.toNat = y.toNat % 2 ^ 31 + 2 ^ 31 * (y.getLsbD 31).toNat := by
    have := mod_two_pow_succ_bit y 31; have := y.isLt; omega
  have bx := Nat.mod_lt x.toNat (Nat.two_pow_pos 31)
  have by' := Nat.mod_lt y.toNat (Nat.two_pow_pos 31)
  have ix := BitVec.toInt_eq_toNat_cond x
  have iy := BitVec.toInt_eq_toNat_cond y
  have he : x = y ↔ x.toNat = y.toNat := BitVec.toNat_inj.symm
  unfold Cmp.holds
  generalize hxa : x.toNat % 2 ^ 31 = a at *
  generalize hyb : y.toNat % 2 ^ 31 = b at *
  generalize x.getLsbD 31 = p at *
  generalize y.getLsbD 31 = q at *
  have tf : Bool.toNat false = 0 := rfl
  have tt : Bool.toNat true = 1 := rfl
  cases p <;> cases q <;> simp only [tf, tt] at ex ey <;> cases c <;>
    simp [Cmp.low, Cmp.diff, he] <;> split at ix <;> split at iy <;> omega

/-! ### The sums -/

/-- Sign extension of a 20-bit immediate. -/
def imm20 (imm : BitVec 32) : BitVec 32 := (imm.setWidth 20).signExtend 32

theorem imm20_low (imm : BitVec 32) (k : Nat) (hk : k ≤ 19) :
    (imm20 imm).getLsbD k = imm.getLsbD k := by
  unfold imm20
  rw [BitVec.getLsbD_signExtend]
  have h1 : k < 20 := by omega
  have h2 : k < 32 := by omega
  simp [h1, h2, -BitVec.getLsbD_eq_getElem]
theorem imm20_high (imm : BitVec 32) (k : Nat) (h : 19 < k) (hk : k < 32) :
    (imm20 imm).getLsbD k = imm.getLsbD 19 := by
  unfold imm20
  rw [BitVec.getLsbD_signExtend]
  have h1 : ¬ k < 20 := by omega
  simp [h1, hk, BitVec.msb_eq_getLsbD_last, -BitVec.getLsbD_eq_getElem]

theorem signed_sum (base : Nat) (x imm : BitVec 32) (ht : t < 32)
    (hx : ∀ k, k < 32 → bit (base + k) = x.getLsbD k)
    (hi : ∀ k, k < 20 → bit (100 + k) = imm.getLsbD k) :
    addSem ⟨fun k => some (base + k), fun k => some (100 + k), 0, some 19, false⟩ t bit
      (mk ⟨fun k => some (base + k), fun k => some (100 + k), 0, some 19, false⟩ t t 0 none) =
      (x + imm20 imm).getLsbD t := by
  rw [mk_word _ t bit x (imm20 imm) (imm.getLsbD 19) ht (by simp)]
  · simp
  · intro k hk; simp only [semX]; rw [hx k (by omega)]
  · intro k sgn hk hg
    unfold Good AdderP.above at hg
    unfold semY AdderP.yPend AdderP.yConst AdderP.above
    simp only [Nat.blt_eq, Bool.false_eq_true, if_false] at hg ⊢
    by_cases h : 19 < k
    · simp only [if_pos h, hg trivial h, imm20_high imm k h (by omega)]
    · simp only [if_neg h, imm20_low imm k (by omega), hi k (by omega)]
  · intro k sgn hg
    unfold Good AdderP.above at *
    unfold nextSgn AdderP.yPend AdderP.isSign AdderP.above
    simp only [Nat.blt_eq, Bool.false_eq_true, if_false] at hg ⊢
    intro _ h
    by_cases h' : 19 < k
    · simp only [if_pos h']; exact hg trivial h'
    · have : k = 19 := by omega
      subst this
      simp [hi 19 (by omega)]
  · intro _ h; simp [AdderP.above] at h

theorem sum_pcImm (pc imm : BitVec 32) (ht : t < 32)
    (hx : ∀ k, k < 32 → bit (68 + k) = pc.getLsbD k)
    (hi : ∀ k, k < 20 → bit (100 + k) = imm.getLsbD k) :
    semSum bit t .pcImm = (pc + imm20 imm).getLsbD t := signed_sum bit t 68 pc imm ht hx hi
theorem sum_rs1Imm (rs1 imm : BitVec 32) (ht : t < 32)
    (hx : ∀ k, k < 32 → bit (4 + k) = rs1.getLsbD k)
    (hi : ∀ k, k < 20 → bit (100 + k) = imm.getLsbD k) :
    semSum bit t .rs1Imm = (rs1 + imm20 imm).getLsbD t := signed_sum bit t 4 rs1 imm ht hx hi
theorem sum_pc4 (pc : BitVec 32) (ht : t < 32)
    (hx : ∀ k, k < 32 → bit (68 + k) = pc.getLsbD k) :
    semSum bit t .pc4 = (pc + 4#32).getLsbD t := by
  unfold semSum
  rw [mk_word _ t bit pc 0#32 false ht (by simp [Sum.par])]
  · simp [Sum.par]
  · intro k hk; simp only [semX, Sum.par]; rw [hx k (by omega)]
  · intro k sgn _ _; simp [semY, AdderP.yPend, AdderP.yConst, Sum.par]
  · intro k sgn _ h; simp [Sum.par] at h
  · intro h; simp [Sum.par] at h

end Verif.Bdd
