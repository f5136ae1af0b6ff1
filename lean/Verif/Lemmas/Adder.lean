import Verif.Lemmas.BddCheck
/-
  Specification automaton computing output bit `t` of `x + y + K`, where `x` and `y` are read one
  input bit at a time from the least significant bit, and `y` may be sign-extended from a given
  position (its sign bit is then remembered).
-/
namespace Verif.Bdd

/-- Where the operands are read: input index of bit `k` of `x` and `y` (`none` = the bit is 0),
the constant `K`, the position of the sign bit of `y` (bits above it repeat it), and a flag
telling that `y` is absent. -/
structure AdderP where
  xv : Nat → Option Nat
  yv : Nat → Option Nat
  K : Nat
  sg : Option Nat
  noY : Bool

inductive AddSt
  | const (b : Bool)
  | var (v : Nat)
  /-- only `x`'s bit is missing at the current position -/
  | rx1 (v r acc : Nat) (sgn : Option Bool)
  /-- `x`'s then `y`'s bit -/
  | rx2 (v r acc : Nat) (sgn : Option Bool)
  /-- only `y`'s bit is missing -/
  | ry (v r acc : Nat) (sgn : Option Bool)
  deriving DecidableEq

variable (P : AdderP) (t : Nat)

/-- position `k` is above the sign bit -/
def AdderP.above (k : Nat) : Bool :=
  match P.sg with
  | some g => Nat.blt g k
  | none => false

/-- input still to be read for `y`'s bit `k` -/
def AdderP.yPend (k : Nat) : Option Nat :=
  if P.noY then none else if P.above k then none else P.yv k

/-- `y`'s bit `k` when it is not read -/
def AdderP.yConst (k : Nat) (sgn : Option Bool) : Nat :=
  if P.noY then 0 else if P.above k then (sgn.getD false).toNat else 0

def AdderP.isSign (k : Nat) : Bool :=
  match P.sg with
  | some g => Nat.beq g k
  | none => false

def AdderP.kBit (k : Nat) : Nat := P.K / 2 ^ k % 2

/-- all further bits of `y` are known -/
def AdderP.known (k : Nat) : Bool := P.noY || P.above k

/-- their value, `r + 1` bits -/
def AdderP.yRest (r : Nat) (sgn : Option Bool) : Nat :=
  if P.noY then 0 else if sgn.getD false then 2 ^ (r + 1) - 1 else 0

def rdy (next : Nat → Option Bool → AddSt) (r acc : Nat) (sgn : Option Bool) : AddSt :=
  match P.yPend (t - r) with
  | none => next (acc + P.yConst (t - r) sgn) sgn
  | some v =>
    if P.isSign (t - r) then
      if next acc (some false) = next (acc + 1) (some true) then next acc (some false)
      else .ry v r acc sgn
    else if r ≠ 0 ∧ acc % 2 = 0 then next acc sgn else .ry v r acc sgn

def rdx (next : Nat → Option Bool → AddSt) (r acc : Nat) (sgn : Option Bool) : AddSt :=
  match P.xv (t - r) with
  | none => rdy P t next r acc sgn
  | some v =>
    match P.yPend (t - r) with
    | some _ => .rx2 v r acc sgn
    | none =>
      if r ≠ 0 ∧ (acc + P.yConst (t - r) sgn) % 2 = 0 then next (acc + P.yConst (t - r) sgn) sgn
      else .rx1 v r (acc + P.yConst (t - r) sgn) sgn

/-- Entering position `t - r` with carry `d`. -/
def enter (next : Nat → Option Bool → AddSt) (r d : Nat) (sgn : Option Bool) : AddSt :=
  if Nat.ble r t && P.known (t - r) && Nat.beq ((P.yRest r sgn + P.K / 2 ^ (t - r) + d) % 2 ^ (r + 1)) 0 then
    match P.xv t with
    | some v => .var v
    | none => .const false
  else rdx P t next r (d + P.kBit (t - r)) sgn

def mk : Nat → Nat → Option Bool → AddSt
  | 0, d, sgn => enter P t (fun acc _ => .const (Nat.beq (acc % 2) 1)) 0 d sgn
  | r + 1, d, sgn => enter P t (fun acc s => mk r (acc / 2) s) (r + 1) d sgn

def fin : Nat → Nat → Option Bool → AddSt
  | 0, acc, _ => .const (Nat.beq (acc % 2) 1)
  | r + 1, acc, sgn => mk P t r (acc / 2) sgn

def addAuto : Auto AddSt where
  head
    | .const _ => none
    | .var v => some v
    | .rx1 v .. => some v
    | .rx2 v .. => some v
    | .ry v .. => some v
  step
    | .const b, _ => .const b
    | .var _, b => .const b
    | .rx1 _ r acc sgn, b => fin P t r (acc + b.toNat) sgn
    | .rx2 _ r acc sgn, b => rdy P t (fin P t r) r (acc + b.toNat) sgn
    | .ry _ r acc sgn, b => fin P t r (acc + b.toNat) (if P.isSign (t - r) then some b else sgn)
  out
    | .const b => b
    | _ => false

/-! ### Meaning of the states -/

variable (bit : Nat → Bool)

def semX (k : Nat) : Nat :=
  match P.xv k with
  | none => 0
  | some v => (bit v).toNat
def semY (k : Nat) (sgn : Option Bool) : Nat :=
  match P.yPend k with
  | none => P.yConst k sgn
  | some v => (bit v).toNat
def nextSgn (k : Nat) (sgn : Option Bool) : Option Bool :=
  match P.yPend k with
  | none => sgn
  | some v => if P.isSign k then some (bit v) else sgn

def semFin : Nat → Nat → Option Bool → Bool
  | 0, acc, _ => Nat.beq (acc % 2) 1
  | r + 1, acc, sgn =>
    semFin r (acc / 2 + P.kBit (t - r) + semX P bit (t - r) + semY P bit (t - r) sgn)
      (nextSgn P bit (t - r) sgn)

def semMk (r d : Nat) (sgn : Option Bool) : Bool :=
  semFin P t bit r (d + P.kBit (t - r) + semX P bit (t - r) + semY P bit (t - r) sgn)
    (nextSgn P bit (t - r) sgn)

def addSem : AddSt → Bool
  | .const b => b
  | .var v => bit v
  | .rx1 v r acc sgn => semFin P t bit r (acc + (bit v).toNat) sgn
  | .rx2 v r acc sgn =>
    semFin P t bit r (acc + (bit v).toNat + semY P bit (t - r) sgn) (nextSgn P bit (t - r) sgn)
  | .ry v r acc sgn =>
    semFin P t bit r (acc + (bit v).toNat) (if P.isSign (t - r) then some (bit v) else sgn)

theorem semFin_even (r acc : Nat) (sgn : Option Bool) (b : Nat) (hb : b ≤ 1) (hr : r ≠ 0)
    (ha : acc % 2 = 0) : semFin P t bit r (acc + b) sgn = semFin P t bit r acc sgn := by
  obtain ⟨r, rfl⟩ : ∃ q, r = q + 1 := ⟨r - 1, by omega⟩
  simp only [semFin]
  rw [show (acc + b) / 2 = acc / 2 by omega]

theorem toNat_le_one (b : Bool) : b.toNat ≤ 1 := by cases b <;> simp

theorem sem_rdy (next : Nat → Option Bool → AddSt) (r : Nat)
    (hn : ∀ acc sgn, addSem P t bit (next acc sgn) = semFin P t bit r acc sgn) (acc : Nat)
    (sgn : Option Bool) :
    addSem P t bit (rdy P t next r acc sgn) =
      semFin P t bit r (acc + semY P bit (t - r) sgn) (nextSgn P bit (t - r) sgn) := by
  unfold rdy semY nextSgn
  cases hy : P.yPend (t - r) with
  | none => exact hn _ _
  | some v =>
    show addSem P t bit (if P.isSign (t - r) then _ else _) = semFin P t bit r (acc + (bit v).toNat)
      (if P.isSign (t - r) then some (bit v) else sgn)
    by_cases hs : P.isSign (t - r) = true
    · rw [if_pos hs, if_pos hs]
      by_cases he : next acc (some false) = next (acc + 1) (some true)
      · rw [if_pos he, hn]
        have h2 := hn (acc + 1) (some true)
        rw [← he, hn] at h2
        cases bit v <;> simp [h2]
      · rw [if_neg he]; simp [addSem, hs]
    · rw [if_neg hs, if_neg hs]
      by_cases h : r ≠ 0 ∧ acc % 2 = 0
      · rw [if_pos h, hn, semFin_even P t bit r acc sgn _ (toNat_le_one _) h.1 h.2]
      · rw [if_neg h]; simp [addSem, hs]

theorem sem_rdx (next : Nat → Option Bool → AddSt) (r : Nat)
    (hn : ∀ acc sgn, addSem P t bit (next acc sgn) = semFin P t bit r acc sgn) (acc : Nat)
    (sgn : Option Bool) :
    addSem P t bit (rdx P t next r acc sgn) =
      semFin P t bit r (acc + semX P bit (t - r) + semY P bit (t - r) sgn)
        (nextSgn P bit (t - r) sgn) := by
  unfold rdx semX
  cases hx : P.xv (t - r) with
  | none => simp only [sem_rdy P t bit next r hn, Nat.add_zero]
  | some v =>
    cases hy : P.yPend (t - r) with
    | some w => simp [addSem]
    | none =>
      simp only [semY, nextSgn, hy]
      rw [show acc + (bit v).toNat + P.yConst (t - r) sgn =
        acc + P.yConst (t - r) sgn + (bit v).toNat by omega]
      split
      · next h => rw [hn, semFin_even P t bit r _ sgn _ (toNat_le_one _) h.1 h.2]
      · simp [addSem]

theorem yRest_succ (r : Nat) (sgn : Option Bool) (hk : P.known (t - (r + 1)) = true) :
    P.yRest (r + 1) sgn = P.yConst (t - (r + 1)) sgn + 2 * P.yRest r sgn := by
  unfold AdderP.known at hk
  unfold AdderP.yRest AdderP.yConst
  cases hY : P.noY
  · simp only [hY, Bool.false_or] at hk
    simp only [hk]
    cases sgn.getD false
    · simp
    · have := Nat.two_pow_pos (r + 1)
      have e : 2 ^ (r + 1 + 1) = 2 * 2 ^ (r + 1) := by rw [Nat.pow_succ]; omega
      simp; omega
  · simp

theorem known_pend {k : Nat} (h : P.known k = true) : P.yPend k = none := by
  unfold AdderP.known at h
  unfold AdderP.yPend
  cases hY : P.noY <;> simp_all

theorem known_succ {k : Nat} (h : P.known k = true) : P.known (k + 1) = true := by
  unfold AdderP.known AdderP.above at *
  cases hY : P.noY
  · cases hs : P.sg with
    | none => simp [hY, hs] at h
    | some g =>
      simp only [hY, hs, Bool.false_or, Nat.blt_eq] at h ⊢
      omega
  · simp

theorem semX_le (k : Nat) : semX P bit k ≤ 1 := by
  unfold semX; split <;> simp [toNat_le_one]

theorem sem_known : ∀ (r d : Nat) (sgn : Option Bool), r ≤ t → P.known (t - r) = true →
    (P.yRest r sgn + P.K / 2 ^ (t - r) + d) % 2 ^ (r + 1) = 0 →
    semMk P t bit r d sgn = Nat.beq (semX P bit t) 1 := by
  intro r
  induction r with
  | zero =>
    intro d sgn _ hk h
    have hx := semX_le P bit t
    simp only [semMk, semFin, Nat.sub_zero, semY]
    simp only [Nat.sub_zero, Nat.zero_add, Nat.pow_one] at h hk
    have hy : P.yRest 0 sgn = P.yConst t sgn := by
      unfold AdderP.known at hk
      unfold AdderP.yRest AdderP.yConst
      cases hY : P.noY
      · simp only [hY, Bool.false_or] at hk
        simp only [hk]
        cases sgn.getD false <;> simp
      · simp
    have hpk : P.yPend t = none := known_pend P hk
    rw [hpk]
    unfold AdderP.kBit
    rw [hy] at h
    have : (d + P.K / 2 ^ t % 2 + semX P bit t + P.yConst t sgn) % 2 = semX P bit t := by omega
    simp only [this]
  | succ r ih =>
    intro d sgn hr hk h
    have hx := semX_le P bit (t - (r + 1))
    have e1 : t - r = t - (r + 1) + 1 := by omega
    have hk' : P.known (t - r) = true := by rw [e1]; exact known_succ P hk
    have hyr := yRest_succ P t r sgn hk
    have hK : P.K / 2 ^ (t - (r + 1)) = 2 * (P.K / 2 ^ (t - r)) + P.kBit (t - (r + 1)) := by
      unfold AdderP.kBit
      rw [e1, Nat.pow_succ, ← Nat.div_div_eq_div_mul]; omega
    have hn : nextSgn P bit (t - (r + 1)) sgn = sgn := by
      unfold nextSgn; rw [known_pend P hk]
    have hY : semY P bit (t - (r + 1)) sgn = P.yConst (t - (r + 1)) sgn := by
      unfold semY; rw [known_pend P hk]
    simp only [semMk, semFin, hn, hY]
    generalize hy : P.yConst (t - (r + 1)) sgn = y at *
    generalize hkb : P.kBit (t - (r + 1)) = kb at *
    generalize hX : semX P bit (t - (r + 1)) = X at *
    have hpow : 2 ^ (r + 1 + 1) = 2 * 2 ^ (r + 1) := by rw [Nat.pow_succ]; omega
    rw [hyr, hK] at h
    have hdvd : 2 ∣ y + 2 * P.yRest r sgn + (2 * (P.K / 2 ^ (t - r)) + kb) + d := by
      have := Nat.dvd_of_mod_eq_zero h
      exact Nat.dvd_trans ⟨2 ^ (r + 1), hpow⟩ this
    have heven : (y + kb + d) % 2 = 0 := by omega
    have hd : (d + kb + X + y) / 2 = (y + kb + d) / 2 := by omega
    rw [hd]
    apply ih ((y + kb + d) / 2) sgn (by omega) hk'
    have hsum : y + 2 * P.yRest r sgn + (2 * (P.K / 2 ^ (t - r)) + kb) + d =
        2 * (P.yRest r sgn + P.K / 2 ^ (t - r) + (y + kb + d) / 2) := by omega
    rw [hsum, hpow, Nat.mul_mod_mul_left] at h
    omega

theorem sem_enter (next : Nat → Option Bool → AddSt) (r : Nat)
    (hn : ∀ acc sgn, addSem P t bit (next acc sgn) = semFin P t bit r acc sgn) (d : Nat)
    (sgn : Option Bool) :
    addSem P t bit (enter P t next r d sgn) = semMk P t bit r d sgn := by
  unfold enter
  split
  · next h =>
    simp only [Bool.and_eq_true] at h
    rw [sem_known P t bit r d sgn (Nat.le_of_ble_eq_true h.1.1) h.1.2
      (Nat.eq_of_beq_eq_true h.2)]
    unfold semX
    cases P.xv t with
    | none => rfl
    | some v => cases hb : bit v <;> simp only [addSem, hb] <;> rfl
  · rw [sem_rdx P t bit next r hn]; rfl

theorem sem_mk : ∀ (r d : Nat) (sgn : Option Bool),
    addSem P t bit (mk P t r d sgn) = semMk P t bit r d sgn := by
  intro r
  induction r with
  | zero =>
    intro d sgn
    simp only [mk]
    exact sem_enter P t bit _ 0 (fun _ _ => rfl) d sgn
  | succ r ih =>
    intro d sgn
    simp only [mk]
    refine sem_enter P t bit _ (r + 1) (fun acc s => ?_) d sgn
    rw [ih _ _]; rfl

theorem sem_fin (r acc : Nat) (sgn : Option Bool) :
    addSem P t bit (fin P t r acc sgn) = semFin P t bit r acc sgn := by
  cases r with
  | zero => rfl
  | succ r => simp only [fin]; rw [sem_mk P t bit r _ _]; rfl

theorem addAuto_step (s : AddSt) (v : Nat) (h : (addAuto P t).head s = some v) :
    addSem P t bit s = addSem P t bit ((addAuto P t).step s (bit v)) := by
  cases s with
  | const b => simp [addAuto] at h
  | var w => simp only [addAuto, Option.some.injEq] at h; subst h; rfl
  | rx1 w r acc sgn =>
    simp only [addAuto, Option.some.injEq] at h; subst h
    simp only [addAuto, sem_fin]; rfl
  | rx2 w r acc sgn =>
    simp only [addAuto, Option.some.injEq] at h; subst h
    simp only [addAuto]
    rw [sem_rdy P t bit _ r (fun a s => sem_fin P t bit r a s)]; rfl
  | ry w r acc sgn =>
    simp only [addAuto, Option.some.injEq] at h; subst h
    simp only [addAuto, sem_fin]; rfl

theorem addAuto_out (s : AddSt) (h : (addAuto P t).head s = none) :
    addSem P t bit s = (addAuto P t).out s := by
  cases s <;> simp [addAuto] at h ⊢ <;> rfl

end Verif.Bdd
