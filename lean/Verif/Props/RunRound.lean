import Verif.Spec.RunRound
import Verif.Props.SameStep
/-
  C101: when the number of words of a program is a power of two, both VMs start it over at its end.
-/
namespace Verif.Props
open Model Spec

/-! ### States up to the size of the program -/

theorem wrap_eq_iff {b : Nat} (s t : Arch) :
    s.wrapPc b = t.wrapPc b ↔ s.reg = t.reg ∧ s.mem = t.mem ∧ s.pc.toNat % 2 ^ b = t.pc.toNat % 2 ^ b := by
  have lt (x : Word) : x.toNat % 2 ^ b < 2 ^ 32 := Nat.lt_of_le_of_lt (Nat.mod_le _ _) x.isLt
  constructor
  · intro h
    have h1 := congrArg Arch.reg h
    have h2 := congrArg Arch.mem h
    refine ⟨h1, h2, ?_⟩
    have := congrArg (fun a : Arch => a.pc.toNat) h
    simp only [Arch.wrapPc, BitVec.toNat_ofNat] at this
    rwa [Nat.mod_eq_of_lt (lt _), Nat.mod_eq_of_lt (lt _)] at this
  · rintro ⟨h1, h2, h3⟩
    unfold Arch.wrapPc
    rw [h1, h2, h3]

theorem wrap_toNat (b : Nat) (s : Arch) : (s.wrapPc b).pc.toNat = s.pc.toNat % 2 ^ b := by
  show (BitVec.ofNat 32 _).toNat = _
  rw [BitVec.toNat_ofNat, Nat.mod_eq_of_lt (Nat.lt_of_le_of_lt (Nat.mod_le _ _) s.pc.isLt)]

theorem mod_pow_mod {b : Nat} (hb : b ≤ 32) (n : Nat) : n % 2 ^ 32 % 2 ^ b = n % 2 ^ b :=
  Nat.mod_mod_of_dvd _ (Nat.pow_dvd_pow 2 hb)

theorem add_mod {b : Nat} (hb : b ≤ 32) {x y : Word} (h : x.toNat % 2 ^ b = y.toNat % 2 ^ b) (d : Word) :
    (x + d).toNat % 2 ^ b = (y + d).toNat % 2 ^ b := by
  rw [BitVec.toNat_add, BitVec.toNat_add, mod_pow_mod hb, mod_pow_mod hb, Nat.add_mod, h, ← Nat.add_mod]

theorem wrap_mod (b : Nat) (s : Arch) : (s.wrapPc b).pc.toNat % 2 ^ b = s.pc.toNat % 2 ^ b := by
  rw [wrap_toNat, Nat.mod_mod]

theorem wrap_same (b : Nat) (s : Arch) : (s.wrapPc b).pc = s.pc ↔ s.pc.toNat < 2 ^ b := by
  constructor
  · intro h
    have := congrArg BitVec.toNat h
    rw [wrap_toNat] at this
    rw [← this]
    exact Nat.mod_lt _ (Nat.two_pow_pos b)
  · intro h
    apply BitVec.eq_of_toNat_eq
    rw [wrap_toNat, Nat.mod_eq_of_lt h]

theorem setX_reg_iff (s : Arch) (rd : Reg) (v w : Word) : (s.setX rd v).reg = (s.setX rd w).reg ↔ rd = 0#5 ∨ v = w := by
  constructor
  · intro h
    by_cases hr : rd = 0#5
    · exact Or.inl hr
    · right
      have := congrFun h rd
      simpa [Arch.setX, hr] using this
  · rintro (rfl | rfl)
    · simp [Arch.setX]
    · rfl

theorem far_value (imm : BitVec 20) : (immJ imm).toNat % 2 ^ 21 = 2 * imm.toNat ∧
    (((immJ imm).setWidth 20).signExtend 32).toNat = 2 * imm.toNat % 2 ^ 20 + if imm.toNat % 2 ^ 19 < 2 ^ 18 then 0 else 2 ^ 32 - 2 ^ 20 := by
  have hJ : (immJ imm).toNat = (imm.toNat + if imm.msb then 2 ^ 32 - 2 ^ 20 else 0) * 2 % 2 ^ 32 := by
    unfold immJ
    rw [BitVec.toNat_shiftLeft, BitVec.toNat_signExtend, BitVec.toNat_setWidth, Nat.shiftLeft_eq, Nat.mod_eq_of_lt (by omega : imm.toNat < 2 ^ 32)]
  have lt := imm.isLt
  have hj : (immJ imm).toNat % 2 ^ 21 = 2 * imm.toNat := by
    rw [hJ]
    split <;> omega
  refine ⟨hj, ?_⟩
  rw [BitVec.toNat_signExtend, BitVec.toNat_setWidth, BitVec.toNat_setWidth, BitVec.msb_eq_decide, BitVec.toNat_setWidth,
    Nat.mod_eq_of_lt (by omega : (immJ imm).toNat % 2 ^ 20 < 2 ^ 32), show (immJ imm).toNat % 2 ^ 20 = 2 * imm.toNat % 2 ^ 20 by omega]
  congr 1
  by_cases h : imm.toNat % 2 ^ 19 < 2 ^ 18
  · rw [if_pos h, if_neg (by simp; omega)]
  · rw [if_neg h, if_pos (by simp; omega)]

theorem near_iff (imm : BitVec 20) : -2 ^ 18 ≤ imm.toInt ∧ imm.toInt < 2 ^ 18 ↔
    (imm.toNat % 2 ^ 19 < 2 ^ 18 ↔ imm.toNat < 2 ^ 19) := by
  have lt := imm.isLt
  rw [BitVec.toInt_eq_toNat_cond]
  split <;> omega

theorem add_mod_iff {b : Nat} (hb : b ≤ 32) (p x y : Word) :
    (p + x).toNat % 2 ^ b = (p + y).toNat % 2 ^ b ↔ x.toNat % 2 ^ b = y.toNat % 2 ^ b := by
  constructor
  · intro h
    have := add_mod hb h (-p)
    rwa [BitVec.add_comm p x, BitVec.add_comm p y, ← BitVec.sub_eq_add_neg, ← BitVec.sub_eq_add_neg, BitVec.add_sub_cancel,
      BitVec.add_sub_cancel] at this
  · intro h
    rw [BitVec.add_comm p x, BitVec.add_comm p y]
    exact add_mod hb h p

theorem far_mod (bits : Nat) (hb : bits ≤ 32) (p : Word) (imm : BitVec 20) :
    (p + ((immJ imm).setWidth 20).signExtend 32).toNat % 2 ^ bits = (p + immJ imm).toNat % 2 ^ bits ↔
      bits ≤ 20 ∨ -2 ^ 18 ≤ imm.toInt ∧ imm.toInt < 2 ^ 18 := by
  rw [add_mod_iff hb]
  obtain ⟨h1, h2⟩ := far_value imm
  have lt := imm.isLt
  constructor
  · intro h
    by_cases hs : bits ≤ 20
    · exact Or.inl hs
    · right
      rw [near_iff]
      have h21 := congrArg (· % 2 ^ 21) h
      simp only [Nat.mod_mod_of_dvd _ (Nat.pow_dvd_pow 2 (by omega : 21 ≤ bits))] at h21
      rw [h1, h2] at h21
      split at h21 <;> omega
  · rintro (h | h)
    · have h20 : (((immJ imm).setWidth 20).signExtend 32).toNat % 2 ^ 20 = (immJ imm).toNat % 2 ^ 20 := by
        rw [h2]
        split <;> omega
      have := congrArg (· % 2 ^ bits) h20
      simpa only [Nat.mod_mod_of_dvd _ (Nat.pow_dvd_pow 2 h)] using this
    · rw [show ((immJ imm).setWidth 20).signExtend 32 = immJ imm from
        (jump20 (.jal 0 imm) ⟨0#32, fun _ => 0#32, fun _ => 0#8⟩ h).resolve_left (by show ¬ PcUpdate.JAL.id = PcUpdate.NONE.id; decide)]

theorem access_wrap (words : Nat) (i : Instr) (s : Arch) (bits : Nat) (h : (i.access s).isSome = true) :
    execAll words i (s.wrapPc bits) = { execAll words i s with pc := (s.wrapPc bits).pc + 4#32 } := by
  cases i with
  | load o rd rs1 imm => cases o <;> rfl
  | store o rs1 rs2 imm => rfl
  | _ => cases h

theorem access_next (words : Nat) (i : Instr) (s : Arch) (h : (i.access s).isSome = true) : (execAll words i s).pc = s.pc + 4#32 := by
  cases i with
  | load o rd rs1 imm => cases o <;> rfl
  | store o rs1 rs2 imm => rfl
  | _ => cases h

theorem access_next_test (base size : Nat) (i : Instr) (s : Arch) (h : (i.access s).isSome = true) :
    (execTest base size i s).pc = s.pc + 4#32 := by
  cases i with
  | load o rd rs1 imm => rfl
  | store o rs1 rs2 imm => rfl
  | _ => cases h

theorem access_iff {a b : Arch} {p q : Word} {n : Nat} (ha : a.pc = q) (hb : b.pc = q) (h : p.toNat % n = q.toNat % n) :
    (a.reg = b.reg ∧ a.mem = b.mem ∧ p.toNat % n = b.pc.toNat % n) ↔ a = b := by
  constructor
  · rintro ⟨h1, h2, -⟩
    cases a; cases b
    simp_all
  · rintro rfl
    exact ⟨rfl, rfl, by rw [ha, h]⟩

/-- One step on each VM from the same registers and RAM and program counters which are equal modulo the size of the program, of which the
encrypted VM keeps the remainder, leads to such states again exactly if the condition holds. -/
theorem C101_step (bits : Nat) (hb : bits ≤ 32) (i : Instr) (s : Arch) (hal : ¬ i.badAlign s) :
    (execAll 1024 i (s.wrapPc bits)).wrapPc bits = (execTest ramBase 4096 i s).wrapPc bits ↔ sameRound bits i s := by
  have hm := wrap_mod bits s
  have h4 := add_mod hb hm 4#32
  have base := C99_step i s hal
  cases i with
  | load o rd rs1 imm =>
    refine Iff.trans ?_ base
    rw [wrap_eq_iff, access_wrap 1024 (.load o rd rs1 imm) s bits rfl]
    exact access_iff (access_next 1024 (.load o rd rs1 imm) s rfl) (access_next_test ramBase 4096 (.load o rd rs1 imm) s rfl) h4
  | store o rs1 rs2 imm =>
    refine Iff.trans ?_ base
    rw [wrap_eq_iff, access_wrap 1024 (.store o rs1 rs2 imm) s bits rfl]
    exact access_iff (access_next 1024 (.store o rs1 rs2 imm) s rfl) (access_next_test ramBase 4096 (.store o rs1 rs2 imm) s rfl) h4
  | mul o rd rs1 rs2 =>
    rw [wrap_eq_iff]
    refine Iff.trans ⟨fun h => h.1, fun h => ⟨h, rfl, h4⟩⟩ ?_
    refine (setX_reg_iff s rd _ _).trans (or_congr_right eq_comm)
  | auipc rd imm =>
    rw [wrap_eq_iff]
    refine Iff.trans ⟨fun h => h.1, fun h => ⟨h, rfl, h4⟩⟩ ?_
    refine (setX_reg_iff s rd _ _).trans (or_congr_right (Iff.trans ?_ (wrap_same bits s)))
    exact BitVec.add_left_inj _
  | jalr rd rs1 imm =>
    rw [wrap_eq_iff]
    refine Iff.trans ⟨fun h => h.1, fun h => ⟨h, rfl, rfl⟩⟩ ?_
    refine (setX_reg_iff s rd _ _).trans (or_congr_right (Iff.trans ?_ (wrap_same bits s)))
    exact BitVec.add_left_inj _
  | jal rd imm =>
    rw [wrap_eq_iff]
    refine Iff.trans (b := (s.setX rd ((s.wrapPc bits).pc + 4#32)).reg = (s.setX rd (s.pc + 4#32)).reg ∧
      (s.pc + ((immJ imm).setWidth 20).signExtend 32).toNat % 2 ^ bits = (s.pc + immJ imm).toNat % 2 ^ bits) ?_ ?_
    · rw [← add_mod hb hm]
      exact ⟨fun h => ⟨h.1, h.2.2⟩, fun h => ⟨h.1, rfl, h.2⟩⟩
    · rw [far_mod bits hb, setX_reg_iff, BitVec.add_left_inj, wrap_same]
      exact Iff.rfl
  | branch o rs1 rs2 imm =>
    rw [wrap_eq_iff]
    refine ⟨fun _ => trivial, fun _ => ?_⟩
    have e1 : execAll 1024 (.branch o rs1 rs2 imm) (s.wrapPc bits) = if o.taken (s.x rs1) (s.x rs2) then
        { s.wrapPc bits with pc := (s.wrapPc bits).pc + immB imm } else (s.wrapPc bits).next := rfl
    have e2 : execTest ramBase 4096 (.branch o rs1 rs2 imm) s = if o.taken (s.x rs1) (s.x rs2) then
        { s with pc := s.pc + immB imm } else s.next := rfl
    rw [e1, e2]
    by_cases ht : o.taken (s.x rs1) (s.x rs2)
    · rw [if_pos ht, if_pos ht]
      exact ⟨rfl, rfl, add_mod hb hm _⟩
    · rw [if_neg ht, if_neg ht]
      exact ⟨rfl, rfl, h4⟩
  | lui rd imm => exact ⟨fun _ => trivial, fun _ => (wrap_eq_iff _ _).mpr ⟨rfl, rfl, h4⟩⟩
  | opImm o rd rs1 imm => exact ⟨fun _ => trivial, fun _ => (wrap_eq_iff _ _).mpr ⟨rfl, rfl, h4⟩⟩
  | shImm o rd rs1 imm => exact ⟨fun _ => trivial, fun _ => (wrap_eq_iff _ _).mpr ⟨rfl, rfl, h4⟩⟩
  | op o rd rs1 imm => exact ⟨fun _ => trivial, fun _ => (wrap_eq_iff _ _).mpr ⟨rfl, rfl, h4⟩⟩

/-! ### Runs -/

/-- Both VMs read the same instruction everywhere. -/
theorem C101_fetch {rom : List Byte} {ft fw : Word → Option Instr} {k : Nat} (hl : rom.length = 4 * 2 ^ k) (ht : FetchTest rom ft)
    (hw : FetchWord rom (k + 2) fw) (hd : ∀ pc : Word, (fw pc).isSome = true ↔ pc.toNat % 2 ^ (k + 2) / 4 < rom.length / 4)
    {pc : Word} {i : Instr} (hi : ft pc = some i) : fw pc = some i := by
  have e : 2 ^ (k + 2) = rom.length := by rw [hl, Nat.pow_add]; omega
  have h0 : 0 < rom.length := by rw [← e]; exact Nat.two_pow_pos _
  have h4 : rom.length % 4 = 0 := by omega
  obtain ⟨ha, w, hw1, hr⟩ := (ht pc i).mp hi
  rw [e] at hd
  have lt := Nat.mod_lt pc.toNat h0
  obtain ⟨j, hj⟩ := Option.isSome_iff_exists.mp ((hd pc).mpr (by omega))
  obtain ⟨v, hv1, hv2⟩ := (hw pc j).mp hj
  have h4' : pc.toNat % rom.length % 4 = 0 := by
    rw [Nat.mod_mod_of_dvd _ (Nat.dvd_of_mod_eq_zero h4)]; exact ha
  rw [e, Nat.mul_div_cancel' (Nat.dvd_of_mod_eq_zero h4')] at hv1
  have e : w = v := testWord_unique hw1 fun k hk => by
    rw [← Nat.mod_add_mod, Nat.mod_eq_of_lt (by omega)]
    exact hv1 k hk
  subst e
  rw [hj, C97_alike hr hv2]

theorem fetch_wrap {rom : List Byte} {fw : Word → Option Instr} {b : Nat} (hw : FetchWord rom b fw) {x y : Word}
    (h : x.toNat % 2 ^ b = y.toNat % 2 ^ b) {i : Instr} (hi : fw x = some i) : fw y = some i := by
  rw [hw, ← h]
  exact (hw x i).mp hi

/-- A run of the test VM, however often it starts over, is up to the size of the program the run of the encrypted VM, or there is a first
step after which the two are different. -/
theorem C101_first {rom : List Byte} {ft fw : Word → Option Instr} {chk : Bool} {n k : Nat} {s s' : Arch} (hl : rom.length = 4 * 2 ^ k)
    (hk : k ≤ 30) (ht : FetchTest rom ft) (hw : FetchWord rom (k + 2) fw)
    (hd : ∀ pc : Word, (fw pc).isSome = true ↔ pc.toNat % 2 ^ (k + 2) / 4 < rom.length / 4)
    (h : RunsIf ft (fun i s => ¬ stuck i s chk ramBase) (execTest ramBase 4096) n s s') {t : Arch}
    (hst : t.wrapPc (k + 2) = s.wrapPc (k + 2)) :
    (∃ t', RunsWith fw (fun i s => execAll 1024 i (s.wrapPc (k + 2))) n t t' ∧ t'.wrapPc (k + 2) = s'.wrapPc (k + 2)) ∨
    ∃ m u v i, m < n ∧ RunsIf ft (fun i s => ¬ stuck i s chk ramBase) (execTest ramBase 4096) m s u ∧
      RunsWith fw (fun i s => execAll 1024 i (s.wrapPc (k + 2))) m t v ∧ v.wrapPc (k + 2) = u.wrapPc (k + 2) ∧
      ft u.pc = some i ∧ fw v.pc = some i ∧ ¬ stuck i u chk ramBase ∧ ¬ sameRound (k + 2) i u ∧
      (execAll 1024 i (v.wrapPc (k + 2))).wrapPc (k + 2) ≠ (execTest ramBase 4096 i u).wrapPc (k + 2) := by
  induction h generalizing t with
  | zero s => exact Or.inl ⟨t, .zero t, hst⟩
  | @succ n i s s' hi hok _ ih =>
    have hfw : fw t.pc = some i := fetch_wrap hw ((wrap_eq_iff _ _).mp hst).2.2.symm (C101_fetch hl ht hw hd hi)
    have hstep := C101_step (k + 2) (by omega) i s fun h => hok (Or.inr (Or.inl h))
    rw [← hst] at hstep
    by_cases same : sameRound (k + 2) i s
    · rcases ih (hstep.mpr same) with ⟨t', h1, h2⟩ | ⟨m, u, v, j, h1, h2, h3, h5⟩
      · exact Or.inl ⟨t', .succ hfw h1, h2⟩
      · exact Or.inr ⟨m + 1, u, v, j, by omega, .succ hi hok h2, .succ hfw h3, h5⟩
    · exact Or.inr ⟨0, s, t, i, by omega, .zero s, .zero t, hst, hi, hfw, hok, same, fun h => same (hstep.mp h)⟩

/-- If the condition holds at every step, it is. -/
theorem C101_runs {rom : List Byte} {ft fw : Word → Option Instr} {chk : Bool} {n k : Nat} {s s' : Arch} (hl : rom.length = 4 * 2 ^ k)
    (hk : k ≤ 30) (ht : FetchTest rom ft) (hw : FetchWord rom (k + 2) fw)
    (hd : ∀ pc : Word, (fw pc).isSome = true ↔ pc.toNat % 2 ^ (k + 2) / 4 < rom.length / 4)
    (h : RunsIf ft (fun i s => ¬ stuck i s chk ramBase ∧ sameRound (k + 2) i s) (execTest ramBase 4096) n s s') {t : Arch}
    (hst : t.wrapPc (k + 2) = s.wrapPc (k + 2)) :
    ∃ t', RunsWith fw (fun i s => execAll 1024 i (s.wrapPc (k + 2))) n t t' ∧ t'.wrapPc (k + 2) = s'.wrapPc (k + 2) := by
  induction h generalizing t with
  | zero s => exact ⟨t, .zero t, hst⟩
  | @succ n i s s' hi hok _ ih =>
    have hfw : fw t.pc = some i := fetch_wrap hw ((wrap_eq_iff _ _).mp hst).2.2.symm (C101_fetch hl ht hw hd hi)
    have hstep := C101_step (k + 2) (by omega) i s fun h => hok.1 (Or.inr (Or.inl h))
    rw [← hst] at hstep
    obtain ⟨t', h1, h2⟩ := ih (hstep.mpr hok.2)
    exact ⟨t', .succ hfw h1, h2⟩

/-! ### Instructions for which the condition always holds -/

theorem target_mod (x : Word) : (x &&& ~~~1#32).toNat % 4 = x.toNat % 4 / 2 * 2 := by
  rw [BitVec.toNat_and, show (~~~1#32 : Word).toNat = 2 ^ 32 - 2 by decide, show (4 : Nat) = 2 ^ 2 from rfl, Nat.and_mod_two_pow]
  have := x.isLt
  generalize hy : x.toNat % 2 ^ 2 = y
  have : y < 4 := by omega
  have : y = 0 ∨ y = 1 ∨ y = 2 ∨ y = 3 := by omega
  rcases this with rfl | rfl | rfl | rfl <;> decide

theorem immJ_even (imm : BitVec 20) : (immJ imm).toNat % 2 = 0 := by
  have := (far_value imm).1
  omega

/-- A state with a given program counter, the same value in all registers and zero in all bytes. -/
def stateAt (pc v : Word) : Arch := ⟨pc, fun _ => v, fun _ => 0#8⟩

theorem stateAt_pc (pc v : Word) : (stateAt pc v).pc = pc := rfl
theorem stateAt_x (pc v : Word) (r : Reg) : (stateAt pc v).x r = if r = 0#5 then 0#32 else v := rfl

theorem high_pc {bits : Nat} (h : ¬ 32 ≤ bits) (pc : Word) (hp : 2 ^ 31 ≤ pc.toNat) : ¬ pc.toNat < 2 ^ bits := by
  have := Nat.pow_le_pow_right (n := 2) (by decide) (by omega : bits ≤ 31)
  omega

/-- The instructions for which the condition holds in every state in which the test VM executes them are exactly these. -/
theorem C101_always (bits : Nat) (h1 : 1 ≤ bits) (i : Instr) :
    alwaysRound bits i ↔ ∀ s, ¬ stuck i s false ramBase → sameRound bits i s := by
  have pcLt (s : Arch) (h : 32 ≤ bits) : s.pc.toNat < 2 ^ bits :=
    Nat.lt_of_lt_of_le s.pc.isLt (Nat.pow_le_pow_right (by decide) h)
  have base := C99_always i
  cases i with
  | auipc rd imm =>
    constructor
    · rintro (h | h) s -
      · exact Or.inl h
      · exact Or.inr (pcLt s h)
    · intro h
      by_cases hb : 32 ≤ bits
      · exact Or.inr hb
      · have := h (stateAt 0x80000000#32 0#32) (by
          rintro (⟨t, h1, -⟩ | h1 | h1 | ⟨h1, -⟩)
          · cases h1
          · exact h1
          · exact h1
          · cases h1)
        exact Or.inl (this.resolve_right (high_pc hb _ (by rw [stateAt_pc]; decide)))
  | jalr rd rs1 imm =>
    constructor
    · rintro (h | h | ⟨rfl, h⟩) s hs
      · exact Or.inl h
      · exact Or.inr (pcLt s h)
      · refine absurd (Or.inl ⟨_, rfl, ?_⟩) hs
        rw [target_mod]
        have e : s.x 0#5 + immI imm = immI imm := BitVec.zero_add _
        rw [e, immI_mod4]
        omega
    · intro h
      by_cases hb : 32 ≤ bits
      · exact Or.inr (Or.inl hb)
      · by_cases hr : rs1 = 0#5 ∧ 2 ≤ imm.toNat % 4
        · exact Or.inr (Or.inr hr)
        · have := h (stateAt 0x80000000#32 (0#32 - immI imm)) (by
            rintro (⟨t, h1, h2⟩ | h1 | h1 | ⟨h1, -⟩)
            · have h1 := (Option.some.inj h1).symm
              subst h1
              rw [target_mod, stateAt_x] at h2
              split at h2
              · rw [BitVec.zero_add, immI_mod4] at h2
                rename_i h3
                exact hr ⟨h3, by omega⟩
              · rw [BitVec.sub_add_cancel] at h2
                exact h2 rfl
            · exact h1
            · exact h1
            · cases h1)
          exact Or.inl (this.resolve_right (high_pc hb _ (by rw [stateAt_pc]; decide)))
  | jal rd imm =>
    constructor
    · rintro ⟨h | h, h2⟩ s -
      · exact ⟨Or.inl h, h2⟩
      · exact ⟨Or.inr (pcLt s h), h2⟩
    · intro h
      have ev := immJ_even imm
      have lt := (immJ imm).isLt
      have := h (stateAt (if (immJ imm).toNat % 4 = 0 then 0x80000000#32 else 0x80000002#32) 0#32) (by
        rintro (⟨t, h1, h2⟩ | h1 | h1 | ⟨h1, -⟩)
        · have h1 := (Option.some.inj h1).symm
          subst h1
          rw [stateAt_pc, BitVec.toNat_add] at h2
          split at h2
          · rw [show (0x80000000#32).toNat = 2 ^ 31 by decide] at h2
            omega
          · rw [show (0x80000002#32).toNat = 2 ^ 31 + 2 by decide] at h2
            omega
        · exact h1
        · exact h1
        · cases h1)
      refine ⟨?_, this.2⟩
      by_cases hb : 32 ≤ bits
      · exact Or.inr hb
      · refine Or.inl (this.1.resolve_right (high_pc hb _ ?_))
        rw [stateAt_pc]
        split <;> decide
  | mul o rd rs1 rs2 =>
    have stk (s t : Arch) (h : s.reg = t.reg) (hs : ¬ stuck (.mul o rd rs1 rs2) s false ramBase) :
        ¬ stuck (.mul o rd rs1 rs2) t false ramBase := by
      rintro (⟨t, h1, -⟩ | h1 | h1 | ⟨h1, -⟩)
      · cases h1
      · exact h1
      · refine hs (Or.inr (Or.inr (Or.inl ?_)))
        cases o <;> simp [Instr.badDivision, Arch.x, h] at h1 ⊢ <;> exact h1
      · cases h1
    refine base.trans ⟨fun h s hs => h (s.wrapPc bits) (stk s _ rfl hs), fun h s hs => ?_⟩
    by_cases hrd : rd = 0#5
    · exact Or.inl hrd
    · right
      have e (p : Word) (hp : p.toNat < 2 ^ bits) : o.eval (s.x rs1) (s.x rs2) = encMulDiv o p (s.x rs1) := by
        have := (h { s with pc := p } (stk s _ rfl hs)).resolve_left hrd
        rwa [(wrap_same bits _).mpr hp] at this
      have e0 := e 0#32 (Nat.two_pow_pos bits)
      cases o with
      | divu =>
        have e1 := e 1#32 (Nat.lt_of_lt_of_le (by decide) (Nat.pow_le_pow_right (n := 2) (by decide) h1))
        exact absurd (e0.symm.trans e1) (show ¬ (0#32 : Word) = 1#32 by decide)
      | _ => exact e0
  | _ => exact base

theorem always_round {bits : Nat} (h1 : 1 ≤ bits) {i : Instr} (h : alwaysRound bits i) {s : Arch} {chk : Bool}
    (hs : ¬ stuck i s chk ramBase) : sameRound bits i s :=
  (C101_always bits h1 i).mp h s fun h => hs (by
    rcases h with h | h | h | ⟨h, -⟩
    · exact Or.inl h
    · exact Or.inr (Or.inl h)
    · exact Or.inr (Or.inr (Or.inl h))
    · cases h)

/-! ### Outputs -/

/-- Every ELF file whose number of program words is a power of two, every tape and number of cycles: if the condition holds at every step of
the run of the test VM, then both VMs complete under any correct library, and with the same output. -/
theorem C101_output (F : Fhe) (rand : Nat → Nat → Nat → F.C.Rand) (chk dbg : Bool) (threads n k : Nat) (e : Elf)
    (p : Phantom) (tape : List Byte) (ev : EncVM F.B) (hfile : e.bytes.length < 2 ^ 63) (hp : Phantom.fromElf e = some p) (ht : 0 < threads)
    (hn : n < 2 ^ 32) (hev : p.encryptedVm F.C rand dbg false threads tape n = some ev) (hbase : p.bootRam.offset = ramBase)
    (hlen : tape.length = p.input.size) (hlo : ramBase ≤ p.input.startAddr) (hhi : p.input.startAddr + p.input.size ≤ ramBase + 4096)
    (hb : ramBase ≤ p.output.startAddr) (he : p.output.startAddr + p.output.size ≤ ramBase + 4096)
    (hl : p.bootRom.data.length = 4 * 2 ^ k) (hk : k ≤ 30) :
    ∃ fetch bytes, FetchTest p.bootRom.data fetch ∧ Placed p.bootRam.data (p.input.startAddr - ramBase) tape bytes ∧
      ∀ s', RunsIf fetch (fun i s => ¬ stuck i s chk ramBase ∧ sameRound (k + 2) i s) (execTest ramBase 4096) n (startState bytes) s' →
        ∃ vm0 vm1 vm2 ev2, p.testVm chk n = some vm0 ∧ vm0.readInputTape chk tape = some vm1 ∧ vm1.execute chk = some vm2 ∧
          ev.execute F.C F.decU F.decP = some ev2 ∧
          vm2.outputTape chk = some (ramBytes s' (p.output.startAddr - ramBase) p.output.size) ∧
          ev2.outputTape F.C chk = some (ramBytes s' (p.output.startAddr - ramBase) p.output.size) := by
  obtain ⟨ft, bytes, vm0, vm1, hft, hin, e0, e1, hx, ho⟩ := C97_testvm chk n e p tape hfile hp hbase hlen hlo hhi hb he
  obtain ⟨fw, bytes', hfw, hd, hin', halt⟩ := C96_encrypted F rand chk dbg threads n e p tape ev hp ht hn hev
    (by rw [hbase]; decide) (by rw [hbase]; exact hb) (by rw [hbase]; exact he)
  have hbits : bitsFor (p.bootRom.data.length / 4) = k := by
    rw [hl, Nat.mul_div_cancel_left _ (by decide), bitsFor_pow]
  rw [hbits] at hfw hd halt
  rw [hbase] at hin' halt
  have hsame : bytes' = bytes := placed_unique hin' hin
  subst hsame
  refine ⟨ft, bytes', hft, hin, fun s' hr => ?_⟩
  obtain ⟨t', hrun, hw⟩ := C101_runs hl hk hft hfw hd hr rfl
  have hif := runsIf_mono (fun _ _ h => h.1) hr
  obtain ⟨vm2, e2⟩ := hx.mpr ⟨s', hif⟩
  obtain ⟨t, hr2, o2⟩ := ho vm2 e2
  cases runsIf_unique hif hr2
  rcases halt with ⟨u, ev2, a1, a2, a3⟩ | ⟨m, u, a1, a2, a3⟩
  · cases runsWith_unique hrun a1
    refine ⟨vm0, vm1, vm2, ev2, e0, e1, e2, a2, o2, ?_⟩
    rw [a3]
    unfold ramBytes
    rw [((wrap_eq_iff _ _).mp hw).2.1]
  · exact absurd ((hd _).mp (runsWith_leaves a1 hrun a2)) (Nat.not_lt.mpr a3)

theorem runsIf_fetched {fetch : Word → Option Instr} {ok ok' : Instr → Arch → Prop} {step : Instr → Arch → Arch} {n : Nat} {s s' : Arch}
    (hm : ∀ i s, fetch s.pc = some i → ok i s → ok' i s) (h : RunsIf fetch ok step n s s') : RunsIf fetch ok' step n s s' := by
  induction h with
  | zero s => exact .zero s
  | succ hi ho _ ih => exact .succ hi (hm _ _ hi ho) ih

/-- If all instructions of such a program are among these, then for every tape and number of cycles: whenever the test VM completes, so
does the encrypted VM, and with the same output. -/
theorem C101_static (F : Fhe) (rand : Nat → Nat → Nat → F.C.Rand) (chk dbg : Bool) (threads n k : Nat) (e : Elf)
    (p : Phantom) (tape : List Byte) (ev : EncVM F.B) (hfile : e.bytes.length < 2 ^ 63) (hp : Phantom.fromElf e = some p) (ht : 0 < threads)
    (hn : n < 2 ^ 32) (hev : p.encryptedVm F.C rand dbg false threads tape n = some ev) (hbase : p.bootRam.offset = ramBase)
    (hlen : tape.length = p.input.size) (hlo : ramBase ≤ p.input.startAddr) (hhi : p.input.startAddr + p.input.size ≤ ramBase + 4096)
    (hb : ramBase ≤ p.output.startAddr) (he : p.output.startAddr + p.output.size ≤ ramBase + 4096)
    (hl : p.bootRom.data.length = 4 * 2 ^ k) (hk : k ≤ 30)
    (hall : ∀ a w i, CodeWord p.bootRom.data (4 * a) w → TestReads w i → alwaysRound (k + 2) i)
    {vm0 vm1 vm2 : TestVM} (e0 : p.testVm chk n = some vm0) (e1 : vm0.readInputTape chk tape = some vm1) (e2 : vm1.execute chk = some vm2) :
    ∃ ev2 out, ev.execute F.C F.decU F.decP = some ev2 ∧ vm2.outputTape chk = some out ∧ ev2.outputTape F.C chk = some out := by
  obtain ⟨ft, bytes, wm0, wm1, hft, hin, f0, f1, hx, ho⟩ := C97_testvm chk n e p tape hfile hp hbase hlen hlo hhi hb he
  cases e0.symm.trans f0
  cases e1.symm.trans f1
  obtain ⟨ft', bytes', hft', hin', hall'⟩ := C101_output F rand chk dbg threads n k e p tape ev hfile hp ht hn hev hbase hlen hlo hhi hb he hl hk
  cases placed_unique hin' hin
  have hfe : ft' = ft := funext fun pc => Option.ext fun i => (hft' pc i).trans (hft pc i).symm
  subst hfe
  obtain ⟨s', hr⟩ := hx.mp ⟨vm2, e2⟩
  have hr' := runsIf_fetched (ok' := fun i s => ¬ stuck i s chk ramBase ∧ sameRound (k + 2) i s) (fun i s hi hok => by
    refine ⟨hok, always_round (by omega) ?_ hok⟩
    obtain ⟨h4, w, hw, hrd⟩ := (hft _ _).mp hi
    have h0 : 0 < p.bootRom.data.length := by rw [hl]; exact Nat.mul_pos (by decide) (Nat.two_pow_pos k)
    have hd4 : p.bootRom.data.length % 4 = 0 := by omega
    have hm := Nat.mod_lt s.pc.toNat h0
    have hm4 : s.pc.toNat % p.bootRom.data.length % 4 = 0 := by
      rw [Nat.mod_mod_of_dvd _ (Nat.dvd_of_mod_eq_zero hd4)]; exact h4
    refine hall (s.pc.toNat % p.bootRom.data.length / 4) w i (fun j hj => ?_) hrd
    have := hw j hj
    rw [← Nat.mod_add_mod, Nat.mod_eq_of_lt (by omega)] at this
    rwa [Nat.mul_div_cancel' (Nat.dvd_of_mod_eq_zero hm4)]) hr
  obtain ⟨_, _, vm2', ev2, g0, g1, g2, g3, o1, o2⟩ := hall' s' hr'
  cases f0.symm.trans g0
  cases f1.symm.trans g1
  cases e2.symm.trans g2
  exact ⟨ev2, _, g3, o1, o2⟩

/-! ### A program that runs round -/

/-- AUIPC is different after the program, of eight words here, has started over, and so is the return address; LUI is not. -/
example : sameRound 5 (.auipc 1 0) ⟨28#32, fun _ => 0#32, fun _ => 0#8⟩ ∧ ¬ sameRound 5 (.auipc 1 0) ⟨32#32, fun _ => 0#32, fun _ => 0#8⟩ ∧
    ¬ sameRound 5 (.jal 1 4) ⟨32#32, fun _ => 0#32, fun _ => 0#8⟩ ∧ sameRound 5 (.jal 0 4) ⟨32#32, fun _ => 0#32, fun _ => 0#8⟩ ∧
    sameRound 5 (.lui 1 4) ⟨32#32, fun _ => 0#32, fun _ => 0#8⟩ := by
  refine ⟨Or.inr (by decide), ?_, ?_, ⟨Or.inl rfl, Or.inl (by decide)⟩, trivial⟩
  · rintro (h | h)
    · exact absurd h (by decide)
    · exact absurd h (by decide)
  · rintro ⟨h | h, -⟩
    · exact absurd h (by decide)
    · exact absurd h (by decide)

/-- The program of C97 and C98, filled up with `nop` to eight words. -/
def roundCode : List Instr := countCode ++ List.replicate 3 (.opImm .addi 0 0 0)

def roundElf : Elf :=
  { bytes := wordBytes ([0x00040137#32, 0x00412083#32, 0x00108093#32, 0x00112223#32] ++ List.replicate 4 0x00000013#32) ++
      List.replicate 8 0#8
    segments := [⟨1, 5, 0, 0, 32, 32⟩, ⟨1, 6, 32, 0x40000, 8, 8⟩]
    sections := [(".inpdata", ⟨0x40000, 4⟩), (".outdata", ⟨0x40004, 4⟩)] }

def roundGuest : Phantom := (Phantom.fromElf roundElf).getD ⟨⟨[], 0, 0⟩, ⟨[], 0, 0⟩, ⟨0, 0⟩, ⟨0, 0⟩⟩

theorem round_elf : Phantom.fromElf roundElf = some roundGuest := by
  obtain ⟨x, hx⟩ := Option.isSome_iff_exists.mp (show (Phantom.fromElf roundElf).isSome = true by decide +kernel)
  unfold roundGuest
  rw [hx]; rfl

theorem round_words (k : Nat) (hk : k < 8) : ∃ i w, roundCode[k]? = some i ∧ TestReads w i ∧
    TestWord roundGuest.bootRom.data (4 * k) w := by
  have : k = 0 ∨ k = 1 ∨ k = 2 ∨ k = 3 ∨ k = 4 ∨ k = 5 ∨ k = 6 ∨ k = 7 := by omega
  rcases this with rfl | rfl | rfl | rfl | rfl | rfl | rfl | rfl <;> exact ⟨_, _, rfl, .own _, testWord_of _ (by decide +kernel)⟩

theorem round_always (k : Nat) (hk : k < 8) {i : Instr} (hi : roundCode[k]? = some i) : alwaysRound 5 i := by
  have : k = 0 ∨ k = 1 ∨ k = 2 ∨ k = 3 ∨ k = 4 ∨ k = 5 ∨ k = 6 ∨ k = 7 := by omega
  rcases this with h | h | h | h | h | h | h | h <;> rw [h] at hi <;> cases hi
  · trivial
  · exact Or.inr (Or.inl rfl)
  · trivial
  · exact Or.inl (by decide)
  · trivial
  · trivial
  · trivial
  · trivial

/-- All its words are of the kind for which C101_static holds. -/
example : ∀ a w i, CodeWord roundGuest.bootRom.data (4 * a) w → TestReads w i → alwaysRound (3 + 2) i := by
  intro a w i h hr
  have hrl : roundGuest.bootRom.data.length = 32 := by decide +kernel
  have h3 := (List.getElem?_eq_some_iff.mp (h 3 (by decide))).1
  obtain ⟨j, v, hj, hv, hw⟩ := round_words a (by omega)
  have : w = v := testWord_unique (a := 4 * a) (fun b hb => by rw [Nat.mod_eq_of_lt (by omega)]; exact h b hb) hw
  subst this
  rw [C97_unique hr hv]
  exact round_always a (by omega) hj

/-- After `n` cycles, of which those at places 0 to 7 of the program are repeated, the program has gone `(n + 4) / 8` times through the
store. -/
structure RoundAt (n : Nat) (s : Arch) : Prop where
  out : ∀ j, j < 4 → s.mem (BitVec.ofNat 32 (0x40004 + j)) = (BitVec.ofNat 32 ((n + 4) / 8)).extractLsb' (8 * j) 8
  base : n % 8 ≠ 0 → s.x 2 = 0x40000#32
  loaded : n % 8 = 2 → s.x 1 = BitVec.ofNat 32 (n / 8)
  added : n % 8 = 3 → s.x 1 = BitVec.ofNat 32 (n / 8 + 1)

theorem round_step {n : Nat} {s : Arch} (h : RoundAt n s) {i : Instr} (hi : roundCode[n % 8]? = some i) :
    i.inWindow s ramBase 4096 ∧ ¬ i.badAlign s ∧ ¬ i.badDivision s ∧ i.jumpsTo s = none ∧ (exec i s).pc = s.pc + 4#32 ∧
      RoundAt (n + 1) (exec i s) := by
  obtain ⟨out, base, loaded, added⟩ := h
  have nop (h4 : 4 ≤ n % 8) : RoundAt (n + 1) (exec (.opImm .addi 0 0 0) s) := by
    refine ⟨?_, fun h => base (by omega), fun h => by omega, fun h => by omega⟩
    rw [show (n + 1 + 4) / 8 = (n + 4) / 8 by omega]
    exact out
  have : n % 8 = 0 ∨ n % 8 = 1 ∨ n % 8 = 2 ∨ n % 8 = 3 ∨ n % 8 = 4 ∨ n % 8 = 5 ∨ n % 8 = 6 ∨ n % 8 = 7 := by omega
  rcases this with h | h | h | h | h | h | h | h <;> rw [h] at hi <;> cases hi
  · refine ⟨(by intro _ _ h; cases h), id, id, rfl, rfl, ?_, fun _ => rfl, fun h => by omega, fun h => by omega⟩
    rw [show (n + 1 + 4) / 8 = (n + 4) / 8 by omega]
    exact out
  · have b := base (by omega)
    refine ⟨?_, ?_, id, rfl, rfl, ?_, fun _ => b, fun _ => ?_, fun h => by omega⟩
    · intro a k h
      cases h
      rw [b]; decide
    · show ¬ (s.x 2 + immI 4).toNat % 4 ≠ 0
      rw [b]; decide
    · rw [show (n + 1 + 4) / 8 = (n + 4) / 8 by omega]
      exact out
    · show LoadOp.lw.eval s.mem (s.x 2 + immI 4) = _
      rw [b, show 0x40000#32 + immI 4 = 0x40004#32 by decide, word_out out, show (n + 4) / 8 = (n + 1) / 8 by omega]
  · refine ⟨(by intro _ _ h; cases h), id, id, rfl, rfl, ?_, fun _ => base (by omega), fun h => by omega, fun _ => ?_⟩
    · rw [show (n + 1 + 4) / 8 = (n + 4) / 8 by omega]
      exact out
    · show s.x 1 + immI 1 = _
      rw [loaded h, show immI 1 = BitVec.ofNat 32 1 by decide, ← BitVec.ofNat_add, show (n + 1) / 8 = n / 8 by omega]
  · have b := base (by omega)
    refine ⟨?_, ?_, id, rfl, rfl, ?_, fun _ => b, fun h => by omega, fun h => by omega⟩
    · intro a k h
      cases h
      rw [b]; decide
    · show ¬ (s.x 2 + immI 4).toNat % 4 ≠ 0
      rw [b]; decide
    · intro j hj
      show storeBytes s.mem (s.x 2 + immI 4) (s.x 1) 4 _ = _
      rw [b, show 0x40000#32 + immI 4 = 0x40004#32 by decide, added h, show (n + 1 + 4) / 8 = n / 8 + 1 by omega]
      exact out_store _ _ j hj
  · exact ⟨(by intro _ _ h; cases h), id, id, rfl, rfl, nop (by omega)⟩
  · exact ⟨(by intro _ _ h; cases h), id, id, rfl, rfl, nop (by omega)⟩
  · exact ⟨(by intro _ _ h; cases h), id, id, rfl, rfl, nop (by omega)⟩
  · exact ⟨(by intro _ _ h; cases h), id, id, rfl, rfl, nop (by omega)⟩

theorem round_start {tape bytes : List Byte} (hin : Placed roundGuest.bootRam.data (roundGuest.input.startAddr - ramBase) tape bytes)
    (hl : tape.length = 4) : RoundAt 0 (startState bytes) := by
  refine ⟨fun j hj => ?_, fun h => by omega, fun h => by omega, fun h => by omega⟩
  rw [show 0x40004 + j = ramBase + (4 + j) by unfold ramBase; omega, startState_mem _ _ (by unfold ramBase; omega),
    List.getD_eq_getElem?_getD]
  have h0 : roundGuest.input.startAddr - ramBase = 0 := by decide +kernel
  rw [h0] at hin
  rw [hin.2.2.2 (4 + j) (by omega)]
  have : j = 0 ∨ j = 1 ∨ j = 2 ∨ j = 3 := by omega
  rcases this with rfl | rfl | rfl | rfl <;> decide +kernel

/-- Both VMs start it over at its end, and both return how often it went through the store, for every number of cycles.  (With five words
the encrypted VM stays at one, C98.) -/
theorem C101_count (F : Fhe) (rand : Nat → Nat → Nat → F.C.Rand) (chk dbg : Bool) (threads n : Nat) (ht : 0 < threads)
    (hn : n < 2 ^ 30) (tape : List Byte) (hl : tape.length = 4) :
    ∃ vm0 vm1 vm2 ev ev2, roundGuest.testVm chk n = some vm0 ∧ vm0.readInputTape chk tape = some vm1 ∧ vm1.execute chk = some vm2 ∧
      roundGuest.encryptedVm F.C rand dbg false threads tape n = some ev ∧ ev.execute F.C F.decU F.decP = some ev2 ∧
      vm2.outputTape chk = some (fourBytes (BitVec.ofNat 32 ((n + 4) / 8))) ∧
      ev2.outputTape F.C chk = some (fourBytes (BitVec.ofNat 32 ((n + 4) / 8))) := by
  obtain ⟨q, hq⟩ : ∃ q, Parser.new.addAll dbg (packWords roundGuest.bootRom.data) = some q := by
    rw [← Option.isSome_iff_exists]; cases dbg <;> decide +kernel
  obtain ⟨ev, hev⟩ := C42_setup F rand dbg false threads n roundElf roundGuest tape q round_elf
    (by decide +kernel) (by decide +kernel) hq (hl.trans (by decide +kernel)) (by decide +kernel) (by decide +kernel)
  have hrl : roundGuest.bootRom.data.length = 32 := by decide +kernel
  obtain ⟨fetch, bytes, hf, hin, hall⟩ := C101_output F rand chk dbg threads n 3 roundElf roundGuest tape ev (by decide +kernel) round_elf ht
    (by omega) hev (by decide +kernel) (hl.trans (by decide +kernel)) (by decide +kernel) (by decide +kernel) (by decide +kernel)
    (by decide +kernel) hrl (by decide)
  have all (n : Nat) (hn : n < 2 ^ 30) : ∃ s, RunsIf fetch (fun i s => ¬ stuck i s chk ramBase ∧ sameRound (3 + 2) i s)
      (execTest ramBase 4096) n (startState bytes) s ∧ s.pc = BitVec.ofNat 32 (4 * n) ∧ RoundAt n s := by
    induction n with
    | zero => exact ⟨_, .zero _, rfl, round_start hin hl⟩
    | succ n ih =>
      obtain ⟨s, hr, hpc, hc⟩ := ih (by omega)
      obtain ⟨i, w, hi, h2, h3⟩ := round_words (n % 8) (by omega)
      obtain ⟨w1, w2, w3, w4, w5, w6⟩ := round_step hc hi
      have ht : (s.pc).toNat = 4 * n := by rw [hpc, BitVec.toNat_ofNat, Nat.mod_eq_of_lt (by omega)]
      have hok : ¬ stuck i s chk ramBase := by
        rintro (⟨t, h, -⟩ | h | h | ⟨-, ⟨a, k, h, h'⟩ | ⟨-, h⟩⟩)
        · rw [w4] at h; cases h
        · exact w2 h
        · exact w3 h
        · have := (w1 a k h).1
          omega
        · omega
      have same : alwaysRound (3 + 2) i := round_always (n % 8) (by omega) hi
      have hw : TestWord roundGuest.bootRom.data s.pc.toNat w := fun j hj => by
        have := h3 j hj
        rw [hrl] at this ⊢
        rw [ht, show (4 * n + j) % 32 = (4 * (n % 8) + j) % 32 by omega]
        exact this
      refine ⟨_, runsIf_append hr (.succ ((hf _ _).mpr ⟨by omega, w, hw, h2⟩) ⟨hok, always_round (by decide) same hok⟩ (.zero _)), ?_⟩
      rw [C97_window _ _ _ _ (by decide) w1]
      refine ⟨?_, w6⟩
      rw [w5, hpc, show 4#32 = BitVec.ofNat 32 4 from rfl, ← BitVec.ofNat_add]
      rfl
  obtain ⟨s, hr, -, hc⟩ := all n hn
  obtain ⟨vm0, vm1, vm2, ev2, e0, e1, e2, e3, o1, o2⟩ := hall s hr
  have eq : some (ramBytes s (roundGuest.output.startAddr - ramBase) roundGuest.output.size) =
      some (fourBytes (BitVec.ofNat 32 ((n + 4) / 8))) := by
    rw [show roundGuest.output.startAddr - ramBase = 4 by decide +kernel, show roundGuest.output.size = 4 by decide +kernel]
    refine congrArg some (List.map_congr_left fun j hj => ?_)
    rw [← hc.out j (List.mem_range.mp hj), show 0x40004 + j = ramBase + (4 + j) by unfold ramBase; omega]
  exact ⟨vm0, vm1, vm2, ev, ev2, e0, e1, e2, hev, e3, o1.trans eq, o2.trans eq⟩

end Verif.Props
