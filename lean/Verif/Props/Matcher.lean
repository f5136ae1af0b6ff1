import Verif.Props.ExactOutput
import Verif.Props.Guests
import Verif.Props.Layout
/-
  C70, continued: a complete guest that does what the source of string-match says under the test VM and something
  else under encryption, for every input; and a variant for which both are right.
-/
namespace Verif.Props
open Model Spec

/-- `main` of string-match in machine code: 20 bytes of input at 0x40000, the result at 0x40014, the hidden string
at 0x40018.  The loop compares with loads `o`, advancing by `stride` bytes. -/
def matcher (o : LoadOp) (stride : BitVec 12) : List Instr :=
  [ .lui 2 0x40                 --  0  x2 = 0x40000
  , .opImm .addi 5 0 0          --  4  x5 = 0
  , .opImm .addi 6 0 20         --  8  x6 = 20
  , .branch .beq 5 6 14         -- 12  if x5 = x6 goto 40
  , .op .add 7 2 5              -- 16  x7 = x2 + x5
  , .load o 8 7 0               -- 20  x8 = input[x5]
  , .load o 9 7 24              -- 24  x9 = hidden[x5]
  , .branch .bne 8 9 10         -- 28  if x8 ≠ x9 goto 48
  , .opImm .addi 5 5 stride     -- 32  x5 += stride
  , .jal 0 (-12)                -- 36  goto 12
  , .opImm .addi 10 0 1         -- 40  x10 = 1
  , .jal 0 4                    -- 44  goto 52
  , .opImm .addi 10 0 0         -- 48  x10 = 0
  , .store .sb 2 10 20          -- 52  output = x10
  , .jal 0 0 ]                  -- 56  stop

/-- Instruction at an address. -/
def codeAt (code : List Instr) (pc : Word) : Option Instr := if pc.toNat % 4 = 0 then code[pc.toNat / 4]? else none

theorem codeAt_of (code : List Instr) (k : Nat) (hk : k < 100) (i : Instr) (h : code[k]? = some i) :
    codeAt code (BitVec.ofNat 32 (4 * k)) = some i := by
  unfold codeAt
  rw [BitVec.toNat_ofNat, Nat.mod_eq_of_lt (by omega : 4 * k < 2 ^ 32), if_pos (by omega), show 4 * k / 4 = k by omega, h]

theorem codeAt_inv {code : List Instr} {pc : Word} {i : Instr} (h : codeAt code pc = some i) :
    pc.toNat % 4 = 0 ∧ pc.toNat / 4 < code.length ∧ code[pc.toNat / 4]? = some i := by
  unfold codeAt at h
  split at h
  · next h4 => exact ⟨h4, (List.getElem?_eq_some_iff.mp h).1, h⟩
  · cases h

/-- The manual's machine with loads at `pos` of the address. -/
def stepAt (pos : Word → Word) (i : Instr) (s : Arch) : Arch :=
  match i with
  | .load o rd rs1 imm => (s.setX rd (o.eval s.mem (pos (s.x rs1 + immI imm)))).next
  | i => exec i s

/-- Accesses are aligned and in the RAM. -/
def Fits (i : Instr) (s : Arch) : Prop :=
  match i with
  | .load o _ rs1 imm => (s.x rs1 + immI imm).toNat % o.size = 0 ∧ ramBase ≤ (s.x rs1 + immI imm).toNat ∧
      (s.x rs1 + immI imm).toNat + o.size ≤ ramBase + 4096
  | .store o rs1 _ imm => (s.x rs1 + immI imm).toNat % o.size = 0 ∧ ramBase ≤ (s.x rs1 + immI imm).toNat ∧
      (s.x rs1 + immI imm).toNat + o.size ≤ ramBase + 4096
  | _ => True

/-- `R n s s'`: some machine gets from `s` to `s'` in `n` steps, like `stepAt pos` on `code`. -/
structure Follows (code : List Instr) (pos : Word → Word) (R : Nat → Arch → Arch → Prop) : Prop where
  zero : ∀ s, R 0 s s
  succ : ∀ i s s' n, codeAt code s.pc = some i → Fits i s → R n (stepAt pos i s) s' → R (n + 1) s s'

/-! ### What the program computes on such a machine -/

/-- State inside the loop. -/
structure At (s : Arch) (k : Nat) (v : Word) (m : Word → Byte) : Prop where
  pc : s.pc = BitVec.ofNat 32 (4 * k)
  x2 : s.x 2 = 0x40000#32
  x5 : s.x 5 = v
  x6 : s.x 6 = 20#32
  mem : s.mem = m

theorem Arch.next_x (s : Arch) (r : Reg) : s.next.x r = s.x r := rfl
theorem Arch.next_mem (s : Arch) : s.next.mem = s.mem := rfl
theorem Arch.next_pc (s : Arch) : s.next.pc = s.pc + 4#32 := rfl
theorem Arch.setX_pc (s : Arch) (r : Reg) (v : Word) : (s.setX r v).pc = s.pc := rfl
theorem Arch.setX_mem (s : Arch) (r : Reg) (v : Word) : (s.setX r v).mem = s.mem := rfl
theorem Arch.setX_zero (s : Arch) (v : Word) : s.setX 0 v = s := by
  unfold Arch.setX; simp

theorem pc_next (k : Nat) : BitVec.ofNat 32 (4 * k) + 4#32 = BitVec.ofNat 32 (4 * (k + 1)) := by
  rw [show 4#32 = BitVec.ofNat 32 4 from rfl, ← BitVec.ofNat_add]; rfl

/-- Writing another register and going on. -/
theorem At.set {s : Arch} {k : Nat} {v : Word} {m : Word → Byte} (h : At s k v m) (r : Reg) (u : Word)
    (h2 : r ≠ 2) (h5 : r ≠ 5) (h6 : r ≠ 6) : At (s.setX r u).next (k + 1) v m where
  pc := by rw [Arch.next_pc, Arch.setX_pc, h.pc, pc_next]
  x2 := by rw [Arch.next_x, Arch.x_setX, if_neg (by decide), if_neg (Ne.symm h2), h.x2]
  x5 := by rw [Arch.next_x, Arch.x_setX, if_neg (by decide), if_neg (Ne.symm h5), h.x5]
  x6 := by rw [Arch.next_x, Arch.x_setX, if_neg (by decide), if_neg (Ne.symm h6), h.x6]
  mem := h.mem

/-- A jump. -/
theorem At.goto {s : Arch} {k : Nat} {v : Word} {m : Word → Byte} (h : At s k v m) (d : Word) (k' : Nat)
    (hk : BitVec.ofNat 32 (4 * k) + d = BitVec.ofNat 32 (4 * k')) : At { s with pc := s.pc + d } k' v m where
  pc := by show s.pc + d = _; rw [h.pc, hk]
  x2 := h.x2
  x5 := h.x5
  x6 := h.x6
  mem := h.mem

theorem At.next {s : Arch} {k : Nat} {v : Word} {m : Word → Byte} (h : At s k v m) : At s.next (k + 1) v m where
  pc := by rw [Arch.next_pc, h.pc, pc_next]
  x2 := h.x2
  x5 := h.x5
  x6 := h.x6
  mem := h.mem

section
variable {o : LoadOp} {stride : BitVec 12} {pos : Word → Word} {R : Nat → Arch → Arch → Prop}

theorem Follows.stay (F : Follows (matcher o stride) pos R) {s : Arch} (h : s.pc = 56#32) : ∀ n, R n s s
  | 0 => F.zero s
  | n + 1 => by
    refine F.succ (.jal 0 0) s s n ?_ trivial ?_
    · rw [h]; exact codeAt_of _ 14 (by decide) _ rfl
    · have : stepAt pos (.jal 0 0) s = s := by
        show ({ s.setX 0 _ with pc := s.pc + immJ 0 } : Arch) = s
        rw [Arch.setX_zero, show immJ 0 = 0#32 from by decide, BitVec.add_zero]
      rw [this]; exact F.stay h n

/-- From the store on. -/
theorem Follows.finish (F : Follows (matcher o stride) pos R) {s : Arch} {v : Word} {m : Word → Byte}
    (h : At s 13 v m) : ∃ s', s'.mem = storeBytes m 0x40014#32 (s.x 10) 1 ∧ ∀ n, 1 ≤ n → R n s s' := by
  refine ⟨stepAt pos (.store .sb 2 10 20) s, ?_, fun n hn => ?_⟩
  · show storeBytes s.mem (s.x 2 + immI 20) (s.x 10) 1 = _
    rw [h.mem, h.x2]; rfl
  · obtain ⟨n, rfl⟩ : ∃ k, n = k + 1 := ⟨n - 1, by omega⟩
    refine F.succ (.store .sb 2 10 20) _ _ n ?_ ?_ (F.stay ?_ n)
    · rw [h.pc]; exact codeAt_of _ 13 (by decide) _ rfl
    · show (s.x 2 + immI 20).toNat % 1 = 0 ∧ ramBase ≤ (s.x 2 + immI 20).toNat ∧ (s.x 2 + immI 20).toNat + 1 ≤ ramBase + 4096
      rw [h.x2]; decide
    · show s.pc + 4#32 = _
      rw [h.pc]; rfl

/-- The words compared in the round with offset `v`. -/
def sameAt (o : LoadOp) (pos : Word → Word) (m : Word → Byte) (v : Nat) : Prop :=
  o.eval m (pos (BitVec.ofNat 32 (ramBase + v))) = o.eval m (pos (BitVec.ofNat 32 (ramBase + 24 + v)))

instance (o : LoadOp) (pos : Word → Word) (m : Word → Byte) (v : Nat) : Decidable (sameAt o pos m v) := by
  unfold sameAt; infer_instance

/-- From the head of the loop, with `k` rounds to go: the result, when it is there, and what is in the memory before. -/
theorem Follows.loop (F : Follows (matcher o stride) pos R) (d : Nat) (hd : immI stride = BitVec.ofNat 32 d)
    (hsz : d = o.size) (m : Word → Byte) :
    ∀ (k : Nat) (s : Arch) (v : Nat), At s 3 (BitVec.ofNat 32 v) m → v + k * d = 20 → d ∣ v →
    ∃ s', s'.mem = storeBytes m 0x40014#32 (bool01 (∀ j, j < k → sameAt o pos m (v + j * d))) 1 ∧
      (∀ n, 7 * k + 4 ≤ n → R n s s') ∧ ∀ n, n < 7 * k + 4 →
        ∃ t, R n s t ∧ (t.mem = m ∨ (¬ ∀ j, j < k → sameAt o pos m (v + j * d)) ∧ t.mem = s'.mem) := by
  have hd0 : 0 < d := by rw [hsz]; cases o <;> decide
  intro k
  induction k with
  | zero =>
    intro s v h hv hdv
    have hv : v = 20 := by omega
    subst hv
    -- taken branch, x10 = 1, jump, store
    let s1 := stepAt pos (.branch .beq 5 6 14) s
    have h1 : At s1 10 20#32 m := by
      show At (if BranchOp.taken .beq (s.x 5) (s.x 6) then { s with pc := s.pc + immB 14 } else s.next) 10 20#32 m
      rw [if_pos (show BranchOp.taken .beq (s.x 5) (s.x 6) from by show s.x 5 = s.x 6; rw [h.x5, h.x6])]
      exact h.goto _ _ (by decide)
    let s2 := stepAt pos (.opImm .addi 10 0 1) s1
    have h2 : At s2 11 20#32 m := h1.set _ _ (by decide) (by decide) (by decide)
    have e2 : s2.x 10 = 1#32 := by
      show ((s1.setX 10 (ImmOp.eval .addi (s1.x 0) (immI 1))).next).x 10 = _
      rw [Arch.next_x, Arch.x_setX, if_neg (by decide), if_pos rfl, show s1.x 0 = 0#32 from rfl]
      decide
    let s3 := stepAt pos (.jal 0 4) s2
    have h3' : s3 = { s2 with pc := s2.pc + immJ 4 } := by
      show ({ s2.setX 0 _ with pc := s2.pc + immJ 4 } : Arch) = _
      rw [Arch.setX_zero]
    have h3 : At s3 13 20#32 m := by rw [h3']; exact h2.goto _ _ (by decide)
    have f1 : codeAt (matcher o stride) s.pc = some (.branch .beq 5 6 14) := by
      rw [h.pc]; exact codeAt_of _ 3 (by decide) _ rfl
    have f2 : codeAt (matcher o stride) s1.pc = some (.opImm .addi 10 0 1) := by
      rw [h1.pc]; exact codeAt_of _ 10 (by decide) _ rfl
    have f3 : codeAt (matcher o stride) s2.pc = some (.jal 0 4) := by
      rw [h2.pc]; exact codeAt_of _ 11 (by decide) _ rfl
    obtain ⟨s', hm, hr⟩ := F.finish h3
    refine ⟨s', ?_, fun n hn => ?_, fun n hn => ?_⟩
    · rw [hm, h3']
      unfold bool01
      rw [if_pos (fun j hj => absurd hj (Nat.not_lt_zero j))]
      exact congrArg (fun x => storeBytes m 0x40014#32 x 1) e2
    · obtain ⟨n, rfl⟩ : ∃ k, n = k + 3 := ⟨n - 3, by omega⟩
      exact F.succ _ _ _ _ f1 trivial (F.succ _ _ _ _ f2 trivial (F.succ _ _ _ _ f3 trivial (hr n (by omega))))
    · have e : n = 0 ∨ n = 1 ∨ n = 2 ∨ n = 3 := by omega
      rcases e with rfl | rfl | rfl | rfl
      · exact ⟨s, F.zero s, .inl h.mem⟩
      · exact ⟨s1, F.succ _ _ _ _ f1 trivial (F.zero _), .inl h1.mem⟩
      · exact ⟨s2, F.succ _ _ _ _ f1 trivial (F.succ _ _ _ _ f2 trivial (F.zero _)), .inl h2.mem⟩
      · exact ⟨s3, F.succ _ _ _ _ f1 trivial (F.succ _ _ _ _ f2 trivial (F.succ _ _ _ _ f3 trivial (F.zero _))), .inl h3.mem⟩
  | succ k ih =>
    intro s v h hv hdv
    have hkd : (k + 1) * d = k * d + d := Nat.succ_mul k d
    have hv20 : v + d ≤ 20 := by omega
    have hn20 : BitVec.ofNat 32 v ≠ 20#32 := by
      intro hc
      have := congrArg BitVec.toNat hc
      rw [BitVec.toNat_ofNat, Nat.mod_eq_of_lt (by omega)] at this
      simp at this; omega
    let s1 := stepAt pos (.branch .beq 5 6 14) s
    have h1 : At s1 4 (BitVec.ofNat 32 v) m := by
      show At (if BranchOp.taken .beq (s.x 5) (s.x 6) then { s with pc := s.pc + immB 14 } else s.next) 4 _ m
      rw [if_neg (show ¬ BranchOp.taken .beq (s.x 5) (s.x 6) from by
        show ¬ s.x 5 = s.x 6; rw [h.x5, h.x6]; exact hn20)]
      exact h.next
    let s2 := stepAt pos (.op .add 7 2 5) s1
    have h2 : At s2 5 (BitVec.ofNat 32 v) m := h1.set _ _ (by decide) (by decide) (by decide)
    have e2 : s2.x 7 = BitVec.ofNat 32 (ramBase + v) := by
      show ((s1.setX 7 (BitVec.ofNat 32 ((s1.x 2).toNat + (s1.x 5).toNat))).next).x 7 = _
      rw [Arch.next_x, Arch.x_setX, if_neg (by decide), if_pos rfl, h1.x2, h1.x5, BitVec.toNat_ofNat (x := v),
        Nat.mod_eq_of_lt (by omega : v < 2 ^ 32)]
      rfl
    let s3 := stepAt pos (.load o 8 7 0) s2
    have h3 : At s3 6 (BitVec.ofNat 32 v) m := h2.set _ _ (by decide) (by decide) (by decide)
    have e3 : s3.x 8 = o.eval m (pos (BitVec.ofNat 32 (ramBase + v))) := by
      show ((s2.setX 8 (o.eval s2.mem (pos (s2.x 7 + immI 0)))).next).x 8 = _
      rw [Arch.next_x, Arch.x_setX, if_neg (by decide), if_pos rfl, h2.mem, e2, show immI 0 = 0#32 from by decide,
        BitVec.add_zero]
    have e3' : s3.x 7 = BitVec.ofNat 32 (ramBase + v) := by
      show ((s2.setX 8 _).next).x 7 = _
      rw [Arch.next_x, Arch.x_setX, if_neg (by decide), if_neg (by decide), e2]
    have a24 : BitVec.ofNat 32 (ramBase + v) + immI 24 = BitVec.ofNat 32 (ramBase + 24 + v) := by
      rw [show immI 24 = BitVec.ofNat 32 24 from by decide, ← BitVec.ofNat_add, Nat.add_right_comm]
    let s4 := stepAt pos (.load o 9 7 24) s3
    have h4 : At s4 7 (BitVec.ofNat 32 v) m := h3.set _ _ (by decide) (by decide) (by decide)
    have e4 : s4.x 9 = o.eval m (pos (BitVec.ofNat 32 (ramBase + 24 + v))) := by
      show ((s3.setX 9 (o.eval s3.mem (pos (s3.x 7 + immI 24)))).next).x 9 = _
      rw [Arch.next_x, Arch.x_setX, if_neg (by decide), if_pos rfl, h3.mem, e3', a24]
    have e4' : s4.x 8 = o.eval m (pos (BitVec.ofNat 32 (ramBase + v))) := by
      show ((s3.setX 9 _).next).x 8 = _
      rw [Arch.next_x, Arch.x_setX, if_neg (by decide), if_neg (by decide), e3]
    have f1 : codeAt (matcher o stride) s.pc = some (.branch .beq 5 6 14) := by
      rw [h.pc]; exact codeAt_of _ 3 (by decide) _ rfl
    have f2 : codeAt (matcher o stride) s1.pc = some (.op .add 7 2 5) := by
      rw [h1.pc]; exact codeAt_of _ 4 (by decide) _ rfl
    have f3 : codeAt (matcher o stride) s2.pc = some (.load o 8 7 0) := by
      rw [h2.pc]; exact codeAt_of _ 5 (by decide) _ rfl
    have f4 : codeAt (matcher o stride) s3.pc = some (.load o 9 7 24) := by
      rw [h3.pc]; exact codeAt_of _ 6 (by decide) _ rfl
    have f5 : codeAt (matcher o stride) s4.pc = some (.branch .bne 8 9 10) := by
      rw [h4.pc]; exact codeAt_of _ 7 (by decide) _ rfl
    have hR : ramBase = 262144 := rfl
    have hdv' : o.size ∣ v := by rw [← hsz]; exact hdv
    have g3 : Fits (.load o 8 7 0) s2 := by
      show (s2.x 7 + immI 0).toNat % o.size = 0 ∧ ramBase ≤ (s2.x 7 + immI 0).toNat ∧ (s2.x 7 + immI 0).toNat + o.size ≤ _
      rw [e2, show immI 0 = 0#32 from by decide, BitVec.add_zero, BitVec.toNat_ofNat,
        Nat.mod_eq_of_lt (by omega : ramBase + v < 2 ^ 32)]
      refine ⟨Nat.mod_eq_zero_of_dvd (Nat.dvd_add ?_ hdv'), by omega, by omega⟩
      rw [hR]; cases o <;> decide
    have g4 : Fits (.load o 9 7 24) s3 := by
      show (s3.x 7 + immI 24).toNat % o.size = 0 ∧ ramBase ≤ (s3.x 7 + immI 24).toNat ∧ (s3.x 7 + immI 24).toNat + o.size ≤ _
      rw [e3', a24, BitVec.toNat_ofNat, Nat.mod_eq_of_lt (by omega : ramBase + 24 + v < 2 ^ 32)]
      refine ⟨Nat.mod_eq_zero_of_dvd (Nat.dvd_add ?_ hdv'), by omega, by omega⟩
      rw [hR]; cases o <;> decide
    let s5 := stepAt pos (.branch .bne 8 9 10) s4
    have early : ∀ n, n < 6 → s5.mem = m → ∃ t, R n s t ∧ t.mem = m := by
      intro n hn h5
      have e : n = 0 ∨ n = 1 ∨ n = 2 ∨ n = 3 ∨ n = 4 ∨ n = 5 := by omega
      rcases e with rfl | rfl | rfl | rfl | rfl | rfl
      · exact ⟨s, F.zero s, h.mem⟩
      · exact ⟨s1, F.succ _ _ _ _ f1 trivial (F.zero _), h1.mem⟩
      · exact ⟨s2, F.succ _ _ _ _ f1 trivial (F.succ _ _ _ _ f2 trivial (F.zero _)), h2.mem⟩
      · exact ⟨s3, F.succ _ _ _ _ f1 trivial (F.succ _ _ _ _ f2 trivial (F.succ _ _ _ _ f3 g3 (F.zero _))), h3.mem⟩
      · exact ⟨s4, F.succ _ _ _ _ f1 trivial (F.succ _ _ _ _ f2 trivial (F.succ _ _ _ _ f3 g3 (F.succ _ _ _ _ f4 g4 (F.zero _)))),
          h4.mem⟩
      · exact ⟨s5, F.succ _ _ _ _ f1 trivial (F.succ _ _ _ _ f2 trivial (F.succ _ _ _ _ f3 g3 (F.succ _ _ _ _ f4 g4
          (F.succ _ _ _ _ f5 trivial (F.zero _))))), h5⟩
    by_cases hsame : sameAt o pos m v
    · have h5 : At s5 8 (BitVec.ofNat 32 v) m := by
        show At (if BranchOp.taken .bne (s4.x 8) (s4.x 9) then { s4 with pc := s4.pc + immB 10 } else s4.next) 8 _ m
        rw [if_neg (show ¬ BranchOp.taken .bne (s4.x 8) (s4.x 9) from by
          show ¬ s4.x 8 ≠ s4.x 9; rw [e4, e4']; exact not_not_intro hsame)]
        exact h4.next
      let s6 := stepAt pos (.opImm .addi 5 5 stride) s5
      have h6 : At s6 9 (BitVec.ofNat 32 (v + d)) m := by
        refine ⟨?_, ?_, ?_, ?_, h5.mem⟩
        · show s5.pc + 4#32 = _
          rw [h5.pc]; rfl
        · show ((s5.setX 5 _).next).x 2 = _
          rw [Arch.next_x, Arch.x_setX, if_neg (by decide), if_neg (by decide), h5.x2]
        · show ((s5.setX 5 (BitVec.ofNat 32 ((s5.x 5).toNat + (immI stride).toNat))).next).x 5 = _
          rw [Arch.next_x, Arch.x_setX, if_neg (by decide), if_pos rfl, h5.x5, hd, BitVec.toNat_ofNat, BitVec.toNat_ofNat,
            Nat.mod_eq_of_lt (by omega : v < 2 ^ 32), Nat.mod_eq_of_lt (by omega : d < 2 ^ 32)]
        · show ((s5.setX 5 _).next).x 6 = _
          rw [Arch.next_x, Arch.x_setX, if_neg (by decide), if_neg (by decide), h5.x6]
      let s7 := stepAt pos (.jal 0 (-12)) s6
      have h7' : s7 = { s6 with pc := s6.pc + immJ (-12) } := by
        show ({ s6.setX 0 _ with pc := s6.pc + immJ (-12) } : Arch) = _
        rw [Arch.setX_zero]
      have h7 : At s7 3 (BitVec.ofNat 32 (v + d)) m := by rw [h7']; exact h6.goto _ _ (by decide)
      have hiff : (∀ j, j < k → sameAt o pos m (v + d + j * d)) ↔ ∀ j, j < k + 1 → sameAt o pos m (v + j * d) := by
        constructor
        · intro hh j hj
          cases j with
          | zero => simpa using hsame
          | succ j =>
            have := hh j (by omega)
            rwa [show v + (j + 1) * d = v + d + j * d by rw [Nat.succ_mul]; omega]
        · intro hh j hj
          have := hh (j + 1) (by omega)
          rwa [show v + (j + 1) * d = v + d + j * d by rw [Nat.succ_mul]; omega] at this
      have f6 : codeAt (matcher o stride) s5.pc = some (.opImm .addi 5 5 stride) := by
        rw [h5.pc]; exact codeAt_of _ 8 (by decide) _ rfl
      have f7 : codeAt (matcher o stride) s6.pc = some (.jal 0 (-12)) := by
        rw [h6.pc]; exact codeAt_of _ 9 (by decide) _ rfl
      obtain ⟨s', hm, hr, hb⟩ := ih s7 (v + d) h7 (by omega) (Nat.dvd_add hdv (Nat.dvd_refl d))
      have go : ∀ n t, R n s7 t → R (n + 7) s t := fun n t ht =>
        F.succ _ _ _ _ f1 trivial (F.succ _ _ _ _ f2 trivial (F.succ _ _ _ _ f3 g3 (F.succ _ _ _ _ f4 g4
          (F.succ _ _ _ _ f5 trivial (F.succ _ _ _ _ f6 trivial (F.succ _ _ _ _ f7 trivial ht))))))
      refine ⟨s', ?_, fun n hn => ?_, fun n hn => ?_⟩
      · rw [hm]
        refine congrArg (fun x => storeBytes m 0x40014#32 x 1) ?_
        unfold bool01
        by_cases hp : ∀ j, j < k → sameAt o pos m (v + d + j * d)
        · rw [if_pos hp, if_pos (hiff.mp hp)]
        · rw [if_neg hp, if_neg (fun hc => hp (hiff.mpr hc))]
      · obtain ⟨n, rfl⟩ : ∃ k, n = k + 7 := ⟨n - 7, by omega⟩
        exact go n s' (hr n (by omega))
      · by_cases h7n : 7 ≤ n
        · obtain ⟨n, rfl⟩ : ∃ k, n = k + 7 := ⟨n - 7, by omega⟩
          obtain ⟨t, ht, hor⟩ := hb n (by omega)
          exact ⟨t, go n t ht, hor.imp id fun ⟨a, b⟩ => ⟨fun hc => a (hiff.mpr hc), b⟩⟩
        · rcases (show n = 6 ∨ n < 6 by omega) with rfl | h6n
          · exact ⟨s6, F.succ _ _ _ _ f1 trivial (F.succ _ _ _ _ f2 trivial (F.succ _ _ _ _ f3 g3 (F.succ _ _ _ _ f4 g4
              (F.succ _ _ _ _ f5 trivial (F.succ _ _ _ _ f6 trivial (F.zero _)))))), .inl h6.mem⟩
          · exact (early n h6n h5.mem).imp fun t ht => ⟨ht.1, .inl ht.2⟩
    · have h5 : At s5 12 (BitVec.ofNat 32 v) m := by
        show At (if BranchOp.taken .bne (s4.x 8) (s4.x 9) then { s4 with pc := s4.pc + immB 10 } else s4.next) 12 _ m
        rw [if_pos (show BranchOp.taken .bne (s4.x 8) (s4.x 9) from by
          show s4.x 8 ≠ s4.x 9; rw [e4, e4']; exact hsame)]
        exact h4.goto _ _ (by decide)
      let s6 := stepAt pos (.opImm .addi 10 0 0) s5
      have h6 : At s6 13 (BitVec.ofNat 32 v) m := h5.set _ _ (by decide) (by decide) (by decide)
      have e6 : s6.x 10 = 0#32 := by
        show ((s5.setX 10 (ImmOp.eval .addi (s5.x 0) (immI 0))).next).x 10 = _
        rw [Arch.next_x, Arch.x_setX, if_neg (by decide), if_pos rfl, show s5.x 0 = 0#32 from rfl]
        decide
      have f6 : codeAt (matcher o stride) s5.pc = some (.opImm .addi 10 0 0) := by
        rw [h5.pc]; exact codeAt_of _ 12 (by decide) _ rfl
      have hno : ¬ ∀ j, j < k + 1 → sameAt o pos m (v + j * d) := fun hc => hsame (by simpa using hc 0 (by omega))
      obtain ⟨s', hm, hr⟩ := F.finish h6
      have go : ∀ n t, R n s6 t → R (n + 6) s t := fun n t ht =>
        F.succ _ _ _ _ f1 trivial (F.succ _ _ _ _ f2 trivial (F.succ _ _ _ _ f3 g3 (F.succ _ _ _ _ f4 g4
          (F.succ _ _ _ _ f5 trivial (F.succ _ _ _ _ f6 trivial ht)))))
      refine ⟨s', ?_, fun n hn => ?_, fun n hn => ?_⟩
      · rw [hm, e6]
        refine congrArg (fun x => storeBytes m 0x40014#32 x 1) ?_
        exact (if_neg hno).symm
      · obtain ⟨n, rfl⟩ : ∃ k, n = k + 6 := ⟨n - 6, by omega⟩
        exact go n s' (hr n (by omega))
      · by_cases h6n : n < 6
        · exact (early n h6n h5.mem).imp fun t ht => ⟨ht.1, .inl ht.2⟩
        · obtain ⟨n, rfl⟩ : ∃ k, n = k + 6 := ⟨n - 6, by omega⟩
          rcases (show n = 0 ∨ 1 ≤ n by omega) with rfl | hn1
          · exact ⟨s6, go 0 s6 (F.zero _), .inl h6.mem⟩
          · exact ⟨s', go n s' (hr n hn1), .inr ⟨hno, rfl⟩⟩

/-- The whole program: its result, when it is there, and what is in the memory before. -/
theorem Follows.whole (F : Follows (matcher o stride) pos R) (d : Nat) (hd : immI stride = BitVec.ofNat 32 d)
    (hsz : d = o.size) (k : Nat) (hk : k * d = 20) (s0 : Arch) (hpc : s0.pc = 0#32) :
    ∃ s', s'.mem = storeBytes s0.mem 0x40014#32 (bool01 (∀ j, j < k → sameAt o pos s0.mem (j * d))) 1 ∧
      (∀ n, 7 * k + 7 ≤ n → R n s0 s') ∧ ∀ n, n < 7 * k + 7 →
        ∃ t, R n s0 t ∧ (t.mem = s0.mem ∨ (¬ ∀ j, j < k → sameAt o pos s0.mem (j * d)) ∧ t.mem = s'.mem) := by
  let s1 := stepAt pos (.lui 2 0x40) s0
  let s2 := stepAt pos (.opImm .addi 5 0 0) s1
  let s3 := stepAt pos (.opImm .addi 6 0 20) s2
  have h3 : At s3 3 (BitVec.ofNat 32 0) s0.mem := by
    refine ⟨?_, ?_, ?_, ?_, rfl⟩
    · show s0.pc + 4#32 + 4#32 + 4#32 = _
      rw [hpc]; rfl
    · show (((((s0.setX 2 (immU 0x40)).next).setX 5 _).next).setX 6 _).next.x 2 = _
      rfl
    · show (((((s0.setX 2 (immU 0x40)).next).setX 5 (ImmOp.eval .addi (s1.x 0) (immI 0))).next).setX 6 _).next.x 5 = _
      rfl
    · show (s2.setX 6 (ImmOp.eval .addi (s2.x 0) (immI 20))).next.x 6 = _
      rfl
  have f1 : codeAt (matcher o stride) s0.pc = some (.lui 2 0x40) := by
    rw [hpc]; exact codeAt_of _ 0 (by decide) _ rfl
  have f2 : codeAt (matcher o stride) s1.pc = some (.opImm .addi 5 0 0) := by
    show codeAt _ (s0.pc + 4#32) = _
    rw [hpc]; exact codeAt_of _ 1 (by decide) _ rfl
  have f3 : codeAt (matcher o stride) s2.pc = some (.opImm .addi 6 0 20) := by
    show codeAt _ (s0.pc + 4#32 + 4#32) = _
    rw [hpc]; exact codeAt_of _ 2 (by decide) _ rfl
  have go : ∀ n t, R n s3 t → R (n + 3) s0 t := fun n t ht =>
    F.succ _ _ _ _ f1 trivial (F.succ _ _ _ _ f2 trivial (F.succ _ _ _ _ f3 trivial ht))
  obtain ⟨s', hm, hr, hb⟩ := F.loop d hd hsz s0.mem k s3 0 h3 (by omega) (Nat.dvd_zero d)
  refine ⟨s', ?_, fun n hn => ?_, fun n hn => ?_⟩
  · rw [hm]; simp only [Nat.zero_add]
  · obtain ⟨n, rfl⟩ : ∃ k, n = k + 3 := ⟨n - 3, by omega⟩
    exact go n s' (hr n (by omega))
  · rcases (show n = 0 ∨ n = 1 ∨ n = 2 ∨ 3 ≤ n by omega) with rfl | rfl | rfl | h3n
    · exact ⟨s0, F.zero _, .inl rfl⟩
    · exact ⟨s1, F.succ _ _ _ _ f1 trivial (F.zero _), .inl rfl⟩
    · exact ⟨s2, F.succ _ _ _ _ f1 trivial (F.succ _ _ _ _ f2 trivial (F.zero _)), .inl rfl⟩
    · obtain ⟨n, rfl⟩ : ∃ k, n = k + 3 := ⟨n - 3, by omega⟩
      obtain ⟨t, ht, hor⟩ := hb n (by omega)
      simp only [Nat.zero_add] at hor
      exact ⟨t, go n t ht, hor⟩

/-- The whole program on a RAM just loaded. -/
theorem Follows.main (F : Follows (matcher o stride) pos R) (d : Nat) (hd : immI stride = BitVec.ofNat 32 d)
    (hsz : d = o.size) (k : Nat) (hk : k * d = 20) (bytes : List Byte) :
    ∃ s', s'.mem = storeBytes (startState bytes).mem 0x40014#32
        (bool01 (∀ j, j < k → sameAt o pos (startState bytes).mem (j * d))) 1 ∧
      ∀ n, 7 * k + 7 ≤ n → R n (startState bytes) s' :=
  let ⟨s', h1, h2, _⟩ := F.whole d hd hsz k hk (startState bytes) rfl
  ⟨s', h1, h2⟩

end

/-! ### Both VMs are such machines -/

theorem follows_enc (o : LoadOp) (stride : BitVec 12) : Follows (matcher o stride) (ramWord 1024)
    (RunsWith (codeAt (matcher o stride)) (execMirror 1024)) where
  zero := .zero
  succ i s s' n hf hfit hr := by
    obtain ⟨h4, hlt, hget⟩ := codeAt_inv hf
    refine .succ hf ?_
    have e : execMirror 1024 i s = stepAt (ramWord 1024) i s := by
      have hmem := List.mem_of_getElem? hget
      simp only [matcher, List.mem_cons, List.not_mem_nil, or_false] at hmem
      rcases hmem with rfl | rfl | rfl | rfl | rfl | rfl | rfl | rfl | rfl | rfl | rfl | rfl | rfl | rfl | rfl
      case inr.inr.inr.inr.inr.inr.inr.inr.inr.inr.inr.inr.inr.inl =>
        have hx : (Instr.store .sb 2 10 20).inWindow s ramBase (4 * 1024) := by
          intro a n h
          have h := Prod.mk.inj (Option.some.inj h)
          rw [← h.1, ← h.2]
          exact hfit.2
        exact execMirror_supported 1024 (.store .sb 2 10 20) s (by decide) hfit.1 hx
      all_goals first | rfl | skip
    show RunsWith _ _ n (execMirror 1024 i s) s'
    rw [e]; exact hr

theorem follows_test (o : LoadOp) (stride : BitVec 12) (chk : Bool) : Follows (matcher o stride) id
    (Runs (codeAt (matcher o stride)) fun i s => ¬ stuck i s chk ramBase ∧ i.inWindow s ramBase 4096) where
  zero := .zero
  succ i s s' n hf hfit hr := by
    obtain ⟨h4, hlt, hget⟩ := codeAt_inv hf
    have hlen : (matcher o stride).length = 15 := rfl
    have hpc : s.pc.toNat < 60 := by omega
    have hmem := List.mem_of_getElem? hget
    have e : stepAt id i s = exec i s := by cases i <;> rfl
    rw [e] at hr
    have hjump : ∀ t, i.jumpsTo s = some t → t.toNat % 4 = 0 := by
      have add4 : ∀ d : Word, d.toNat % 4 = 0 → (s.pc + d).toNat % 4 = 0 := by
        intro d hd; rw [BitVec.toNat_add]; omega
      simp only [matcher, List.mem_cons, List.not_mem_nil, or_false] at hmem
      rcases hmem with rfl | rfl | rfl | rfl | rfl | rfl | rfl | rfl | rfl | rfl | rfl | rfl | rfl | rfl | rfl <;>
        intro t ht <;> simp only [Instr.jumpsTo] at ht
      all_goals first
        | (rw [← Option.some.inj ht]; exact add4 _ (by decide))
        | (split at ht
           · rw [← Option.some.inj ht]; exact add4 _ (by decide)
           · cases ht)
        | cases ht
    refine .succ hf ⟨?_, ?_⟩ hr
    · rintro (h | h | h | ⟨-, h | h⟩)
      · obtain ⟨t, h1, h2⟩ := h; exact h2 (hjump t h1)
      · cases i with
        | load o' rd rs1 imm => exact h hfit.1
        | store o' rs1 rs2 imm =>
          cases o' with
          | sh =>
            have h : (s.x rs1 + immI imm).toNat % 4 = 3 := h
            have h' : (s.x rs1 + immI imm).toNat % 2 = 0 := hfit.1
            omega
          | sb => exact h hfit.1
          | sw => exact h hfit.1
        | _ => exact h
      · cases i with
        | mul o' a b c =>
          simp only [matcher, List.mem_cons, List.not_mem_nil, or_false, reduceCtorEq] at hmem
        | _ => exact h
      · obtain ⟨a, n, h1, h2⟩ := h
        cases i <;> simp only [Instr.access, reduceCtorEq, Option.some.injEq, Prod.mk.injEq] at h1
        · obtain ⟨rfl, -⟩ := h1; exact absurd hfit.2.1 (by omega)
        · obtain ⟨rfl, -⟩ := h1; exact absurd hfit.2.1 (by omega)
      · have := h.2; omega
    · intro a n h1
      cases i <;> simp only [Instr.access, reduceCtorEq, Option.some.injEq, Prod.mk.injEq] at h1
      · obtain ⟨rfl, rfl⟩ := h1; exact hfit.2
      · obtain ⟨rfl, rfl⟩ := h1; exact hfit.2

/-! ### The ELF files -/

/-- The hidden string of the source, with its padding. -/
def secret : List Byte := Guest.hidden ++ List.replicate 9 0

def matcherElf (o : LoadOp) (stride : BitVec 12) : Elf :=
  { bytes := wordBytes ((matcher o stride).map encode) ++ List.replicate 24 0#8 ++ secret
    segments := [⟨1, 5, 0, 0, 60, 60⟩, ⟨1, 6, 60, 0x40000, 44, 44⟩]
    sections := [(".inpdata", ⟨0x40000, 20⟩), (".outdata", ⟨0x40014, 1⟩)] }

/-- The image. -/
def matcherImage (o : LoadOp) (stride : BitVec 12) : Phantom :=
  { bootRom := ⟨wordBytes ((matcher o stride).map encode), 0, 60⟩
    bootRam := ⟨List.replicate 24 0#8 ++ secret ++ List.replicate 4052 0#8, 0x40000, 4096⟩
    output := ⟨0x40014, 1⟩, input := ⟨0x40000, 20⟩ }

/-- Loads of bytes one by one. -/
abbrev byteImage : Phantom := matcherImage .lbu 1
/-- Loads of words, four bytes at a time. -/
abbrev wordImage : Phantom := matcherImage .lw 4

theorem matcher_elf (o : LoadOp) (stride : BitVec 12)
    (h1 : slice (matcherElf o stride).bytes 0 60 = some (wordBytes ((matcher o stride).map encode)))
    (h2 : slice (matcherElf o stride).bytes 60 44 = some (List.replicate 24 0#8 ++ secret)) :
    Phantom.fromElf (matcherElf o stride) = some (matcherImage o stride) := by
  have t : (matcherElf o stride).textHeader = some ⟨1, 5, 0, 0, 60, 60⟩ := rfl
  have r : (matcherElf o stride).ramHeaders = [⟨1, 6, 60, 0x40000, 44, 44⟩] := rfl
  have f : (matcherElf o stride).ramOffset = 0x40000 := rfl
  have i : (matcherElf o stride).sectionByName ".inpdata" = some ⟨0x40000, 20⟩ :=
    show (List.find? (fun s => decide (s.1 = ".inpdata"))
      [(".inpdata", (⟨0x40000, 20⟩ : TapeInfo)), (".outdata", ⟨0x40014, 1⟩)]).map (·.2) = _ from by decide +kernel
  have u : (matcherElf o stride).sectionByName ".outdata" = some ⟨0x40014, 1⟩ :=
    show (List.find? (fun s => decide (s.1 = ".outdata"))
      [(".inpdata", (⟨0x40000, 20⟩ : TapeInfo)), (".outdata", ⟨0x40014, 1⟩)]).map (·.2) = _ from by decide +kernel
  have c : copyInto (List.replicate RAM_SIZE 0#8) 0x40000 0x40000 (List.replicate 24 0#8 ++ secret) =
      some (List.replicate 24 0#8 ++ secret ++ List.replicate 4052 0#8) := by
    have l : (List.replicate 24 0#8 ++ secret).length = 44 := by decide
    unfold copyInto
    rw [if_pos ⟨Nat.le_refl _, by rw [l, List.length_replicate]; decide⟩, l, Nat.sub_self, List.take_zero, List.nil_append,
      List.drop_replicate]
    rfl
  have s : loadSegments (matcherElf o stride) 0x40000 [⟨1, 6, 60, 0x40000, 44, 44⟩] (List.replicate RAM_SIZE 0#8) =
      some (List.replicate 24 0#8 ++ secret ++ List.replicate 4052 0#8) := by
    unfold loadSegments loadSegment
    rw [if_pos (by decide), h2, Option.bind_some, c]
    rfl
  unfold Phantom.fromElf
  rw [t, Option.bind_some, if_pos ⟨rfl, rfl⟩, h1, Option.bind_some, r, f, s, Option.bind_some, i, Option.bind_some, u]
  rfl

theorem byte_elf : Phantom.fromElf (matcherElf .lbu 1) = some byteImage :=
  matcher_elf _ _ (by decide +kernel) (by decide +kernel)
theorem word_elf : Phantom.fromElf (matcherElf .lw 4) = some wordImage :=
  matcher_elf _ _ (by decide +kernel) (by decide +kernel)

/-! ### Running them -/

/-- The RAM with the tape. -/
def matcherRam (tape : List Byte) : List Byte := tape ++ (List.replicate 4 0#8 ++ (secret ++ List.replicate 4052 0#8))

theorem matcher_placed (o : LoadOp) (stride : BitVec 12) (tape : List Byte) (h : tape.length = 20) :
    Placed (matcherImage o stride).bootRam.data 0 tape (matcherRam tape) := by
  have hs : secret.length = 20 := by decide
  have e : (matcherImage o stride).bootRam.data =
      List.replicate 20 0#8 ++ (List.replicate 4 0#8 ++ (secret ++ List.replicate 4052 0#8)) := by
    show List.replicate (20 + 4) 0#8 ++ secret ++ List.replicate 4052 0#8 = _
    rw [← List.replicate_append_replicate, List.append_assoc, List.append_assoc]
  rw [e]
  unfold matcherRam
  refine ⟨?_, ?_, fun i hi => ?_, fun k hk => ?_⟩
  · simp only [List.length_append, List.length_replicate, h]; omega
  · simp only [List.length_append, List.length_replicate, h]
  · rw [Nat.zero_add, List.getElem?_append_left hi]
  · have hk : 20 ≤ k := by omega
    rw [List.getElem?_append_right (by rw [h]; exact hk),
      List.getElem?_append_right (l₁ := List.replicate 20 0#8) (by rw [List.length_replicate]; exact hk),
      List.length_replicate, h]

theorem bool01_byte (p : Prop) [Decidable p] : (bool01 p).extractLsb' 0 8 = if p then 1#8 else 0#8 := by
  unfold bool01; split <;> decide

theorem matcher_tape {s' : Arch} {m : Word → Byte} {p : Prop} [Decidable p]
    (h : s'.mem = storeBytes m 0x40014#32 (bool01 p) 1) : ramBytes s' 20 1 = [if p then 1#8 else 0#8] := by
  show [s'.mem 0x40014#32] = _
  rw [h, ← bool01_byte]
  rfl

theorem matcher_instr (o : LoadOp) (stride : BitVec 12) (k : Nat) (i : Instr) (h : (matcher o stride)[k]? = some i) :
    InstrAt (matcherImage o stride).bootRom.data (4 * k) i := by
  intro j hj
  show (wordBytes ((matcher o stride).map encode))[4 * k + j]? = _
  rw [wordBytes_get, show (4 * k + j) / 4 = k by omega, show (4 * k + j) % 4 = j by omega, List.getElem?_map, h]
  rfl

theorem matcher_len (o : LoadOp) (stride : BitVec 12) : (matcherImage o stride).bootRom.data.length = 60 := by
  show (wordBytes ((matcher o stride).map encode)).length = 60
  rw [wordBytes_length, List.length_map]
  rfl

theorem matcher_test (o : LoadOp) (stride : BitVec 12) (d k : Nat) (hd : immI stride = BitVec.ofNat 32 d)
    (hsz : d = o.size) (hk : k * d = 20) (hp : Phantom.fromElf (matcherElf o stride) = some (matcherImage o stride))
    (chk : Bool) (n : Nat) (hn : 7 * k + 7 ≤ n) (tape : List Byte) (hlen : tape.length = 20) :
    ∃ vm0 vm1 vm2, (matcherImage o stride).testVm chk n = some vm0 ∧ vm0.readInputTape chk tape = some vm1 ∧
      vm1.execute chk = some vm2 ∧ vm2.outputTape chk =
        some [if ∀ j, j < k → sameAt o id (startState (matcherRam tape)).mem (j * d) then 1#8 else 0#8] := by
  have hfile : (matcherElf o stride).bytes.length < 2 ^ 63 := by
    show (wordBytes ((matcher o stride).map encode) ++ List.replicate 24 0#8 ++ secret).length < _
    have := matcher_len o stride
    have h2 : (wordBytes ((matcher o stride).map encode)).length = 60 := this
    rw [List.length_append, List.length_append, h2]
    decide
  obtain ⟨vm0, vm1, e0, e1, -⟩ := testVm_total chk n _ _ tape hfile hp hlen (by decide : (0x40000 : Nat) ≤ 0x40000) (by decide : 0x40000 + 20 ≤ 0x40000 + 4096)
  obtain ⟨s', hm, hr⟩ := (follows_test o stride chk).main d hd hsz k hk (matcherRam tape)
  have hpl : Placed (matcherImage o stride).bootRam.data ((matcherImage o stride).input.startAddr - ramBase) tape
      (matcherRam tape) := by
    have : (matcherImage o stride).input.startAddr - ramBase = 0 := Nat.sub_self 0x40000
    rw [this]; exact matcher_placed o stride tape hlen
  obtain ⟨vm2, e2, e3⟩ := C70_testvm chk n _ _ tape (matcherRam tape) vm0 vm1 (codeAt (matcher o stride)) s' hfile hp rfl
    e0 e1 hpl (by decide : (0x40000 : Nat) ≤ 0x40000) hlen (by rw [matcher_len])
    (fun pc i h => by
      obtain ⟨h4, -, hg⟩ := codeAt_inv h
      refine ⟨h4, ?_⟩
      have := matcher_instr o stride _ _ hg
      rwa [show 4 * (pc.toNat / 4) = pc.toNat by omega] at this)
    (hr n hn) (by decide : (0x40000 : Nat) ≤ 0x40014) (by decide : 0x40014 + 1 ≤ 0x40000 + 4096)
  refine ⟨vm0, vm1, vm2, e0, e1, e2, ?_⟩
  rw [e3, show (matcherImage o stride).output.startAddr - ramBase = 20 from
    (by decide : 0x40014 - 0x40000 = 20)]
  exact congrArg some (matcher_tape hm)

theorem plain_load (o : LoadOp) (ho : o ≠ .lb) (rd rs1 : Reg) (imm : BitVec 12) : (Instr.load o rd rs1 imm).plainBase := by
  cases o <;> simp_all [Instr.plainBase]

theorem matcher_enc (o : LoadOp) (stride : BitVec 12) (d k : Nat) (ho : o ≠ .lb) (hd : immI stride = BitVec.ofNat 32 d)
    (hsz : d = o.size) (hk : k * d = 20) (hp : Phantom.fromElf (matcherElf o stride) = some (matcherImage o stride))
    (hpa : ∀ dbg, (Parser.new.addAll dbg ((matcher o stride).map encode)).isSome = true)
    (F : Fhe) (rand : Nat → Nat → Nat → F.C.Rand) (chk dbg phantomDebug : Bool) (threads n : Nat) (ht : 0 < threads)
    (hn : 7 * k + 7 ≤ n) (hn' : n < 2 ^ 32) (tape : List Byte) (hlen : tape.length = 20) :
    ∃ ev ev2, (matcherImage o stride).encryptedVm F.C rand dbg phantomDebug threads tape n = some ev ∧
      ev.execute F.C F.decU F.decP = some ev2 ∧ ev2.outputTape F.C chk =
        some [if ∀ j, j < k → sameAt o (ramWord 1024) (startState (matcherRam tape)).mem (j * d) then 1#8 else 0#8] := by
  have hl := matcher_len o stride
  have h4 : (matcherImage o stride).bootRom.data.length % 4 = 0 := by rw [hl]
  have hw : packWords (matcherImage o stride).bootRom.data = (matcher o stride).map encode := by
    apply List.ext_getElem?
    intro k
    cases hk : (matcher o stride)[k]? with
    | some i => rw [packWords_instr h4 (matcher_instr o stride k i hk), List.getElem?_map, hk]; rfl
    | none =>
      rw [List.getElem?_map, hk]
      have h1 : (matcher o stride).length ≤ k := List.getElem?_eq_none_iff.mp hk
      have h2 := packWords_length _ h4
      have h3 : (matcher o stride).length = 15 := rfl
      exact List.getElem?_eq_none_iff.mpr (by omega)
  obtain ⟨parser, hparser⟩ := Option.isSome_iff_exists.mp (hpa dbg)
  obtain ⟨ev, hev⟩ := C42_setup F rand dbg phantomDebug threads n _ _ tape parser hp h4
    (fun h => by rw [h] at hl; cases hl) (by rw [hw]; exact hparser) hlen (by decide : (0x40000 : Nat) ≤ 0x40000)
    (by decide : 0x40000 + 20 ≤ 0x40000 + 4096)
  obtain ⟨s', hm, hr⟩ := (follows_enc o stride).main d hd hsz k hk (matcherRam tape)
  have hpl : Placed (matcherImage o stride).bootRam.data
      ((matcherImage o stride).input.startAddr - (matcherImage o stride).bootRam.offset) tape (matcherRam tape) := by
    have : (matcherImage o stride).input.startAddr - (matcherImage o stride).bootRam.offset = 0 := Nat.sub_self 0x40000
    rw [this]; exact matcher_placed o stride tape hlen
  obtain ⟨ev2, e2, e3⟩ := C70_debug F rand chk dbg phantomDebug threads n _ _ tape (matcherRam tape) ev (codeAt (matcher o stride)) s' hp
    ht hn' hev hpl
    (fun pc i h => by
      obtain ⟨h4, hlt, hg⟩ := codeAt_inv h
      refine ⟨?_, matcher_instr o stride _ _ hg⟩
      have hmem := List.mem_of_getElem? hg
      simp only [matcher, List.mem_cons, List.not_mem_nil, or_false] at hmem
      rcases hmem with rfl | rfl | rfl | rfl | rfl | rfl | rfl | rfl | rfl | rfl | rfl | rfl | rfl | rfl | rfl
      case inr.inr.inr.inr.inr.inl => exact plain_load o ho _ _ _
      case inr.inr.inr.inr.inr.inr.inl => exact plain_load o ho _ _ _
      all_goals first | trivial | decide)
    (hr n hn) (by decide : (0x40000 : Nat) < 2 ^ 32) (by decide : (0x40000 : Nat) ≤ 0x40014)
    (by decide : 0x40014 + 1 ≤ 0x40000 + 4096)
  refine ⟨ev, ev2, hev, e2, ?_⟩
  rw [e3, show (matcherImage o stride).output.startAddr - (matcherImage o stride).bootRam.offset = 20 from
    (by decide : 0x40014 - 0x40000 = 20)]
  exact congrArg some (matcher_tape hm)

/-! ### What the comparisons see -/

theorem secret_length : secret.length = 20 := by decide

theorem ram_input (tape : List Byte) (h : tape.length = 20) (v : Nat) (hv : v < 20) :
    some ((startState (matcherRam tape)).mem (BitVec.ofNat 32 (ramBase + v))) = tape[v]? := by
  rw [startState_mem _ _ (by unfold ramBase; omega), List.getD_eq_getElem?_getD]
  unfold matcherRam
  rw [List.getElem?_append_left (by omega), List.getElem?_eq_getElem (by omega)]
  rfl

theorem ram_secret (tape : List Byte) (h : tape.length = 20) (v : Nat) (hv : v < 20) :
    some ((startState (matcherRam tape)).mem (BitVec.ofNat 32 (ramBase + 24 + v))) = secret[v]? := by
  rw [Nat.add_assoc, startState_mem _ _ (by unfold ramBase; omega), List.getD_eq_getElem?_getD]
  unfold matcherRam
  rw [List.getElem?_append_right (by omega), List.getElem?_append_right (by rw [List.length_replicate]; omega), List.length_replicate,
    List.getElem?_append_left (by rw [secret_length]; omega), h, show 24 + v - 20 - 4 = v by omega,
    List.getElem?_eq_getElem (by rw [secret_length]; omega)]
  rfl

theorem lbu_eq (m : Word → Byte) (a b : Word) : LoadOp.eval .lbu m a = LoadOp.eval .lbu m b ↔ m a = m b := by
  constructor
  · intro h
    have h1 := congrArg BitVec.toNat h
    have ha := (m a).isLt
    have hb := (m b).isLt
    simp only [LoadOp.eval, leValue, Nat.mul_zero, Nat.add_zero, BitVec.toNat_ofNat] at h1
    apply BitVec.eq_of_toNat_eq
    omega
  · intro h; simp only [LoadOp.eval, leValue, h]

theorem lw_eq (m : Word → Byte) (a b : Word) : LoadOp.eval .lw m a = LoadOp.eval .lw m b ↔
    ∀ j, j < 4 → m (a + BitVec.ofNat 32 j) = m (b + BitVec.ofNat 32 j) := by
  have e : ∀ a : Word, leValue m a 4 = (m a).toNat + 256 * ((m (a + 1#32)).toNat + 256 * ((m (a + 2#32)).toNat +
      256 * (m (a + 3#32)).toNat)) := by
    intro a
    simp only [leValue, Nat.mul_zero, Nat.add_zero, BitVec.add_assoc]
    rfl
  constructor
  · intro h j hj
    have h1 := congrArg BitVec.toNat h
    simp only [LoadOp.eval, e, BitVec.toNat_ofNat] at h1
    have l := fun x : Word => (m x).isLt
    have a0 := l a; have a1 := l (a + 1#32); have a2 := l (a + 2#32); have a3 := l (a + 3#32)
    have b0 := l b; have b1 := l (b + 1#32); have b2 := l (b + 2#32); have b3 := l (b + 3#32)
    apply BitVec.eq_of_toNat_eq
    rcases (show j = 0 ∨ j = 1 ∨ j = 2 ∨ j = 3 by omega) with rfl | rfl | rfl | rfl
    · simp only [BitVec.add_zero]; omega
    · show (m (a + 1#32)).toNat = (m (b + 1#32)).toNat; omega
    · show (m (a + 2#32)).toNat = (m (b + 2#32)).toNat; omega
    · show (m (a + 3#32)).toNat = (m (b + 3#32)).toNat; omega
  · intro h
    have h0 := h 0 (by decide)
    simp only [BitVec.add_zero] at h0
    have h1 : m (a + 1#32) = m (b + 1#32) := h 1 (by decide)
    have h2 : m (a + 2#32) = m (b + 2#32) := h 2 (by decide)
    have h3 : m (a + 3#32) = m (b + 3#32) := h 3 (by decide)
    simp only [LoadOp.eval, e, h0, h1, h2, h3]

theorem ramWord_eq (k : Nat) (hk : k < 4096) :
    ramWord 1024 (BitVec.ofNat 32 (ramBase + k)) = BitVec.ofNat 32 (ramBase + 4 * (k / 4)) := by
  unfold ramWord
  have e : (BitVec.ofNat 32 (ramBase + k) - 0x40000#32).toNat = k := by
    rw [BitVec.toNat_sub, BitVec.toNat_ofNat]; unfold ramBase; simp; omega
  rw [e, Nat.mod_eq_of_lt (by omega : k / 4 < 1024)]

theorem seen_bytes {m : Word → Byte} (tape : List Byte) (h : tape.length = 20)
    (hi : ∀ v, v < 20 → some (m (BitVec.ofNat 32 (ramBase + v))) = tape[v]?)
    (hs : ∀ v, v < 20 → some (m (BitVec.ofNat 32 (ramBase + 24 + v))) = secret[v]?) :
    (∀ j, j < 20 → sameAt .lbu id m (j * 1)) ↔ tape = secret := by
  have key : ∀ j, j < 20 → (sameAt .lbu id m (j * 1) ↔ tape[j]? = secret[j]?) := by
    intro j hj
    rw [← hi j hj, ← hs j hj, Nat.mul_one]
    unfold sameAt id
    rw [lbu_eq]
    exact ⟨fun h => congrArg some h, Option.some.inj⟩
  constructor
  · intro hx
    apply List.ext_getElem?
    intro j
    by_cases hj : j < 20
    · exact (key j hj).mp (hx j hj)
    · rw [List.getElem?_eq_none_iff.mpr (by omega), List.getElem?_eq_none_iff.mpr (by rw [secret_length]; omega)]
  · rintro rfl j hj
    exact (key j hj).mpr rfl

theorem seen_firsts {m : Word → Byte} (tape : List Byte)
    (hi : ∀ v, v < 20 → some (m (BitVec.ofNat 32 (ramBase + v))) = tape[v]?)
    (hs : ∀ v, v < 20 → some (m (BitVec.ofNat 32 (ramBase + 24 + v))) = secret[v]?) :
    (∀ j, j < 20 → sameAt .lbu (ramWord 1024) m (j * 1)) ↔
      ∀ k, k < 5 → tape[4 * k]? = secret[4 * k]? := by
  have key : ∀ j, j < 20 → (sameAt .lbu (ramWord 1024) m (j * 1) ↔
      tape[4 * (j / 4)]? = secret[4 * (j / 4)]?) := by
    intro j hj
    rw [← hi _ (by omega : 4 * (j / 4) < 20), ← hs _ (by omega : 4 * (j / 4) < 20), Nat.mul_one]
    unfold sameAt
    rw [Nat.add_assoc, ramWord_eq _ (by omega), ramWord_eq _ (by omega), lbu_eq,
      show ramBase + 4 * ((24 + j) / 4) = ramBase + 24 + 4 * (j / 4) by omega]
    exact ⟨fun h => congrArg some h, Option.some.inj⟩
  constructor
  · intro hx k hk
    have := (key (4 * k) (by omega)).mp (hx (4 * k) (by omega))
    rwa [show 4 * (4 * k / 4) = 4 * k by omega] at this
  · intro hx j hj
    exact (key j hj).mpr (hx (j / 4) (by omega))

theorem seen_words {m : Word → Byte} (tape : List Byte) (h : tape.length = 20)
    (hi : ∀ v, v < 20 → some (m (BitVec.ofNat 32 (ramBase + v))) = tape[v]?)
    (hs : ∀ v, v < 20 → some (m (BitVec.ofNat 32 (ramBase + 24 + v))) = secret[v]?) (pos : Word → Word)
    (hpos : ∀ k, k < 4096 → k % 4 = 0 → pos (BitVec.ofNat 32 (ramBase + k)) = BitVec.ofNat 32 (ramBase + k)) :
    (∀ j, j < 5 → sameAt .lw pos m (j * 4)) ↔ tape = secret := by
  have key : ∀ j, j < 5 → (sameAt .lw pos m (j * 4) ↔
      ∀ t, t < 4 → tape[4 * j + t]? = secret[4 * j + t]?) := by
    intro j hj
    unfold sameAt
    rw [hpos _ (by omega) (by omega), Nat.add_assoc, hpos _ (by omega) (by omega), lw_eq]
    refine forall_congr' fun t => forall_congr' fun ht => ?_
    rw [← hi _ (by omega : 4 * j + t < 20), ← hs _ (by omega : 4 * j + t < 20),
      ← BitVec.ofNat_add, ← BitVec.ofNat_add, show ramBase + j * 4 + t = ramBase + (4 * j + t) by omega,
      show ramBase + (24 + j * 4) + t = ramBase + 24 + (4 * j + t) by omega]
    exact ⟨fun h => congrArg some h, Option.some.inj⟩
  constructor
  · intro hx
    apply List.ext_getElem?
    intro j
    by_cases hj : j < 20
    · have := (key (j / 4) (by omega)).mp (hx (j / 4) (by omega)) (j % 4) (Nat.mod_lt _ (by decide))
      rwa [show 4 * (j / 4) + j % 4 = j by omega] at this
    · rw [List.getElem?_eq_none_iff.mpr (by omega), List.getElem?_eq_none_iff.mpr (by rw [secret_length]; omega)]
  · rintro rfl j hj
    exact (key j hj).mpr fun _ _ => rfl

theorem same_bytes (tape : List Byte) (h : tape.length = 20) :
    (∀ j, j < 20 → sameAt .lbu id (startState (matcherRam tape)).mem (j * 1)) ↔ tape = secret :=
  seen_bytes tape h (ram_input tape h) (ram_secret tape h)

theorem same_firsts (tape : List Byte) (h : tape.length = 20) :
    (∀ j, j < 20 → sameAt .lbu (ramWord 1024) (startState (matcherRam tape)).mem (j * 1)) ↔
      ∀ k, k < 5 → tape[4 * k]? = secret[4 * k]? :=
  seen_firsts tape (ram_input tape h) (ram_secret tape h)

theorem same_words (tape : List Byte) (h : tape.length = 20) (pos : Word → Word)
    (hpos : ∀ k, k < 4096 → k % 4 = 0 → pos (BitVec.ofNat 32 (ramBase + k)) = BitVec.ofNat 32 (ramBase + k)) :
    (∀ j, j < 5 → sameAt .lw pos (startState (matcherRam tape)).mem (j * 4)) ↔ tape = secret :=
  seen_words tape h (ram_input tape h) (ram_secret tape h) pos hpos

theorem matchMain_secret (tape : List Byte) (h : tape.length = 20) :
    Guest.matchMain tape = some [if tape = secret then 1#8 else 0#8] := by
  rw [C47_match tape h]
  have : "mississippi".toUTF8.toList.map (fun b => b.toBitVec) ++ List.replicate 9 0 = secret := by decide +kernel
  rw [this]
  rfl

/-- The guest with byte loads.  For every input the test VM computes the result of the source of string-match.
The encrypted VM, under any correct library, compares only every fourth character, and the comparison with the
mirror, when it is on, does not notice. -/
theorem C70_bytes (F : Fhe) (rand : Nat → Nat → Nat → F.C.Rand) (chk dbg phantomDebug : Bool) (threads n : Nat) (ht : 0 < threads)
    (hn : 147 ≤ n) (hn' : n < 2 ^ 32) (tape : List Byte) (hlen : tape.length = 20) :
    (∃ vm0 vm1 vm2, byteImage.testVm chk n = some vm0 ∧ vm0.readInputTape chk tape = some vm1 ∧
      vm1.execute chk = some vm2 ∧ vm2.outputTape chk = Guest.matchMain tape) ∧
    ∃ ev ev2, byteImage.encryptedVm F.C rand dbg phantomDebug threads tape n = some ev ∧
      ev.execute F.C F.decU F.decP = some ev2 ∧
      ev2.outputTape F.C chk = some [if ∀ k, k < 5 → tape[4 * k]? = secret[4 * k]? then 1#8 else 0#8] := by
  constructor
  · obtain ⟨vm0, vm1, vm2, e0, e1, e2, e3⟩ := matcher_test .lbu 1 1 20 (by decide) rfl rfl byte_elf chk n hn tape hlen
    refine ⟨vm0, vm1, vm2, e0, e1, e2, ?_⟩
    rw [e3, matchMain_secret tape hlen]
    simp only [same_bytes tape hlen]
  · obtain ⟨ev, ev2, e1, e2, e3⟩ := matcher_enc .lbu 1 1 20 (by decide) (by decide) rfl rfl byte_elf
      (by decide +kernel) F rand chk dbg phantomDebug threads n ht hn hn' tape hlen
    refine ⟨ev, ev2, e1, e2, ?_⟩
    rw [e3]
    simp only [same_firsts tape hlen]

/-- The guest with word loads: both VMs compute the result of the source, for every input. -/
theorem C70_words (F : Fhe) (rand : Nat → Nat → Nat → F.C.Rand) (chk dbg phantomDebug : Bool) (threads n : Nat) (ht : 0 < threads)
    (hn : 42 ≤ n) (hn' : n < 2 ^ 32) (tape : List Byte) (hlen : tape.length = 20) :
    (∃ vm0 vm1 vm2, wordImage.testVm chk n = some vm0 ∧ vm0.readInputTape chk tape = some vm1 ∧
      vm1.execute chk = some vm2 ∧ vm2.outputTape chk = Guest.matchMain tape) ∧
    ∃ ev ev2, wordImage.encryptedVm F.C rand dbg phantomDebug threads tape n = some ev ∧
      ev.execute F.C F.decU F.decP = some ev2 ∧ ev2.outputTape F.C chk = Guest.matchMain tape := by
  rw [matchMain_secret tape hlen]
  constructor
  · obtain ⟨vm0, vm1, vm2, e0, e1, e2, e3⟩ := matcher_test .lw 4 4 5 (by decide) rfl rfl word_elf chk n hn tape hlen
    refine ⟨vm0, vm1, vm2, e0, e1, e2, ?_⟩
    rw [e3]
    simp only [same_words tape hlen id (fun _ _ _ => rfl)]
  · obtain ⟨ev, ev2, e1, e2, e3⟩ := matcher_enc .lw 4 4 5 (by decide) (by decide) rfl rfl word_elf
      (by decide +kernel) F rand chk dbg phantomDebug threads n ht hn hn' tape hlen
    refine ⟨ev, ev2, e1, e2, ?_⟩
    rw [e3]
    simp only [same_words tape hlen (ramWord 1024) (fun k h1 h2 => by
      rw [ramWord_eq k h1, show 4 * (k / 4) = k by omega])]

/-- So an input other than the hidden string is accepted under encryption: here `m???i???p??`. -/
theorem C70_false_match : ∃ tape : List Byte, tape.length = 20 ∧ Guest.matchMain tape = some [0#8] ∧
    ∀ (F : Fhe) (rand : Nat → Nat → Nat → F.C.Rand) (chk dbg phantomDebug : Bool) (threads n : Nat), 0 < threads → 147 ≤ n → n < 2 ^ 32 →
      ∃ ev ev2, byteImage.encryptedVm F.C rand dbg phantomDebug threads tape n = some ev ∧
        ev.execute F.C F.decU F.decP = some ev2 ∧ ev2.outputTape F.C chk = some [1#8] := by
  have hl : ("m???i???p??".toUTF8.toList.map (fun b => b.toBitVec) ++ List.replicate 9 0#8).length = 20 := by
    decide +kernel
  refine ⟨_, hl, by decide +kernel, fun F rand chk dbg phantomDebug threads n ht hn hn' => ?_⟩
  obtain ⟨ev, ev2, e1, e2, e3⟩ := (C70_bytes F rand chk dbg phantomDebug threads n ht hn hn' _ hl).2
  refine ⟨ev, ev2, e1, e2, ?_⟩
  rw [e3, if_pos (by decide +kernel)]

-- the theorems apply: a library and a tape of the right length
example := C70_false_match.choose_spec.2.2 sampleFhe (fun _ _ _ => ()) true true true 3 200 (by decide) (by decide) (by decide)
example := C70_words sampleFhe (fun _ _ _ => ()) true true true 3 200 (by decide) (by decide) (by decide) secret (by decide)

end Verif.Props
