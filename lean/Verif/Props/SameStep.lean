import Verif.Spec.SameStep
import Verif.Props.PastEnd
/-
  Property C99: on which runs both VMs do the same.
-/
namespace Verif.Props
open Model Spec

/-! ### Where the two VMs access the RAM -/

/-- Start of the word of an address. -/
def wordStart (a : Word) : Word := a - BitVec.ofNat 32 (a.toNat % 4)

theorem wordStart_toNat (a : Word) : (wordStart a).toNat = a.toNat - a.toNat % 4 := by
  have := a.isLt
  unfold wordStart
  rw [BitVec.toNat_sub, BitVec.toNat_ofNat, Nat.mod_eq_of_lt (by omega : a.toNat % 4 < 2 ^ 32)]
  omega

theorem wordStart_add (a : Word) : wordStart a + BitVec.ofNat 32 (a.toNat % 4) = a := by
  unfold wordStart
  rw [BitVec.sub_add_cancel]

theorem ramWord_start (a : Word) : ramWord 1024 (wordStart a) = ramWord 1024 a := by
  have := a.isLt
  unfold ramWord
  refine congrArg (fun q => BitVec.ofNat 32 (ramBase + 4 * (q % 1024))) ?_
  rw [BitVec.toNat_sub, BitVec.toNat_sub, wordStart_toNat]
  simp only [BitVec.toNat_ofNat]
  omega

theorem byte_start (a : Word) (j : Nat) (hj : j < 4) :
    ramByte ramBase 4096 (wordStart a + BitVec.ofNat 32 j) = ramWord 1024 a + BitVec.ofNat 32 j := by
  have := ramByte_word 1024 (wordStart a) j (by decide) (by decide) (by rw [wordStart_toNat]; omega) hj (Or.inr (by decide))
  rw [ramWord_start] at this
  exact this

theorem byte_at (a : Word) (j : Nat) (hj : a.toNat % 4 + j < 4) :
    ramByte ramBase 4096 (a + BitVec.ofNat 32 j) = ramWord 1024 a + BitVec.ofNat 32 (a.toNat % 4 + j) := by
  rw [← byte_start a _ hj, ← ofNat_plus, ← BitVec.add_assoc, wordStart_add]

theorem byte_here (a : Word) : ramByte ramBase 4096 a = ramWord 1024 a + BitVec.ofNat 32 (a.toNat % 4) := by
  have := byte_at a 0 (by omega)
  rw [BitVec.add_zero, Nat.add_zero] at this
  exact this

theorem byte_first (a : Word) : ramByte ramBase 4096 (wordStart a) = ramWord 1024 a := by
  have := byte_start a 0 (by decide)
  rw [BitVec.add_zero, BitVec.add_zero] at this
  exact this

/-! ### Registers -/

theorem setX_next_iff (s : Arch) (rd : Reg) (v w : Word) : (s.setX rd v).next = (s.setX rd w).next ↔ rd = 0#5 ∨ v = w := by
  constructor
  · intro h
    by_cases hr : rd = 0#5
    · exact Or.inl hr
    · right
      have := congrFun (congrArg Arch.reg h) rd
      simpa [Arch.setX, Arch.next, hr] using this
  · rintro (rfl | rfl)
    · simp [Arch.setX, Arch.next]
    · rfl

/-! ### Loads -/

theorem zext_inj (b c : Byte) : BitVec.ofNat 32 (b.toNat + 256 * 0) = BitVec.ofNat 32 (c.toNat + 256 * 0) ↔ b = c := by
  constructor
  · intro h
    have := congrArg BitVec.toNat h
    rw [BitVec.toNat_ofNat, BitVec.toNat_ofNat] at this
    apply BitVec.eq_of_toNat_eq
    have := b.isLt
    have := c.isLt
    omega
  · rintro rfl; rfl

theorem sext_zext (b c : Byte) : (BitVec.ofNat 8 (b.toNat + 256 * 0)).signExtend 32 = BitVec.ofNat 32 (c.toNat + 256 * 0) ↔
    b = c ∧ b.toNat < 128 := by
  have hb := b.isLt
  have hc := c.isLt
  have e : BitVec.ofNat 8 (b.toNat + 256 * 0) = b := by
    apply BitVec.eq_of_toNat_eq
    rw [BitVec.toNat_ofNat]; omega
  rw [e]
  by_cases h : b.toNat < 128
  · have hs : b.signExtend 32 = BitVec.ofNat 32 (b.toNat + 256 * 0) := by
      apply BitVec.eq_of_toNat_eq
      rw [BitVec.toNat_signExtend, BitVec.toNat_ofNat]
      have : b.msb = false := by rw [BitVec.msb_eq_decide]; simpa using h
      rw [this]
      simp
    rw [hs, zext_inj]
    exact ⟨fun h' => ⟨h', h⟩, fun h' => h'.1⟩
  · constructor
    · intro h'
      exfalso
      have := congrArg BitVec.toNat h'
      rw [BitVec.toNat_signExtend, BitVec.toNat_ofNat] at this
      have hm : b.msb = true := by rw [BitVec.msb_eq_decide]; simpa using h
      rw [hm] at this
      simp at this
      omega
    · intro h'; exact absurd h'.2 h

theorem half_inj (b c d e : Byte) : b.toNat + 256 * (c.toNat + 256 * 0) = d.toNat + 256 * (e.toNat + 256 * 0) ↔ b = d ∧ c = e := by
  have h1 := b.isLt
  have h2 := d.isLt
  constructor
  · intro h
    exact ⟨BitVec.eq_of_toNat_eq (by omega), BitVec.eq_of_toNat_eq (by omega)⟩
  · rintro ⟨rfl, rfl⟩; rfl

theorem half_zext (b c d e : Byte) : BitVec.ofNat 32 (b.toNat + 256 * (c.toNat + 256 * 0)) = BitVec.ofNat 32 (d.toNat + 256 * (e.toNat + 256 * 0)) ↔
    b = d ∧ c = e := by
  rw [← half_inj]
  have := b.isLt
  have := c.isLt
  have := d.isLt
  have := e.isLt
  constructor
  · intro h
    have := congrArg BitVec.toNat h
    rw [BitVec.toNat_ofNat, BitVec.toNat_ofNat] at this
    omega
  · intro h; rw [h]

theorem half_sext (b c d e : Byte) : (BitVec.ofNat 16 (b.toNat + 256 * (c.toNat + 256 * 0))).signExtend 32 =
    (BitVec.ofNat 16 (d.toNat + 256 * (e.toNat + 256 * 0))).signExtend 32 ↔ b = d ∧ c = e := by
  rw [← half_inj]
  have := b.isLt
  have := c.isLt
  have := d.isLt
  have := e.isLt
  constructor
  · intro h
    have := congrArg BitVec.toInt h
    rw [BitVec.toInt_signExtend_of_le (by decide), BitVec.toInt_signExtend_of_le (by decide)] at this
    have := congrArg BitVec.toNat (BitVec.eq_of_toInt_eq this)
    simp only [BitVec.toNat_ofNat] at this
    omega
  · intro h; rw [h]

theorem load_same (o : LoadOp) (mem : Word → Byte) (a : Word) (hal : a.toNat % o.size = 0) :
    o.eval (fun b => mem (ramByte ramBase 4096 b)) a = (encLoad o).eval mem (ramWord 1024 a) ↔
      sameLoad o (fun b => mem (ramByte ramBase 4096 b)) a := by
  have f1 : ramByte ramBase 4096 (wordStart a + 1#32) = ramWord 1024 a + 1#32 := byte_start a 1 (by decide)
  cases o with
  | lb =>
    show BitVec.signExtend 32 (BitVec.ofNat 8 ((mem (ramByte ramBase 4096 a)).toNat + 256 * 0)) =
      BitVec.ofNat 32 ((mem (ramWord 1024 a)).toNat + 256 * 0) ↔ mem (ramByte ramBase 4096 a) = mem (ramByte ramBase 4096 (wordStart a)) ∧ _
    rw [sext_zext, byte_first]
  | lbu =>
    show BitVec.ofNat 32 ((mem (ramByte ramBase 4096 a)).toNat + 256 * 0) =
      BitVec.ofNat 32 ((mem (ramWord 1024 a)).toNat + 256 * 0) ↔ mem (ramByte ramBase 4096 a) = mem (ramByte ramBase 4096 (wordStart a))
    rw [zext_inj, byte_first]
  | lh =>
    show BitVec.signExtend 32 (BitVec.ofNat 16 ((mem (ramByte ramBase 4096 a)).toNat + 256 * ((mem (ramByte ramBase 4096 (a + 1#32))).toNat + 256 * 0))) =
      BitVec.signExtend 32 (BitVec.ofNat 16 ((mem (ramWord 1024 a)).toNat + 256 * ((mem (ramWord 1024 a + 1#32)).toNat + 256 * 0))) ↔
      mem (ramByte ramBase 4096 a) = mem (ramByte ramBase 4096 (wordStart a)) ∧
      mem (ramByte ramBase 4096 (a + 1#32)) = mem (ramByte ramBase 4096 (wordStart a + 1#32))
    rw [half_sext, byte_first, f1]
  | lhu =>
    show BitVec.ofNat 32 ((mem (ramByte ramBase 4096 a)).toNat + 256 * ((mem (ramByte ramBase 4096 (a + 1#32))).toNat + 256 * 0)) =
      BitVec.ofNat 32 ((mem (ramWord 1024 a)).toNat + 256 * ((mem (ramWord 1024 a + 1#32)).toNat + 256 * 0)) ↔
      mem (ramByte ramBase 4096 a) = mem (ramByte ramBase 4096 (wordStart a)) ∧
      mem (ramByte ramBase 4096 (a + 1#32)) = mem (ramByte ramBase 4096 (wordStart a + 1#32))
    rw [half_zext, byte_first, f1]
  | lw =>
    have h4 : a.toNat % 4 = 0 := hal
    refine ⟨fun _ => trivial, fun _ => ?_⟩
    show BitVec.ofNat 32 (leValue _ _ 4) = BitVec.ofNat 32 (leValue _ _ 4)
    refine congrArg _ (leValue_congr _ _ _ _ 4 fun j hj => ?_)
    show mem _ = mem _
    rw [byte_at a j (by omega), h4, Nat.zero_add]

/-! ### Stores -/

theorem store_same (mem : Word → Byte) (a v : Word) (n : Nat) (hn : a.toNat % 4 + n ≤ 4) :
    storeEach (ramByte ramBase 4096) mem a v n = storeBytes mem (ramWord 1024 a + BitVec.ofNat 32 (a.toNat % 4)) v n :=
  storeEach_eq _ _ _ _ _ n (by omega) fun j hj => by
    rw [byte_at a j (by omega), BitVec.add_assoc, ofNat_plus]

theorem odd_half (mem : Word → Byte) (w v : Word) : storeBytes mem (w + 1#32) v 2 = storeBytes mem w 0#32 4 ↔
    mem w = 0#8 ∧ mem (w + 3#32) = 0#8 ∧ v.toNat % 2 ^ 16 = 0 := by
  have sub (b k : Word) (h : b - w = k) : b - (w + 1#32) = k - 1#32 := by rw [← h, BitVec.sub_sub]
  have at_ (k : Word) : w + k - w = k := by rw [BitVec.add_comm, BitVec.add_sub_cancel]
  constructor
  · intro h
    have h0 := congrFun h w
    have h1 := congrFun h (w + 1#32)
    have h2 := congrFun h (w + 2#32)
    have h3 := congrFun h (w + 3#32)
    have e0 : w - w = 0#32 := BitVec.sub_self w
    simp only [storeBytes, sub _ _ e0, e0] at h0
    simp only [storeBytes, sub _ _ (at_ _), at_] at h1 h2 h3
    refine ⟨h0, h3, ?_⟩
    have h1 : v.extractLsb' 0 8 = 0#8 := h1
    have h2 : v.extractLsb' 8 8 = 0#8 := h2
    have h1 := congrArg BitVec.toNat h1
    have h2 := congrArg BitVec.toNat h2
    simp only [BitVec.extractLsb'_toNat, Nat.shiftRight_eq_div_pow, BitVec.toNat_ofNat] at h1 h2
    omega
  · rintro ⟨h0, h3, hv⟩
    funext b
    obtain ⟨k, rfl⟩ : ∃ k, b = w + k := ⟨b - w, by rw [BitVec.add_comm, BitVec.sub_add_cancel]⟩
    simp only [storeBytes, sub _ _ (at_ _), at_]
    have hk := k.isLt
    have hs : (k - 1#32).toNat = (k.toNat + (2 ^ 32 - 1)) % 2 ^ 32 := by
      rw [BitVec.toNat_sub]; simp; omega
    have low : v.extractLsb' 0 8 = 0#8 ∧ v.extractLsb' 8 8 = 0#8 := by
      constructor <;>
      · apply BitVec.eq_of_toNat_eq
        simp only [BitVec.extractLsb'_toNat, Nat.shiftRight_eq_div_pow, BitVec.toNat_ofNat]
        omega
    by_cases k0 : k = 0#32
    · subst k0; rw [BitVec.add_zero]; exact h0
    by_cases k1 : k = 1#32
    · subst k1; exact low.1
    by_cases k2 : k = 2#32
    · subst k2; exact low.2
    by_cases k3 : k = 3#32
    · subst k3; exact h3
    have ne (c : Nat) (hc : c < 4) (h : k ≠ BitVec.ofNat 32 c) : k.toNat ≠ c := fun e => h (by rw [← e]; simp)
    have := ne 0 (by decide) k0
    have := ne 1 (by decide) k1
    have := ne 2 (by decide) k2
    have := ne 3 (by decide) k3
    rw [if_neg (by omega), if_neg (by omega)]

/-! ### One step -/

/-- Where the test VM does not refuse the alignment, an instruction has the same effect on both VMs exactly if it is `sameStep`. -/
theorem C99_step (i : Instr) (s : Arch) (hal : ¬ i.badAlign s) :
    execAll 1024 i s = execTest ramBase 4096 i s ↔ sameStep i s := by
  cases i with
  | load o rd rs1 imm =>
    have hal : (s.x rs1 + immI imm).toNat % o.size = 0 := Decidable.of_not_not hal
    have e : execAll 1024 (.load o rd rs1 imm) s = (s.setX rd ((encLoad o).eval s.mem (ramWord 1024 (s.x rs1 + immI imm)))).next := by
      cases o <;> rfl
    rw [e, eq_comm]
    exact (setX_next_iff _ _ _ _).trans (or_congr_right (load_same o s.mem _ hal))
  | store o rs1 rs2 imm =>
    have mem_iff (m m' : Word → Byte) : ({ s with mem := m } : Arch).next = ({ s with mem := m' } : Arch).next ↔ m = m' :=
      ⟨fun h => congrArg Arch.mem h, fun h => by rw [h]⟩
    refine (mem_iff _ _).trans ?_
    cases o with
    | sb => exact ⟨fun _ => trivial, fun _ => (store_same _ _ _ 1 (by omega)).symm⟩
    | sh =>
      have hal : (s.x rs1 + immI imm).toNat % 4 ≠ 3 := hal
      show (if _ then _ else _) = storeEach _ _ _ _ 2 ↔ _ ∨ _
      rw [store_same _ _ _ 2 (by omega)]
      by_cases h2 : (s.x rs1 + immI imm).toNat % 2 = 0
      · rw [if_pos (by omega)]
        exact ⟨fun _ => Or.inl h2, fun _ => rfl⟩
      · have h1 : (s.x rs1 + immI imm).toNat % 4 = 1 := by omega
        rw [if_neg (by omega), h1, eq_comm]
        refine (odd_half _ _ _).trans ?_
        have e1 : s.x rs1 + immI imm - 1#32 = wordStart (s.x rs1 + immI imm) := by
          unfold wordStart
          rw [h1]
        have e2 := byte_at (s.x rs1 + immI imm) 2 (by omega)
        rw [h1] at e2
        rw [e1, byte_first, e2]
        exact ⟨Or.inr, fun h => h.resolve_left h2⟩
    | sw =>
      have h4 : (s.x rs1 + immI imm).toNat % 4 = 0 := Decidable.of_not_not hal
      refine ⟨fun _ => trivial, fun _ => ?_⟩
      have := store_same s.mem _ (s.x rs2) 4 (by rw [h4] : (s.x rs1 + immI imm).toNat % 4 + 4 ≤ 4)
      rw [h4, BitVec.add_zero] at this
      exact this.symm
  | jal rd imm =>
    have pc_iff (p p' : Word) : ({ s.setX rd (s.pc + 4#32) with pc := p } : Arch) = { s.setX rd (s.pc + 4#32) with pc := p' } ↔ p = p' :=
      ⟨fun h => congrArg Arch.pc h, fun h => by rw [h]⟩
    refine (pc_iff _ _).trans ?_
    constructor
    · intro h
      refine Classical.byContradiction fun hn => far_jump imm hn (by simpa using h)
    · intro h
      have := (jump20 (.jal rd imm) s h).resolve_left (by show ¬ PcUpdate.JAL.id = PcUpdate.NONE.id; decide)
      exact congrArg (s.pc + ·) this
  | mul o rd rs1 rs2 =>
    show (s.setX rd _).next = (s.setX rd _).next ↔ _ ∨ _
    rw [eq_comm]
    exact setX_next_iff _ _ _ _
  | _ => exact ⟨fun _ => trivial, fun _ => rfl⟩

/-! ### Runs -/

theorem in_program {L : Nat} {pc : Word} (h4 : L % 4 = 0) (h : pc.toNat < L) : pc.toNat % 2 ^ (bitsFor (L / 4) + 2) = pc.toNat := by
  have := le_two_pow_bitsFor (L / 4)
  apply Nat.mod_eq_of_lt
  rw [Nat.pow_add]
  omega

/-- Inside the program both VMs read the same instruction. -/
theorem same_fetch {rom : List Byte} {ft fw : Word → Option Instr} (h4 : rom.length % 4 = 0) (ht : FetchTest rom ft)
    (hw : FetchWord rom (bitsFor (rom.length / 4) + 2) fw)
    (hd : ∀ pc : Word, (fw pc).isSome = true ↔ pc.toNat % 2 ^ (bitsFor (rom.length / 4) + 2) / 4 < rom.length / 4)
    {pc : Word} {i : Instr} (h : pc.toNat < rom.length) (hi : ft pc = some i) : fw pc = some i := by
  obtain ⟨ha, w, hw1, hr⟩ := (ht pc i).mp hi
  obtain ⟨j, hj⟩ := Option.isSome_iff_exists.mp ((hd pc).mpr (by rw [in_program h4 h]; omega))
  obtain ⟨v, hv1, hv2⟩ := (hw pc j).mp hj
  rw [in_program h4 h, Nat.mul_div_cancel' (Nat.dvd_of_mod_eq_zero ha)] at hv1
  have e : w = v := testWord_unique hw1 fun k hk => by
    rw [Nat.mod_eq_of_lt (by omega)]
    exact hv1 k hk
  subst e
  rw [hj, C97_alike hr hv2]

theorem in_program_wrap {L : Nat} {s : Arch} (h4 : L % 4 = 0) (h : s.pc.toNat < L) : s.wrapPc (bitsFor (L / 4) + 2) = s := by
  unfold Arch.wrapPc
  rw [in_program h4 h, BitVec.ofNat_toNat, BitVec.setWidth_eq]

/-- A run of the test VM inside the program is the run of the encrypted VM, or there is a first step at which they do something different:
up to there they are in the same state, and after it they are not. -/
theorem C99_first {rom : List Byte} {ft fw : Word → Option Instr} {chk : Bool} {n : Nat} {s s' : Arch} (h4 : rom.length % 4 = 0)
    (ht : FetchTest rom ft) (hw : FetchWord rom (bitsFor (rom.length / 4) + 2) fw)
    (hd : ∀ pc : Word, (fw pc).isSome = true ↔ pc.toNat % 2 ^ (bitsFor (rom.length / 4) + 2) / 4 < rom.length / 4)
    (h : RunsIf ft (fun i s => ¬ stuck i s chk ramBase ∧ s.pc.toNat < rom.length) (execTest ramBase 4096) n s s') :
    RunsWith fw (fun i s => execAll 1024 i (s.wrapPc (bitsFor (rom.length / 4) + 2))) n s s' ∨
    ∃ m t i, m < n ∧ RunsIf ft (fun i s => ¬ stuck i s chk ramBase ∧ s.pc.toNat < rom.length) (execTest ramBase 4096) m s t ∧
      RunsWith fw (fun i s => execAll 1024 i (s.wrapPc (bitsFor (rom.length / 4) + 2))) m s t ∧
      ft t.pc = some i ∧ fw t.pc = some i ∧ ¬ stuck i t chk ramBase ∧ ¬ sameStep i t ∧
      execAll 1024 i (t.wrapPc (bitsFor (rom.length / 4) + 2)) ≠ execTest ramBase 4096 i t := by
  induction h with
  | zero s => exact Or.inl (.zero s)
  | @succ n i s s' hi hok _ ih =>
    have hfw := same_fetch h4 ht hw hd hok.2 hi
    have hst := C99_step i s fun h => hok.1 (Or.inr (Or.inl h))
    by_cases same : sameStep i s
    · have e : execAll 1024 i (s.wrapPc (bitsFor (rom.length / 4) + 2)) = execTest ramBase 4096 i s := by
        rw [in_program_wrap h4 hok.2]
        exact hst.mpr same
      rcases ih with h | ⟨m, t, j, h1, h2, h3, h5⟩
      · exact Or.inl (.succ hfw (by rw [e]; exact h))
      · exact Or.inr ⟨m + 1, t, j, by omega, .succ hi hok h2, .succ hfw (by rw [e]; exact h3), h5⟩
    · exact Or.inr ⟨0, s, i, by omega, .zero s, .zero s, hi, hfw, hok.1, same, by
        rw [in_program_wrap h4 hok.2]
        exact fun h => same (hst.mp h)⟩

/-- If all its steps are the same on both VMs it is the run of the encrypted VM. -/
theorem C99_runs {rom : List Byte} {ft fw : Word → Option Instr} {chk : Bool} {n : Nat} {s s' : Arch} (h4 : rom.length % 4 = 0)
    (ht : FetchTest rom ft) (hw : FetchWord rom (bitsFor (rom.length / 4) + 2) fw)
    (hd : ∀ pc : Word, (fw pc).isSome = true ↔ pc.toNat % 2 ^ (bitsFor (rom.length / 4) + 2) / 4 < rom.length / 4)
    (h : RunsIf ft (fun i s => (¬ stuck i s chk ramBase ∧ s.pc.toNat < rom.length) ∧ sameStep i s) (execTest ramBase 4096) n s s') :
    RunsWith fw (fun i s => execAll 1024 i (s.wrapPc (bitsFor (rom.length / 4) + 2))) n s s' := by
  induction h with
  | zero s => exact .zero s
  | @succ n i s s' hi hok _ ih =>
    refine .succ (same_fetch h4 ht hw hd hok.1.2 hi) ?_
    have e : execAll 1024 i (s.wrapPc (bitsFor (rom.length / 4) + 2)) = execTest ramBase 4096 i s := by
      rw [in_program_wrap h4 hok.1.2]
      exact (C99_step i s fun h => hok.1.1 (Or.inr (Or.inl h))).mpr hok.2
    show RunsWith fw _ n (execAll 1024 i (s.wrapPc (bitsFor (rom.length / 4) + 2))) s'
    rw [e]; exact ih

/-! ### Instructions which are always the same -/

theorem x_all (v pc : Word) (m : Word → Byte) (r : Reg) : (⟨pc, fun _ => v, m⟩ : Arch).x r = if r = 0#5 then 0#32 else v := rfl

theorem immI_mod4 (imm : BitVec 12) : (immI imm).toNat % 4 = imm.toNat % 4 := by
  unfold immI
  rw [BitVec.toNat_signExtend]
  have := imm.isLt
  rw [BitVec.toNat_setWidth]
  split <;> omega

/-- A state in which the access of a load or store is at `a`, unless the base register is `x0`. -/
def accessAt (a : Word) (imm : BitVec 12) (m : Word → Byte) : Arch := ⟨0#32, fun _ => a - immI imm, m⟩

theorem accessAt_addr (a : Word) (imm : BitVec 12) (m : Word → Byte) (r : Reg) :
    (accessAt a imm m).x r + immI imm = if r = 0#5 then immI imm else a := by
  unfold accessAt
  rw [x_all]
  split
  · exact BitVec.zero_add _
  · exact BitVec.sub_add_cancel _ _

theorem not_stuck_load {o : LoadOp} {rd rs1 : Reg} {imm : BitVec 12} {s : Arch} (h : (s.x rs1 + immI imm).toNat % o.size = 0) :
    ¬ stuck (.load o rd rs1 imm) s false ramBase := by
  rintro (⟨t, h1, -⟩ | h1 | h1 | ⟨h1, -⟩)
  · cases h1
  · exact h1 h
  · exact h1
  · cases h1

theorem not_stuck_half {rs1 rs2 : Reg} {imm : BitVec 12} {s : Arch} (h : (s.x rs1 + immI imm).toNat % 4 = 1) :
    ¬ stuck (.store .sh rs1 rs2 imm) s false ramBase := by
  rintro (⟨t, h1, -⟩ | h1 | h1 | ⟨h1, -⟩)
  · cases h1
  · have h1 : (s.x rs1 + immI imm).toNat % 4 = 3 := h1
    omega
  · exact h1
  · cases h1

/-- Memory with a byte different from all others at the start of the word. -/
theorem bytes_differ (a : Word) (h : a.toNat % 4 ≠ 0) : ∃ mem : Word → Byte,
    mem (ramByte ramBase 4096 a) ≠ mem (ramByte ramBase 4096 (wordStart a)) := by
  refine ⟨fun b => if b = ramWord 1024 a then 0#8 else 1#8, ?_⟩
  rw [byte_here, byte_first]
  have : ramWord 1024 a + BitVec.ofNat 32 (a.toNat % 4) ≠ ramWord 1024 a := by
    intro he
    have h0 : BitVec.ofNat 32 (a.toNat % 4) = 0#32 := by
      have := congrArg (· - ramWord 1024 a) he
      simpa [BitVec.add_comm, BitVec.add_sub_cancel, BitVec.sub_self] using this
    have := congrArg BitVec.toNat h0
    rw [BitVec.toNat_ofNat, Nat.mod_eq_of_lt (by omega)] at this
    exact h this
  simp [this]

/-- A load of less than a word which is not at the start of one differs for some contents of the memory. -/
theorem load_differs {o : LoadOp} {rd rs1 : Reg} {imm : BitVec 12} (hrd : rd ≠ 0#5) (ho : o ≠ .lw) (a : Word)
    (ha : ∀ m, (accessAt a imm m).x rs1 + immI imm = a) (hal : a.toNat % o.size = 0) (h4 : a.toNat % 4 ≠ 0)
    (h : ∀ s, ¬ stuck (.load o rd rs1 imm) s false ramBase → sameStep (.load o rd rs1 imm) s) : False := by
  obtain ⟨m, hm⟩ := bytes_differ a h4
  have := h (accessAt a imm m) (not_stuck_load (by rw [ha]; exact hal))
  rcases this with this | this
  · exact hrd this
  · rw [ha] at this
    cases o with
    | lw => exact ho rfl
    | lbu => exact hm this
    | _ => exact hm this.1

/-- The instructions which are the same on both VMs in every state in which the test VM executes them are exactly these. -/
theorem C99_always (i : Instr) : alwaysSame i ↔ ∀ s, ¬ stuck i s false ramBase → sameStep i s := by
  constructor
  · intro h s hs
    have hal : ¬ i.badAlign s := fun h => hs (Or.inr (Or.inl h))
    have hdiv : ¬ i.badDivision s := fun h => hs (Or.inr (Or.inr (Or.inl h)))
    cases i with
    | load o rd rs1 imm =>
      rcases h with h | rfl | ⟨rfl, h⟩
      · exact Or.inl h
      · exact Or.inr trivial
      · right
        have e : s.x 0#5 + immI imm = immI imm := BitVec.zero_add _
        have hm := immI_mod4 imm
        have hal : (s.x 0#5 + immI imm).toNat % o.size = 0 := Decidable.of_not_not hal
        rw [e] at hal ⊢
        have start (h0 : (immI imm).toNat % 4 = 0) : sameLoad o (fun b => s.mem (ramByte ramBase 4096 b)) (immI imm) ∨ o = .lb := by
          unfold sameLoad
          rw [h0, BitVec.sub_zero]
          cases o <;> simp
        cases o with
        | lb => exact absurd h id
        | lbu => exact (start (hm.trans h)).resolve_right (by decide)
        | lw => trivial
        | lh =>
          have hal : (immI imm).toNat % 2 = 0 := hal
          have h : imm.toNat % 4 ≠ 2 := h
          exact (start (by omega)).resolve_right (by decide)
        | lhu =>
          have hal : (immI imm).toNat % 2 = 0 := hal
          have h : imm.toNat % 4 ≠ 2 := h
          exact (start (by omega)).resolve_right (by decide)
    | store o rs1 rs2 imm =>
      cases o with
      | sh =>
        rcases h with h | ⟨rfl, h⟩
        · exact absurd rfl h
        · have e : s.x 0#5 + immI imm = immI imm := BitVec.zero_add _
          have hm := immI_mod4 imm
          have hal : ¬ (s.x 0#5 + immI imm).toNat % 4 = 3 := hal
          left
          rw [e] at hal ⊢
          omega
      | _ => trivial
    | jal rd imm => exact h
    | mul o rd rs1 rs2 =>
      rcases h with h | rfl | ⟨rfl, h⟩
      · exact Or.inl h
      · right
        show o.eval (s.x rs1) 0#32 = encMulDiv o s.pc (s.x rs1)
        cases o with
        | mul => simp [MulOp.eval, encMulDiv]
        | mulh => simp [MulOp.eval, encMulDiv]
        | mulhsu => simp [MulOp.eval, encMulDiv]
        | mulhu => simp [MulOp.eval, encMulDiv]
        | div => exact absurd (Or.inl rfl) hdiv
        | rem => exact absurd (Or.inl rfl) hdiv
        | divu => exact absurd rfl hdiv
        | remu => exact absurd rfl hdiv
      · right
        show o.eval 0#32 (s.x rs2) = encMulDiv o s.pc 0#32
        cases o with
        | divu => exact absurd rfl h
        | mul => simp [MulOp.eval, encMulDiv]
        | mulh => simp [MulOp.eval, encMulDiv]
        | mulhsu => simp [MulOp.eval, encMulDiv]
        | mulhu => simp [MulOp.eval, encMulDiv]
        | div =>
          have hy : s.x rs2 ≠ 0#32 := fun h => hdiv (Or.inl h)
          simp [MulOp.eval, encMulDiv, hy]
        | rem => simp [MulOp.eval, encMulDiv]
        | remu => simp [MulOp.eval, encMulDiv]
    | _ => trivial
  · intro h
    cases i with
    | load o rd rs1 imm =>
      by_cases hrd : rd = 0#5
      · exact Or.inl hrd
      by_cases ho : o = .lw
      · exact Or.inr (Or.inl ho)
      right; right
      have hm := immI_mod4 imm
      by_cases hr : rs1 = 0#5
      · refine ⟨hr, ?_⟩
        have ha (m) : (accessAt (immI imm) imm m).x rs1 + immI imm = immI imm := by rw [accessAt_addr, if_pos hr]
        cases o with
        | lw => exact absurd rfl ho
        | lb =>
          have := h (accessAt (immI imm) imm fun _ => 0x80#8) (not_stuck_load (Nat.mod_one _))
          rcases this with this | this
          · exact hrd this
          · exact absurd this.2 (show ¬ (0x80#8).toNat < 128 by decide)
        | lbu => exact Decidable.byContradiction fun hn => load_differs hrd ho _ ha (Nat.mod_one _) (by omega) h
        | lh =>
          intro h2
          exact load_differs hrd ho _ ha (show (immI imm).toNat % 2 = 0 by omega) (by omega) h
        | lhu =>
          intro h2
          exact load_differs hrd ho _ ha (show (immI imm).toNat % 2 = 0 by omega) (by omega) h
      · exact (load_differs hrd ho 2#32 (fun m => by rw [accessAt_addr, if_neg hr]) (by cases o <;> first | decide | exact absurd rfl ho)
          (by decide) h).elim
    | store o rs1 rs2 imm =>
      by_cases ho : o = .sh
      · subst ho
        right
        have hm := immI_mod4 imm
        have bad (a : Word) (ha : (accessAt a imm fun _ => 1#8).x rs1 + immI imm = a) (h1 : a.toNat % 4 = 1) : False := by
          have := h (accessAt a imm fun _ => 1#8) (not_stuck_half (by rw [ha]; exact h1))
          rcases this with this | this
          · rw [ha] at this
            omega
          · exact absurd this.1 (show (1#8 : Byte) ≠ 0#8 by decide)
        by_cases hr : rs1 = 0#5
        · exact ⟨hr, fun h1 => bad (immI imm) (by rw [accessAt_addr, if_pos hr]) (by omega)⟩
        · exact (bad 1#32 (by rw [accessAt_addr, if_neg hr]) (by decide)).elim
      · exact Or.inl ho
    | jal rd imm =>
      refine h ⟨0#32 - immJ imm, fun _ => 0#32, fun _ => 0#8⟩ ?_
      rintro (⟨t, h1, h2⟩ | h1 | h1 | ⟨h1, -⟩)
      · have h1 : t = 0#32 - immJ imm + immJ imm := (Option.some.inj h1).symm
        rw [BitVec.sub_add_cancel] at h1
        subst h1
        exact h2 rfl
      · exact h1
      · exact h1
      · cases h1
    | mul o rd rs1 rs2 =>
      by_cases hrd : rd = 0#5
      · exact Or.inl hrd
      by_cases h2 : rs2 = 0#5
      · exact Or.inr (Or.inl h2)
      right; right
      have at_ (v pc : Word) (hv : v ≠ 0#32) (hx : v ≠ 0xFFFFFFFF#32 ∨ o = .remu) :
          o.eval (if rs1 = 0#5 then 0#32 else v) v = encMulDiv o pc (if rs1 = 0#5 then 0#32 else v) := by
        have := h ⟨pc, fun _ => v, fun _ => 0#8⟩ (by
          rintro (⟨t, h1, -⟩ | h1 | h1 | ⟨h1, -⟩)
          · cases h1
          · exact h1
          · have e : (⟨pc, fun _ => v, fun _ => 0#8⟩ : Arch).x rs2 = v := by rw [x_all, if_neg h2]
            cases o <;> simp [Instr.badDivision, e, hv] at h1 hx
            · exact hx h1.2
            · exact hx h1.2
          · cases h1)
        rcases this with this | this
        · exact absurd this hrd
        · rw [x_all, x_all, if_neg h2] at this
          exact this
      by_cases h1 : rs1 = 0#5
      · refine ⟨h1, ?_⟩
        rintro rfl
        have := at_ 1#32 5#32 (by decide) (Or.inl (by decide))
        rw [if_pos h1] at this
        exact absurd this (by decide)
      · exfalso
        simp only [if_neg h1] at at_
        cases o with
        | mul => exact absurd (at_ 1#32 0#32 (by decide) (Or.inl (by decide))) (by decide)
        | mulh => exact absurd (at_ 0x7FFFFFFF#32 0#32 (by decide) (Or.inl (by decide))) (by decide)
        | mulhsu => exact absurd (at_ 0x7FFFFFFF#32 0#32 (by decide) (Or.inl (by decide))) (by decide)
        | mulhu => exact absurd (at_ 0x7FFFFFFF#32 0#32 (by decide) (Or.inl (by decide))) (by decide)
        | div => exact absurd (at_ 1#32 0#32 (by decide) (Or.inl (by decide))) (by decide)
        | divu => exact absurd (at_ 1#32 0#32 (by decide) (Or.inl (by decide))) (by decide)
        | rem => exact absurd (at_ 1#32 0#32 (by decide) (Or.inl (by decide))) (by decide)
        | remu => exact absurd (at_ 0xFFFFFFFF#32 0#32 (by decide) (Or.inr rfl)) (by decide)
    | _ => trivial

theorem always_same {i : Instr} (h : alwaysSame i) {s : Arch} {chk : Bool} (hs : ¬ stuck i s chk ramBase) : sameStep i s :=
  (C99_always i).mp h s fun h => hs (by
    rcases h with h | h | h | ⟨h, -⟩
    · exact Or.inl h
    · exact Or.inr (Or.inl h)
    · exact Or.inr (Or.inr (Or.inl h))
    · cases h)

/-- A program of such instructions, whatever the input: the run of the test VM is the run of the encrypted VM as long as it is inside the
program. -/
theorem C99_static {rom : List Byte} {ft fw : Word → Option Instr} {chk : Bool} {n : Nat} {s s' : Arch} (h4 : rom.length % 4 = 0)
    (ht : FetchTest rom ft) (hw : FetchWord rom (bitsFor (rom.length / 4) + 2) fw)
    (hd : ∀ pc : Word, (fw pc).isSome = true ↔ pc.toNat % 2 ^ (bitsFor (rom.length / 4) + 2) / 4 < rom.length / 4)
    (hall : ∀ pc i, ft pc = some i → alwaysSame i)
    (h : RunsIf ft (fun i s => ¬ stuck i s chk ramBase ∧ s.pc.toNat < rom.length) (execTest ramBase 4096) n s s') :
    RunsWith fw (fun i s => execAll 1024 i (s.wrapPc (bitsFor (rom.length / 4) + 2))) n s s' := by
  rcases C99_first h4 ht hw hd h with h | ⟨m, t, i, -, -, -, hi, -, hs, hn, -⟩
  · exact h
  · exact absurd (always_same (hall _ _ hi) hs) hn

theorem runsIf_mono {fetch : Word → Option Instr} {ok ok' : Instr → Arch → Prop} {step : Instr → Arch → Arch} {n : Nat} {s s' : Arch}
    (hm : ∀ i s, ok i s → ok' i s) (h : RunsIf fetch ok step n s s') : RunsIf fetch ok' step n s s' := by
  induction h with
  | zero s => exact .zero s
  | succ hi ho _ ih => exact .succ hi (hm _ _ ho) ih

theorem runsWith_leaves {fetch : Word → Option Instr} {step : Instr → Arch → Arch} {m n : Nat} {s a b : Arch} (h : m < n)
    (h1 : RunsWith fetch step n s a) (h2 : RunsWith fetch step m s b) : (fetch b.pc).isSome = true := by
  induction h2 generalizing n with
  | zero s =>
    cases h1 with
    | zero => omega
    | succ hi _ => rw [hi]; rfl
  | succ hi _ ih =>
    cases h1 with
    | zero => omega
    | succ hj h1 =>
      cases Option.some.inj (hi.symm.trans hj)
      exact ih (by omega) h1

/-- Every ELF file, tape and number of cycles: if the run of the test VM stays inside the program and every step of it is the same on both
VMs, then both complete under any correct library, and with the same output. -/
theorem C99_output (F : Fhe) (rand : Nat → Nat → Nat → F.C.Rand) (chk dbg : Bool) (threads n : Nat) (e : Elf)
    (p : Phantom) (tape : List Byte) (ev : EncVM F.B) (hfile : e.bytes.length < 2 ^ 63) (hp : Phantom.fromElf e = some p) (ht : 0 < threads)
    (hn : n < 2 ^ 32) (hev : p.encryptedVm F.C rand dbg false threads tape n = some ev) (hbase : p.bootRam.offset = ramBase)
    (hlen : tape.length = p.input.size) (hlo : ramBase ≤ p.input.startAddr) (hhi : p.input.startAddr + p.input.size ≤ ramBase + 4096)
    (hb : ramBase ≤ p.output.startAddr) (he : p.output.startAddr + p.output.size ≤ ramBase + 4096) :
    ∃ fetch bytes, FetchTest p.bootRom.data fetch ∧ Placed p.bootRam.data (p.input.startAddr - ramBase) tape bytes ∧
      ∀ s', RunsIf fetch (fun i s => (¬ stuck i s chk ramBase ∧ s.pc.toNat < p.bootRom.data.length) ∧ sameStep i s)
          (execTest ramBase 4096) n (startState bytes) s' →
        ∃ vm0 vm1 vm2 ev2, p.testVm chk n = some vm0 ∧ vm0.readInputTape chk tape = some vm1 ∧ vm1.execute chk = some vm2 ∧
          ev.execute F.C F.decU F.decP = some ev2 ∧
          vm2.outputTape chk = some (ramBytes s' (p.output.startAddr - ramBase) p.output.size) ∧
          ev2.outputTape F.C chk = some (ramBytes s' (p.output.startAddr - ramBase) p.output.size) := by
  obtain ⟨ft, bytes, vm0, vm1, hft, hin, e0, e1, hx, ho⟩ := C97_testvm chk n e p tape hfile hp hbase hlen hlo hhi hb he
  obtain ⟨fw, bytes', hfw, hd, hin', halt⟩ := C96_encrypted F rand chk dbg threads n e p tape ev hp ht hn hev
    (by rw [hbase]; decide) (by rw [hbase]; exact hb) (by rw [hbase]; exact he)
  rw [hbase] at hin' halt
  have hsame : bytes' = bytes := placed_unique hin' hin
  subst hsame
  refine ⟨ft, bytes', hft, hin, fun s' hr => ?_⟩
  have h4 : p.bootRom.data.length % 4 = 0 := (encryptedVm_inv hev).1
  have hrun := C99_runs h4 hft hfw hd hr
  have hif := runsIf_mono (fun _ _ h => h.1.1) hr
  obtain ⟨vm2, e2⟩ := hx.mpr ⟨s', hif⟩
  obtain ⟨t, hr2, o2⟩ := ho vm2 e2
  cases runsIf_unique hif hr2
  rcases halt with ⟨u, ev2, a1, a2, a3⟩ | ⟨m, u, a1, a2, a3⟩
  · cases runsWith_unique hrun a1
    exact ⟨vm0, vm1, vm2, ev2, e0, e1, e2, a2, o2, a3⟩
  · exact absurd ((hd _).mp (runsWith_leaves a1 hrun a2)) (Nat.not_lt.mpr a3)

/-! ### Instructions and programs -/

/-- A state with the bytes `80 01 01 00` at the start of the RAM and its address in `x2`. -/
def sampleState : Arch :=
  { pc := 0#32, reg := fun r => if r = 2#5 then 0x40000#32 else 0#32
    mem := fun a => if a = 0x40000#32 then 0x80#8 else if a = 0x40001#32 then 1#8 else if a = 0x40002#32 then 1#8 else 0#8 }

/-- A byte with the sign bit set is loaded differently by LB and alike by LBU; the second byte is not what the first is, but it is loaded
alike into `x0`; the word is loaded alike. -/
example : ¬ sameStep (.load .lb 1 2 0) sampleState ∧ sameStep (.load .lbu 1 2 0) sampleState ∧
    ¬ sameStep (.load .lbu 1 2 1) sampleState ∧ sameStep (.load .lbu 0 2 1) sampleState ∧ sameStep (.load .lw 1 2 0) sampleState := by
  unfold sameStep sameLoad
  decide

/-- The upper half of a product with zero is alike, that of `x2` with itself, which is 16, is not. -/
example : sameStep (.mul .mulh 1 2 3) sampleState ∧ ¬ sameStep (.mul .mulh 1 2 2) sampleState := by
  unfold sameStep
  decide

/-- A jump of 512 KiB is different. -/
example : sameStep (.jal 0 (BitVec.ofNat 20 (2 ^ 18 - 1))) sampleState ∧ ¬ sameStep (.jal 0 (BitVec.ofNat 20 (2 ^ 18))) sampleState := by
  unfold sameStep
  decide

/-- At a constant address the start of a word is loaded alike and the middle is not; the remainder of zero is alike and its unsigned
quotient is not. -/
example : alwaysSame (.load .lhu 1 0 4) ∧ ¬ alwaysSame (.load .lhu 1 0 2) ∧ ¬ alwaysSame (.load .lbu 1 2 0) ∧
    alwaysSame (.mul .rem 1 0 3) ∧ ¬ alwaysSame (.mul .divu 1 0 3) := by
  simp [alwaysSame]

/-- The program of C97 and C98 consists of such instructions. -/
example : ∀ i ∈ countCode, alwaysSame i := by
  intro i h
  simp only [countCode, List.mem_cons, List.not_mem_nil, or_false] at h
  rcases h with rfl | rfl | rfl | rfl | rfl <;> simp [alwaysSame]

/-- Up to five cycles, that is until the end of the program, both VMs have the same output for the program of C97 and C98. -/
theorem C99_count (F : Fhe) (rand : Nat → Nat → Nat → F.C.Rand) (chk dbg : Bool) (threads n : Nat) (ht : 0 < threads)
    (hn : n ≤ 5) (tape : List Byte) (hl : tape.length = 4) :
    ∃ vm0 vm1 vm2 ev ev2, countGuest.testVm chk n = some vm0 ∧ vm0.readInputTape chk tape = some vm1 ∧ vm1.execute chk = some vm2 ∧
      countGuest.encryptedVm F.C rand dbg false threads tape n = some ev ∧ ev.execute F.C F.decU F.decP = some ev2 ∧
      vm2.outputTape chk = ev2.outputTape F.C chk ∧ ev2.outputTape F.C chk = some (fourBytes (BitVec.ofNat 32 ((n + 1) / 5))) := by
  obtain ⟨q, hq⟩ : ∃ q, Parser.new.addAll dbg (packWords countGuest.bootRom.data) = some q := by
    rw [← Option.isSome_iff_exists]; cases dbg <;> decide +kernel
  obtain ⟨ev, hev⟩ := C42_setup F rand dbg false threads n countElf countGuest tape q count_elf
    (by decide +kernel) (by decide +kernel) hq (hl.trans (by decide +kernel)) (by decide +kernel) (by decide +kernel)
  obtain ⟨fetch, bytes, hf, hin, hall⟩ := C99_output F rand chk dbg threads n countElf countGuest tape ev (by decide +kernel) count_elf ht
    (by omega) hev (by decide +kernel) (hl.trans (by decide +kernel)) (by decide +kernel) (by decide +kernel) (by decide +kernel)
    (by decide +kernel)
  have hrl : countGuest.bootRom.data.length = 20 := by decide +kernel
  have all (n : Nat) (hn : n ≤ 5) : ∃ s, RunsIf fetch (fun i s => (¬ stuck i s chk ramBase ∧ s.pc.toNat < countGuest.bootRom.data.length) ∧
      sameStep i s) (execTest ramBase 4096) n (startState bytes) s ∧ s.pc = BitVec.ofNat 32 (4 * n) ∧ CountAt n s := by
    induction n with
    | zero => exact ⟨_, .zero _, rfl, count_start hin hl⟩
    | succ n ih =>
      obtain ⟨s, hr, hpc, hc⟩ := ih (by omega)
      obtain ⟨i, w, hi, h2, h3⟩ := count_words n (by omega)
      obtain ⟨w1, w2, w3, w4, w5, w6⟩ := count_step hc (by rw [Nat.mod_eq_of_lt (by omega)]; exact hi)
      have ht : (s.pc).toNat = 4 * n := by rw [hpc, BitVec.toNat_ofNat, Nat.mod_eq_of_lt (by omega)]
      have hok : ¬ stuck i s chk ramBase := by
        rintro (⟨t, h, -⟩ | h | h | ⟨-, ⟨a, k, h, h'⟩ | ⟨-, h⟩⟩)
        · rw [w4] at h; cases h
        · exact w2 h
        · exact w3 h
        · have := (w1 a k h).1
          omega
        · omega
      have same : sameStep i s := by
        have : n = 0 ∨ n = 1 ∨ n = 2 ∨ n = 3 ∨ n = 4 := by omega
        rcases this with rfl | rfl | rfl | rfl | rfl <;> cases hi
        · trivial
        · exact Or.inr trivial
        · trivial
        · trivial
        · trivial
      refine ⟨_, runsIf_append hr (.succ ((hf _ _).mpr ⟨by omega, w, by rw [ht]; exact h3, h2⟩)
        ⟨⟨hok, by rw [hrl]; omega⟩, same⟩ (.zero _)), ?_⟩
      rw [C97_window _ _ _ _ (by decide) w1]
      refine ⟨?_, w6⟩
      rw [w5, hpc, show 4#32 = BitVec.ofNat 32 4 from rfl, ← BitVec.ofNat_add]
      rfl
  obtain ⟨s, hr, -, hc⟩ := all n hn
  obtain ⟨vm0, vm1, vm2, ev2, e0, e1, e2, e3, o1, o2⟩ := hall s hr
  refine ⟨vm0, vm1, vm2, ev, ev2, e0, e1, e2, hev, e3, o1.trans o2.symm, ?_⟩
  rw [o2, show countGuest.output.startAddr - ramBase = 4 by decide +kernel, show countGuest.output.size = 4 by decide +kernel]
  refine congrArg some (List.map_congr_left fun j hj => ?_)
  rw [← hc.out j (List.mem_range.mp hj), show 0x40004 + j = ramBase + (4 + j) by unfold ramBase; omega]

end Verif.Props
