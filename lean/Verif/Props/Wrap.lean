import Verif.Lemmas.TestWrap
import Verif.Props.TestVM
import Verif.Props.Exact
/-
  C68: accesses outside the RAM.  Both VMs wrap around; what the test VM does is stated exactly, and on
  supported instructions it is what the interpreter does, wherever the accesses go (used by C38, C42).
-/
namespace Verif.Props
open Model Spec

section
variable {vm : TestVM} {s : Arch} (hw : TestVM.WF vm) (hs : TestVM.Shows vm s)
include hw hs

theorem exec_exact (chk : Bool) (i : Instr) (hst : ¬ stuck i s chk vm.ram.offset) :
    ∃ vm', ((vm.exec chk (tInst i)).bind fun vm => vm.setReg 0#32 0#32) = some vm' ∧
      vm'.Shows (execTest vm.ram.offset vm.ram.size i s) := by
  have reg := hs.register
  have hm := hs.memOk hw
  have plain : ∀ (o : Option TestVM) (s' : Arch) (win : Prop), win →
      Outcome vm (stuck i s chk vm.ram.offset) win s' o → ∃ vm', o = some vm' ∧ vm'.Shows s' := by
    intro o s' win hwin h
    rcases h with ⟨h1, -⟩ | ⟨-, vm', h2, -, -, h5⟩
    · exact absurd h1 hst
    · exact ⟨vm', h2, h5 hwin⟩
  cases i with
  | load o rd rs1 imm =>
    have hal : (s.x rs1 + immI imm).toNat % o.size = 0 :=
      Classical.byContradiction fun hc => hst (Or.inr (Or.inl hc))
    have hb : ¬ (chk = true ∧ (s.x rs1 + immI imm).toNat < vm.ram.offset) := fun hc =>
      hst (Or.inr (Or.inr (Or.inr ⟨hc.1, Or.inl ⟨_, _, rfl, hc.2⟩⟩)))
    have hf : ¬ (chk = true ∧ 2 ^ 32 ≤ s.pc.toNat + 4) := fun hc =>
      hst (Or.inr (Or.inr (Or.inr ⟨hc.1, Or.inr ⟨rfl, hc.2⟩⟩)))
    have key : vm.exec chk (tInst (.load o rd rs1 imm)) = vm.finish chk (wide rd)
        (o.eval (fun b => s.mem (ramByte vm.ram.offset vm.ram.size b)) (s.x rs1 + immI imm)) := by
      generalize ha : s.x rs1 + immI imm = a at hal hb
      have e8 : ∀ f : Word → Byte, BitVec.ofNat 8 (leValue f a 1) = f a := fun f => by rw [le1]; simp
      have e32 : ∀ f : Word → Byte, BitVec.ofNat 32 (leValue f a 1) = (f a).setWidth 32 := fun f => by
        rw [le1]; apply BitVec.eq_of_toNat_eq; simp
      have e16 : ∀ f : Word → Byte,
          BitVec.ofNat 32 (leValue f a 2) = (BitVec.ofNat 16 (leValue f a 2)).setWidth 32 := fun f => by
        have := (f a).isLt
        have := (f (a + 1#32)).isLt
        rw [le2]; apply BitVec.eq_of_toNat_eq
        rw [BitVec.toNat_setWidth, BitVec.toNat_ofNat, BitVec.toNat_ofNat]; omega
      cases o with
      | lb =>
        simp only [tInst, TestVM.exec, reg, Option.bind_some, ha, hm.readAny chk a hb, sext_byte, LoadOp.eval, e8]
      | lbu =>
        simp only [tInst, TestVM.exec, reg, Option.bind_some, ha, hm.readAny chk a hb, LoadOp.eval, e32]
      | lh =>
        have h2 : a.toNat % 2 = 0 := hal
        have hh : TestVM.halfOk a = true := (halfOk_iff a).mpr (by omega)
        simp only [tInst, TestVM.exec, reg, Option.bind_some, ha]
        rw [if_pos hh, hm.readHalfAny chk a h2 hb]
        simp only [Option.bind_some, sext_half, LoadOp.eval]
      | lhu =>
        have h2 : a.toNat % 2 = 0 := hal
        have hh : TestVM.halfOk a = true := (halfOk_iff a).mpr (by omega)
        simp only [tInst, TestVM.exec, reg, Option.bind_some, ha]
        rw [if_pos hh, hm.readHalfAny chk a h2 hb]
        simp only [Option.bind_some, LoadOp.eval, e16]
      | lw =>
        have h4 : a.toNat % 4 = 0 := hal
        simp only [tInst, TestVM.exec, reg, Option.bind_some, ha]
        rw [if_pos ((mod4_word a).mpr h4), hm.readWordAny chk a h4 hb]
        rfl
    rw [key]
    rcases hs.finish hw chk rd _ with ⟨h1, -⟩ | ⟨-, vm', h2, -, -, h5⟩
    · exact absurd h1 hf
    · exact ⟨vm', h2, h5 trivial⟩
  | store o rs1 rs2 imm =>
    have hal : ¬ (Instr.store o rs1 rs2 imm).badAlign s := fun hc => hst (Or.inr (Or.inl hc))
    have hb : ¬ (chk = true ∧ (s.x rs1 + immI imm).toNat < vm.ram.offset) := fun hc =>
      hst (Or.inr (Or.inr (Or.inr ⟨hc.1, Or.inl ⟨_, _, rfl, hc.2⟩⟩)))
    have hf : ¬ (chk = true ∧ 2 ^ 32 ≤ s.pc.toNat + 4) := fun hc =>
      hst (Or.inr (Or.inr (Or.inr ⟨hc.1, Or.inr ⟨rfl, hc.2⟩⟩)))
    have hn : (s.x rs1 + immI imm).toNat + o.size ≤ 2 ^ 32 := by
      have hlt := (s.x rs1 + immI imm).isLt
      cases o <;> simp only [Instr.badAlign, StoreOp.size] at hal ⊢ <;> omega
    obtain ⟨m', e1, o1, s1, k1⟩ := hm.storeAny chk o (s.x rs1 + immI imm) (s.x rs2) hn hb
    have key : vm.exec chk (tInst (.store o rs1 rs2 imm)) = TestVM.incPc chk { vm with ram := m' } := by
      cases o with
      | sb =>
        simp only [tInst, TestVM.exec, reg, Option.bind_some]
        simp only at e1
        rw [e1]; rfl
      | sh =>
        have h3 : (s.x rs1 + immI imm).toNat % 4 ≠ 3 := hal
        simp only [tInst, TestVM.exec, reg, Option.bind_some]
        rw [if_pos ((halfOk_iff _).mpr h3)]
        simp only at e1
        rw [e1]; rfl
      | sw =>
        have h4 : (s.x rs1 + immI imm).toNat % 4 = 0 := Classical.byContradiction hal
        simp only [tInst, TestVM.exec, reg, Option.bind_some]
        rw [if_pos ((mod4_word _).mpr h4)]
        simp only at e1
        rw [e1]; rfl
    rw [key]
    have hout : MemOut vm.ram False True
        (storeEach (ramByte vm.ram.offset vm.ram.size) s.mem (s.x rs1 + immI imm) (s.x rs2) o.size) (some m') :=
      Or.inr ⟨not_false, m', rfl, o1, s1, by rw [k1.len, s1, hw.len], fun _ k hk => by
        have := k1.mem k (by rw [s1]; exact hk)
        rw [o1] at this; exact this⟩
    rcases hs.stored hw chk (some m') False True _ hout with ⟨h1, -⟩ | ⟨-, vm', h2, -, -, h5⟩
    · exact absurd h1 (fun h => h.elim id hf)
    · exact ⟨vm', h2, h5 trivial⟩
  | lui rd imm => exact plain _ _ _ (fun _ _ h => by simp [Instr.access] at h) (exec_outcome hw hs chk _)
  | auipc rd imm => exact plain _ _ _ (fun _ _ h => by simp [Instr.access] at h) (exec_outcome hw hs chk _)
  | jal rd imm => exact plain _ _ _ (fun _ _ h => by simp [Instr.access] at h) (exec_outcome hw hs chk _)
  | jalr rd rs1 imm => exact plain _ _ _ (fun _ _ h => by simp [Instr.access] at h) (exec_outcome hw hs chk _)
  | branch o rs1 rs2 imm => exact plain _ _ _ (fun _ _ h => by simp [Instr.access] at h) (exec_outcome hw hs chk _)
  | opImm o rd rs1 imm => exact plain _ _ _ (fun _ _ h => by simp [Instr.access] at h) (exec_outcome hw hs chk _)
  | shImm o rd rs1 sh => exact plain _ _ _ (fun _ _ h => by simp [Instr.access] at h) (exec_outcome hw hs chk _)
  | op o rd rs1 rs2 => exact plain _ _ _ (fun _ _ h => by simp [Instr.access] at h) (exec_outcome hw hs chk _)
  | mul o rd rs1 rs2 => exact plain _ _ _ (fun _ _ h => by simp [Instr.access] at h) (exec_outcome hw hs chk _)

end

/-- One step of the test VM, for every RV32IM instruction in every state: a panic exactly in the
situations of `stuck`, and otherwise the state of `execTest`. -/
theorem C68_testvm (chk : Bool) (vm : TestVM) (s : Arch) (i : Instr) (hw : vm.WF) (hs : vm.Shows s)
    (hf : vm.rom.readWord chk vm.pc.toNat = some (encode i)) :
    (vm.run chk = none ↔ stuck i s chk vm.ram.offset) ∧
    (¬ stuck i s chk vm.ram.offset → ∃ vm', vm.run chk = some vm' ∧ vm'.WF ∧ vm'.frame = vm.frame ∧
      vm'.Shows (execTest vm.ram.offset vm.ram.size i s)) := by
  obtain ⟨h1, h2⟩ := C36_step chk vm s i hw hs hf
  refine ⟨h1, fun hst => ?_⟩
  obtain ⟨vm', e1, w1, f1, -⟩ := h2 hst
  obtain ⟨vm2, e2, s2⟩ := exec_exact hw hs chk i hst
  have e : vm.run chk = (vm.exec chk (tInst i)).bind fun vm => vm.setReg 0#32 0#32 := by
    unfold TestVM.run
    rw [hf, Option.bind_some, C07_testvm_legal, Option.bind_some]
  have : vm2 = vm' := Option.some.inj (e2.symm.trans (e.symm.trans e1))
  subst this
  exact ⟨vm2, e1, w1, f1, s2⟩

/-- Any number of steps: the test VM panics or reaches the state that `execTest` leads to. -/
theorem C68_testvm_runs (chk : Bool) (vm vm' : TestVM) (n : Nat) (s s' : Arch) (fetch : Word → Option Instr)
    (hw : vm.WF) (hs : vm.Shows s)
    (hf : ∀ pc i, fetch pc = some i → vm.rom.readWord chk pc.toNat = some (encode i))
    (h : RunsWith fetch (execTest vm.ram.offset vm.ram.size) n s s') (hv : vm.steps chk n = some vm') :
    vm'.WF ∧ vm'.frame = vm.frame ∧ vm'.Shows s' := by
  induction n generalizing vm s with
  | zero => cases h; cases hv; exact ⟨hw, rfl, hs⟩
  | succ n ih =>
    cases h with
    | succ h1 h3 =>
      rw [← hs.pcEq] at h1
      obtain ⟨vm1, hv1, hv2⟩ := Option.bind_eq_some_iff.mp hv
      obtain ⟨a1, a2⟩ := C68_testvm chk vm s _ hw hs (hf _ _ h1)
      obtain ⟨vm2, e1, w1, f1, s1⟩ := a2 (fun hc => by rw [a1.mpr hc] at hv1; cases hv1)
      have : vm2 = vm1 := Option.some.inj (e1.symm.trans hv1)
      subst this
      have hrom : vm2.rom = vm.rom := congrArg (·.1) f1
      have hoff : vm2.ram.offset = vm.ram.offset := congrArg (·.2.2.2.2.1) f1
      have hsz : vm2.ram.size = vm.ram.size := congrArg (·.2.2.2.2.2) f1
      obtain ⟨w2, f2, s2⟩ := ih vm2 _ w1 s1 (by rw [hrom]; exact hf) (by rw [hoff, hsz]; exact h3) hv2
      exact ⟨w2, f2.trans f1, s2⟩

/-! ### Where the two VMs access -/

/-- For an aligned RAM the bytes of a word stay together. -/
theorem ramByte_word (words : Nat) (a : Word) (j : Nat) (hp : 0 < words) (ht : ramBase + 4 * words ≤ 2 ^ 32)
    (h4 : a.toNat % 4 = 0) (hj : j < 4) (hsame : ramBase ≤ a.toNat ∨ 4 * words ∣ 2 ^ 32) :
    ramByte ramBase (4 * words) (a + BitVec.ofNat 32 j) = ramWord words a + BitVec.ofNat 32 j := by
  have ha := a.isLt
  have e : (a + BitVec.ofNat 32 j).toNat = a.toNat + j := by
    rw [BitVec.toNat_add, BitVec.toNat_ofNat]; omega
  unfold ramByte ramWord
  rw [e, ofNat_plus]
  refine congrArg (BitVec.ofNat 32) ?_
  have hsub : (a - 0x40000#32).toNat = if ramBase ≤ a.toNat then a.toNat - ramBase else 2 ^ 32 + a.toNat - ramBase := by
    rw [BitVec.toNat_sub]
    by_cases h : ramBase ≤ a.toNat
    · rw [if_pos h]; simp only [ramBase, BitVec.toNat_ofNat] at h ⊢; omega
    · rw [if_neg h]; simp only [ramBase, BitVec.toNat_ofNat] at h ⊢; omega
  rw [hsub]
  have split4 : ∀ q, (4 * q + j) % (4 * words) = 4 * (q % words) + j := by
    intro q
    have h1 := Nat.div_add_mod q words
    have h2 := Nat.mod_lt q hp
    have : 4 * q + j = 4 * words * (q / words) + (4 * (q % words) + j) := by
      rw [Nat.mul_assoc]; omega
    rw [this, Nat.mul_add_mod, Nat.mod_eq_of_lt (by omega)]
  by_cases hle : ramBase ≤ a.toNat
  · rw [if_pos hle, if_pos (by omega)]
    have : ramBase % 4 = 0 := by decide
    have hq : a.toNat + j - ramBase = 4 * ((a.toNat - ramBase) / 4) + j := by omega
    rw [hq, split4]; omega
  · rcases hsame with h | hdvd
    · exact absurd h hle
    · have hr : ramBase % 4 = 0 := by decide
      have hlt : a.toNat + j < ramBase := by omega
      rw [if_neg hle, if_neg (by omega)]
      obtain ⟨c, hc⟩ := hdvd
      have hq : 2 ^ 64 + (a.toNat + j) - ramBase
          = (2 ^ 32 - 1) * 2 ^ 32 + (4 * ((2 ^ 32 + a.toNat - ramBase) / 4) + j) := by omega
      rw [hq, hc, Nat.mul_comm (4 * words * c - 1), Nat.mul_assoc, Nat.mul_add_mod, ← hc, split4]
      omega

theorem store0 (mem : Word → Byte) (a v : Word) : storeBytes mem a v 0 = mem := by
  funext b; simp [storeBytes]

/-- Bytes that stay together are stored as in the manual. -/
theorem storeEach_eq (pos : Word → Word) (mem : Word → Byte) (a v w : Word) (n : Nat) (hn : n ≤ 4)
    (h : ∀ j, j < n → pos (a + BitVec.ofNat 32 j) = w + BitVec.ofNat 32 j) :
    storeEach pos mem a v n = storeBytes mem w v n := by
  induction n with
  | zero => rw [store0]; rfl
  | succ n ih =>
    have e := storeSucc mem w.toNat v n (by omega)
    rw [← ofNat_plus, BitVec.ofNat_toNat, BitVec.setWidth_eq] at e
    rw [e]
    funext b
    simp only [storeEach, upd]
    rw [h n (by omega), ih (by omega) (fun j hj => h j (by omega))]

theorem leValue_congr (f g : Word → Byte) (a b : Word) (n : Nat)
    (h : ∀ j, j < n → f (a + BitVec.ofNat 32 j) = g (b + BitVec.ofNat 32 j)) : leValue f a n = leValue g b n := by
  induction n generalizing a b with
  | zero => rfl
  | succ n ih =>
    have h0 := h 0 (by omega)
    simp only [BitVec.add_zero] at h0
    simp only [leValue]
    rw [h0, ih (a + 1#32) (b + 1#32) (fun j hj => by
      have := h (j + 1) (by omega)
      have e : ∀ x : Word, x + 1#32 + BitVec.ofNat 32 j = x + BitVec.ofNat 32 (j + 1) := fun x => by
        rw [BitVec.add_assoc]
        refine congrArg (x + ·) ?_
        rw [Nat.add_comm j 1, ← ofNat_plus]
      rw [e, e]; exact this)]

/-- On supported instructions the test VM does what the mirror does, wherever the accesses go. -/
theorem C68_same (words : Nat) (i : Instr) (s : Arch) (hp : 0 < words) (ht : ramBase + 4 * words ≤ 2 ^ 32)
    (h : mirrorOk (4 * words) i s) : execTest ramBase (4 * words) i s = execMirror words i s := by
  obtain ⟨hi, hsame⟩ := h
  cases i with
  | load o rd rs1 imm =>
    have h4 : (s.x rs1 + immI imm).toNat % 4 = 0 := hi
    have hs := hsame _ _ rfl
    simp only [execTest, execMirror]
    have key : ∀ n, n ≤ 4 → leValue (fun b => s.mem (ramByte ramBase (4 * words) b)) (s.x rs1 + immI imm) n
        = leValue s.mem (ramWord words (s.x rs1 + immI imm)) n := fun n hn =>
      leValue_congr _ _ _ _ n (fun j hj => by
        show s.mem _ = _
        rw [ramByte_word words _ j hp ht h4 (by omega) hs])
    cases o <;> simp only [LoadOp.eval, key _ (show 1 ≤ 4 by decide), key _ (show 2 ≤ 4 by decide),
      key _ (show 4 ≤ 4 by decide)]
  | store o rs1 rs2 imm =>
    have hal : (s.x rs1 + immI imm).toNat % o.size = 0 := hi
    have hs := hsame _ _ rfl
    simp only [execTest, execMirror]
    generalize s.x rs1 + immI imm = a at hal hs
    refine congrArg (fun m => ({ s with mem := m } : Arch).next) ?_
    have hlt := a.isLt
    -- the start of the word
    obtain ⟨b, hb⟩ : ∃ b : Word, b.toNat = a.toNat - a.toNat % 4 :=
      ⟨BitVec.ofNat 32 (a.toNat - a.toNat % 4), by rw [BitVec.toNat_ofNat, Nat.mod_eq_of_lt (by omega)]⟩
    have hb4 : b.toNat % 4 = 0 := by omega
    have hab : a = b + BitVec.ofNat 32 (a.toNat % 4) := by
      apply BitVec.eq_of_toNat_eq
      rw [BitVec.toNat_add, BitVec.toNat_ofNat]; omega
    have hbs : ramBase ≤ b.toNat ∨ 4 * words ∣ 2 ^ 32 := by
      rcases hs with h | h
      · left; have : ramBase % 4 = 0 := by decide
        omega
      · exact Or.inr h
    have hw : ramWord words b = ramWord words a := by
      unfold ramWord
      refine congrArg (fun q => BitVec.ofNat 32 (ramBase + 4 * (q % words))) ?_
      rw [BitVec.toNat_sub, BitVec.toNat_sub, hb]
      simp only [BitVec.toNat_ofNat]
      omega
    have each : ∀ n, a.toNat % 4 + n ≤ 4 → storeEach (ramByte ramBase (4 * words)) s.mem a (s.x rs2) n
        = storeBytes s.mem (ramWord words a + BitVec.ofNat 32 (a.toNat % 4)) (s.x rs2) n := by
      intro n hn
      refine storeEach_eq _ _ _ _ _ n (by omega) (fun j hj => ?_)
      have e : ∀ x : Word, x + BitVec.ofNat 32 (a.toNat % 4) + BitVec.ofNat 32 j
          = x + BitVec.ofNat 32 (a.toNat % 4 + j) := fun x => by rw [BitVec.add_assoc, ofNat_plus]
      rw [e, ← hw, ← ramByte_word words b (a.toNat % 4 + j) hp ht hb4 (by omega) hbs]
      refine congrArg _ ?_
      rw [← e b, ← hab]
    cases o with
    | sb => exact each 1 (by omega)
    | sh =>
      have h2 : a.toNat % 2 = 0 := hal
      simp only [wordStore]
      rw [if_pos (by omega)]
      exact each 2 (by omega)
    | sw =>
      have h4 : a.toNat % 4 = 0 := hal
      have := each 4 (by omega)
      rw [h4, BitVec.add_zero] at this
      exact this
  | _ => rfl

/-- A supported instruction is an RV32I instruction. -/
theorem supported_base {i : Instr} {s : Arch} (h : i.supported s) : i.isBase := by
  cases i <;> first | trivial | exact h

theorem encOk_mirrorOk {m : Nat} {i : Instr} {s : Arch} (hm : ramBase + 4 * 2 ^ m ≤ 2 ^ 32)
    (h : encOk (4 * 2 ^ m) i s) : mirrorOk (4 * 2 ^ m) i s := by
  refine ⟨h.1, fun _ _ _ => Or.inr ?_⟩
  have e : 4 * 2 ^ m = 2 ^ (m + 2) := by rw [Nat.pow_add]; omega
  rw [e] at hm ⊢
  refine Nat.pow_dvd_pow 2 ?_
  refine Classical.byContradiction fun hc => ?_
  have : 2 ^ 33 ≤ 2 ^ (m + 2) := Nat.pow_le_pow_right (by omega) (by omega)
  omega

/-- One cycle of the mirror and of the encrypted VM on an instruction they support: the effect is that
of the test VM. -/
theorem both_core (d : Debug) (s : Arch) (i : Instr) (dbg : Bool) (k : Nat) (hw : d.WF) (hs : d.Shows s)
    (hf : (d.rom[d.pc.toNat / 4]?) = decodeWord dbg (encode i)) (hk : d.ram.length = 2 ^ k)
    (hi : encOk (4 * d.ram.length) i s) :
    ∃ d2, Spec.cycle d = some d2 ∧ d2.WF ∧ d2.rom = d.rom ∧ d2.ram.length = d.ram.length ∧
      d2.Shows (execTest ramBase (4 * d.ram.length) i s) ∧
      d.step = some d2 ∧ ∃ d1, d.loaded = some d1 ∧ Supported d1 := by
  obtain ⟨d2, h1, h2, h3, h4, h5, dl, h6, h7, h8, h9⟩ := exact_core d s i dbg hw hs hf (supported_base hi.1)
  obtain ⟨dl', i', a', b', v', r, o, ro, po, hl, c⟩ := Debug.step_inv h1
  have e : dl' = dl := Option.some.inj (hl.symm.trans h6)
  subst e
  have hok : mirrorOk (4 * d.ram.length) i s := by
    have := hw.top
    rw [hk] at this hi ⊢
    exact encOk_mirrorOk this hi
  have sup : Supported dl' := by
    refine ⟨fun hlb => ?_, ?_, ?_⟩
    · rw [h7] at hlb
      have : expectedRd i = .LB := rdUpdate_inj _ _ hlb
      obtain ⟨rd, rs1, imm, rfl⟩ : ∃ rd rs1 imm, i = .load .lb rd rs1 imm := by
        cases i with
        | load o rd rs1 imm => cases o <;> first | exact ⟨rd, rs1, imm, rfl⟩ | cases this
        | opImm o _ _ _ => cases o <;> cases this
        | shImm o _ _ _ => cases o <;> cases this
        | op o _ _ _ => cases o <;> cases this
        | mul o _ _ _ => cases o <;> cases this
        | _ => cases this
      have wa := wordAt_index hw hs _ _ h9
      have hlt : (s.mem (ramByte ramBase (4 * d.ram.length) (s.x rs1 + immI imm))).toNat < 128 := hi.2
      have ha : ramByte ramBase (4 * d.ram.length) (s.x rs1 + immI imm) =
          BitVec.ofNat 32 (ramBase + 4 * ((cycleAddr (.load .lb rd rs1 imm) s).toNat / 4 % d.ram.length)) := by
        have := ramByte_word d.ram.length (s.x rs1 + immI imm) 0 hw.pos hw.top hi.1 (by omega) (hok.2 _ _ rfl)
        simp only [BitVec.add_zero] at this
        rw [this]
        unfold ramWord cycleAddr
        simp only [romImm, operands]
        rw [BitVec.add_comm (immI imm)]
      rw [ha, wa.1] at hlt
      have e : (dl'.ramVal.extractLsb' 0 8).getLsbD 7 = dl'.ramVal.getLsbD 7 := by
        simp [-BitVec.getLsbD_eq_getElem, BitVec.getLsbD_extractLsb']
      rw [← e]
      have : (dl'.ramVal.extractLsb' 0 8).msb = false := by
        rw [BitVec.msb_eq_decide]; simp only [decide_eq_false_iff_not]; omega
      simpa [BitVec.msb, BitVec.getMsbD, -BitVec.getLsbD_eq_getElem] using this
    · rw [h7]
      by_cases hj : ∃ rd imm, i = .jal rd imm
      · obtain ⟨rd, imm, rfl⟩ := hj
        exact jump20 (.jal rd imm) s hi.2
      · cases i with
        | jal rd imm => exact absurd ⟨rd, imm, rfl⟩ hj
        | jalr rd rs1 imm => exact jump20 (.jalr rd rs1 imm) s trivial
        | branch o rs1 rs2 imm => exact jump20 (.branch o rs1 rs2 imm) s trivial
        | _ => left; rfl
    · left; rw [h8]; exact ⟨k, hk⟩
  rw [C68_same d.ram.length i s hw.pos hw.top hok]
  exact ⟨d2, (c.supported sup).eq, h2, h3, h4, h5, h1, dl', h6, sup⟩

/-- The condition of `mirrorOk` on accesses below the RAM is needed: in a RAM of seven words, and
without overflow checks, the two VMs read different words there. -/
theorem C68_below_differ :
    ramByte ramBase 28 0x3FFFC#32 = 0x4000C#32 ∧ ramWord 7 0x3FFFC#32 = 0x40000#32 := by
  constructor <;> decide

/-! ### Examples -/

/-- `sw x1, 0(x2)` at the first address after a RAM of two words. -/
def exWrap : TestVM :=
  { registers := [0, 0xAABBCCDD, 0x40008] ++ List.replicate 29 0
    rom := ⟨[0x23, 0x20, 0x11, 0x00], 0, 4⟩
    ram := ⟨[1, 2, 3, 4, 5, 6, 7, 8], 0x40000, 8⟩
    pc := 0#32, input := ⟨0, 0⟩, output := ⟨0, 0⟩, maxCycles := 1 }

/-- The first word is overwritten. -/
example : (exWrap.run true).map (fun v => v.ram.data) = some [0xDD, 0xCC, 0xBB, 0xAA, 5, 6, 7, 8] := by
  decide +kernel

example : exWrap.rom.readWord true exWrap.pc.toNat = some (encode (.store .sw 2 1 0)) := by decide +kernel

/-- `C68_testvm` on it. -/
example : ∃ vm', exWrap.run true = some vm' ∧ ∃ s, exWrap.Shows s ∧
    vm'.Shows (execTest 0x40000 8 (.store .sw 2 1 0) s) := by
  have hw : exWrap.WF := ⟨by decide, by decide, by decide, by decide⟩
  obtain ⟨s, hs⟩ := C36_shows exWrap hw rfl
  obtain ⟨h1, h2⟩ := C68_testvm true exWrap s (.store .sw 2 1 0) hw hs (by decide +kernel)
  have hr : exWrap.run true ≠ none := by decide +kernel
  obtain ⟨vm', e, -, -, hs'⟩ := h2 (fun hc => hr (h1.mpr hc))
  exact ⟨vm', e, s, hs, hs'⟩

/-- Below the RAM, with overflow checks, the test VM stops. -/
example : ({ exWrap with registers := [0, 0, 0x3FFFC] ++ List.replicate 29 0 } : TestVM).run true = none ∧
    (({ exWrap with registers := [0, 0, 0x3FFFC] ++ List.replicate 29 0 } : TestVM).run false).map
      (fun v => v.ram.data) = some [1, 2, 3, 4, 0, 0, 0, 0] := by
  constructor <;> decide +kernel

end Verif.Props
