import Verif.Spec.TestState
import Verif.Lemmas.TestMem
import Verif.Props.TestMem
import Verif.Props.TestDecode
import Verif.Props.Alu
/-
  Helper lemmas: execution in the test VM, compared with the manual.
-/
namespace Verif
open Spec Model Props

/-- Result `o` of running an instruction in `vm`: a panic exactly when `bad`, otherwise `s'`, provided
`win`. -/
def Outcome (vm : TestVM) (bad win : Prop) (s' : Arch) (o : Option TestVM) : Prop :=
  (bad ∧ o = none) ∨
  (¬ bad ∧ ∃ vm', o = some vm' ∧ TestVM.WF vm' ∧ vm'.frame = vm.frame ∧ (win → TestVM.Shows vm' s'))

theorem Arch.x_setX (s : Arch) (rd r : Reg) (v : Word) :
    (s.setX rd v).x r = if r = 0#5 then 0#32 else if r = rd then v else s.x r := by
  unfold Arch.setX Arch.x
  by_cases h0 : r = 0#5
  · simp [h0]
  · by_cases h : r = rd
    · subst h; simp [h0]
    · simp [h0, h]

theorem wide_toNat (r : Reg) : (wide r).toNat = r.toNat := by
  have := r.isLt
  simp only [wide, BitVec.toNat_setWidth]; omega

section
variable {vm : TestVM} {s : Arch} (hw : TestVM.WF vm) (hs : TestVM.Shows vm s)
include hs

theorem _root_.Verif.Model.TestVM.Shows.register (r : Reg) : vm.register (wide r) = some (s.x r) := by
  unfold TestVM.register; rw [wide_toNat]; exact hs.reg r

include hw

/-- Registers after writing `rd` and then resetting `x0`. -/
theorem _root_.Verif.Model.TestVM.Shows.regs_set (rd : Reg) (v : Word) (r : Reg) :
    ((vm.registers.set rd.toNat v).set 0 0#32)[r.toNat]? = some ((s.setX rd v).x r) := by
  have hr := r.isLt
  have hd := rd.isLt
  have hl := hw.regs
  rw [Arch.x_setX, List.getElem?_set, List.getElem?_set]
  by_cases h0 : r = 0#5
  · subst h0; simp [hl]
  · have h0' : ¬ 0 = r.toNat := fun h => h0 (BitVec.eq_of_toNat_eq h.symm)
    by_cases h : r = rd
    · subst h; simp [h0', h0, hl]; omega
    · have h' : ¬ rd.toNat = r.toNat := fun e => h (BitVec.eq_of_toNat_eq e.symm)
      simp [h0', h0, h, h', hs.reg r]

theorem _root_.Verif.Model.TestVM.Shows.regs_zero (r : Reg) : (vm.registers.set 0 0#32)[r.toNat]? = some (s.x r) := by
  have hl := hw.regs
  rw [List.getElem?_set]
  by_cases h0 : r = 0#5
  · subst h0; simp [hl, Arch.x]
  · have h0' : ¬ 0 = r.toNat := fun h => h0 (BitVec.eq_of_toNat_eq h.symm)
    simp [h0', hs.reg r]

/-- Instructions that end with `*register_mut(rd) = v; pc += 4`. -/
theorem _root_.Verif.Model.TestVM.Shows.finish (chk : Bool) (rd : Reg) (v : Word) :
    Outcome vm (chk = true ∧ 2 ^ 32 ≤ s.pc.toNat + 4) True ((s.setX rd v).next)
      ((vm.finish chk (wide rd) v).bind fun vm => vm.setReg 0#32 0#32) := by
  have hl := hw.regs
  have hd := rd.isLt
  have h1 : rd.toNat < vm.registers.length := by omega
  have h2 : (0 : Nat) < vm.registers.length := by omega
  by_cases hb : chk = true ∧ 2 ^ 32 ≤ s.pc.toNat + 4
  · refine Or.inl ⟨hb, ?_⟩
    rw [← hs.pcEq] at hb
    simp [TestVM.finish, TestVM.setReg, TestVM.incPc, h1, hb, wide_toNat]
  · refine Or.inr ⟨hb, ?_⟩
    rw [← hs.pcEq] at hb
    refine ⟨{ vm with registers := (vm.registers.set rd.toNat v).set 0 0#32, pc := vm.pc + 4#32 }, ?_, ?_,
      rfl, fun _ => ?_⟩
    · have hb' : ¬ (chk = true ∧ 4294967292 ≤ vm.pc.toNat) := fun h => hb ⟨h.1, by have := h.2; omega⟩
      simp [TestVM.finish, TestVM.setReg, TestVM.incPc, h1, h2, hb', wide_toNat]
    · exact ⟨by simp [hl], hw.len, hw.pos, hw.top⟩
    · exact ⟨by simp [Arch.next, Arch.setX, hs.pcEq], fun r => hs.regs_set hw rd v r, hs.mem⟩

/-- Instructions that only move the program counter. -/
theorem _root_.Verif.Model.TestVM.Shows.goto (t : Word) :
    Outcome vm False True { s with pc := t } ((some { vm with pc := t }).bind fun vm => vm.setReg 0#32 0#32) := by
  have hl := hw.regs
  have h2 : (0 : Nat) < vm.registers.length := by omega
  refine Or.inr ⟨not_false, { vm with registers := vm.registers.set 0 0#32, pc := t }, ?_, ?_, rfl, fun _ => ?_⟩
  · simp [TestVM.setReg, h2]
  · exact ⟨by simp [hl], hw.len, hw.pos, hw.top⟩
  · exact ⟨rfl, fun r => hs.regs_zero hw r, hs.mem⟩

/-- Jumps that write a return address. -/
theorem _root_.Verif.Model.TestVM.Shows.link (rd : Reg) (t v : Word) :
    Outcome vm False True { s.setX rd v with pc := t }
      (((vm.setReg (wide rd) v).map fun vm => { vm with pc := t }).bind fun vm => vm.setReg 0#32 0#32) := by
  have hl := hw.regs
  have hd := rd.isLt
  have h1 : rd.toNat < vm.registers.length := by omega
  have h2 : (0 : Nat) < vm.registers.length := by omega
  refine Or.inr ⟨not_false, { vm with registers := (vm.registers.set rd.toNat v).set 0 0#32, pc := t }, ?_, ?_,
    rfl, fun _ => ?_⟩
  · simp [TestVM.setReg, h1, h2, wide_toNat]
  · exact ⟨by simp [hl], hw.len, hw.pos, hw.top⟩
  · exact ⟨rfl, fun r => hs.regs_set hw rd v r, hs.mem⟩
end

theorem Outcome.mono {vm : TestVM} {bad bad' win win' : Prop} {s' s'' : Arch} {o : Option TestVM}
    (h : Outcome vm bad win s' o) (hb : bad ↔ bad') (hwin : win' → win) (hs : s' = s'') :
    Outcome vm bad' win' s'' o := by
  subst hs
  rcases h with ⟨h1, h2⟩ | ⟨h1, vm', h2, h3, h4, h5⟩
  · exact Or.inl ⟨hb.mp h1, h2⟩
  · exact Or.inr ⟨fun h => h1 (hb.mpr h), vm', h2, h3, h4, fun h => h5 (hwin h)⟩

theorem mod4_word (t : Word) : t % 4#32 = 0#32 ↔ t.toNat % 4 = 0 := by
  constructor
  · intro h
    have := congrArg BitVec.toNat h
    simpa using this
  · intro h
    apply BitVec.eq_of_toNat_eq
    simpa using h


/-! ### Memory accesses -/

/-- Result of a write to memory `m`. -/
def MemOut (m : TMem) (bad win : Prop) (mem' : Word → Byte) (o : Option TMem) : Prop :=
  (bad ∧ o = none) ∨
  (¬ bad ∧ ∃ m', o = some m' ∧ m'.offset = m.offset ∧ m'.size = m.size ∧ m'.data.length = m.data.length ∧
    (win → ∀ k, k < m.size → m'.data[k]? = some (mem' (BitVec.ofNat 32 (m.offset + k)))))

/-- Invariant of a memory and the contents it shows. -/
structure MemOk (m : TMem) (mem : Word → Byte) : Prop where
  len : m.data.length = m.size
  pos : 0 < m.size
  top : m.offset + m.size ≤ 2 ^ 32
  mem : ∀ k, k < m.size → m.data[k]? = some (mem (BitVec.ofNat 32 (m.offset + k)))

theorem _root_.Verif.Model.TestVM.Shows.memOk {vm : TestVM} {s : Arch} (hw : TestVM.WF vm)
    (hs : TestVM.Shows vm s) : MemOk vm.ram s.mem := ⟨hw.len, hw.pos, hw.top, hs.mem⟩

def upd (mem : Word → Byte) (a : Word) (v : Byte) : Word → Byte := fun b => if b = a then v else mem b

theorem ofNat_inj32 (a b : Nat) (ha : a < 2 ^ 32) (hb : b < 2 ^ 32) :
    BitVec.ofNat 32 a = BitVec.ofNat 32 b ↔ a = b := by
  constructor
  · intro h
    have := congrArg BitVec.toNat h
    simp only [BitVec.toNat_ofNat] at this
    omega
  · rintro rfl; rfl

theorem MemOk.write {m : TMem} {mem : Word → Byte} (h : MemOk m mem) (chk : Bool) (a : Nat) (v : Byte) :
    MemOut m (chk = true ∧ a < m.offset) (m.offset ≤ a ∧ a < m.offset + m.size)
      (upd mem (BitVec.ofNat 32 a) v) (m.writeByte chk a v) := by
  have hp := h.pos
  have hl := h.len
  have ht := h.top
  by_cases hb : chk = true ∧ a < m.offset
  · exact Or.inl ⟨hb, by obtain ⟨rfl, hb⟩ := hb; exact (C37_below m a v hb).2⟩
  · refine Or.inr ⟨hb, ?_⟩
    have : ∃ i, usizeSub chk a m.offset = some i ∧ (m.offset ≤ a → i = a - m.offset) := by
      unfold usizeSub
      by_cases hle : m.offset ≤ a
      · exact ⟨_, by rw [if_pos hle], fun _ => rfl⟩
      · have hc : chk = false := by
          cases chk
          · rfl
          · exact absurd ⟨rfl, by omega⟩ hb
        subst hc
        exact ⟨_, by rw [if_neg hle, if_neg (by simp)], fun h => absurd h hle⟩
    obtain ⟨i, hi, hi'⟩ := this
    have hmod : i % m.size < m.data.length := by rw [hl]; exact Nat.mod_lt _ hp
    refine ⟨{ m with data := m.data.set (i % m.size) v }, ?_, rfl, rfl, by simp, ?_⟩
    · have : m.size ≠ 0 := by omega
      simp [TMem.writeByte, hi, TMem.put, this, hmod]
    · rintro ⟨h1, h2⟩ k hk
      have e : i % m.size = a - m.offset := by rw [hi' h1]; exact Nat.mod_eq_of_lt (by omega)
      simp only [List.getElem?_set, e, upd]
      have hinj := ofNat_inj32 (m.offset + k) a (by omega) (by omega)
      by_cases hk' : a - m.offset = k
      · have h3 : m.offset + k = a := by omega
        have h4 : k < m.data.length := by omega
        simp [hk', hinj, h3, h4]
      · have h3 : ¬ m.offset + k = a := by omega
        simp [hk', hinj, h3, h.mem k hk]

/-- Any memory of the right size shows some contents. -/
theorem memView (m : TMem) (hl : m.data.length = m.size) (ht : m.offset + m.size ≤ 2 ^ 32) :
    ∃ mem : Word → Byte, ∀ k, k < m.size → m.data[k]? = some (mem (BitVec.ofNat 32 (m.offset + k))) := by
  refine ⟨fun a => m.data.getD (a.toNat - m.offset) 0#8, fun k hk => ?_⟩
  have : (BitVec.ofNat 32 (m.offset + k)).toNat - m.offset = k := by
    rw [BitVec.toNat_ofNat, Nat.mod_eq_of_lt (by omega)]; omega
  simp only [this]
  rw [List.getD_eq_getElem?_getD, List.getElem?_eq_getElem (by omega)]
  rfl

theorem MemOut.bind {m : TMem} {bad win bad' win' : Prop} {mem mem' mem'' : Word → Byte} {o : Option TMem}
    {f : TMem → Option TMem} (h0 : MemOk m mem) (h : MemOut m bad win mem' o)
    (hf : ∀ m', m'.offset = m.offset → m'.size = m.size →
      ∀ mem1, MemOk m' mem1 → (win → mem1 = mem') →  MemOut m' bad' win' mem'' (f m'))
    (hb : bad' → bad) (hwin : win → win')  :
    MemOut m bad win mem'' (o.bind f) := by
  rcases h with ⟨h1, rfl⟩ | ⟨h1, m', rfl, ho, hs, hl, hm⟩
  · exact Or.inl ⟨h1, rfl⟩
  · refine Or.inr ⟨h1, ?_⟩
    have hlen : m'.data.length = m'.size := by rw [hl, hs, h0.len]
    have htop : m'.offset + m'.size ≤ 2 ^ 32 := by rw [ho, hs]; exact h0.top
    have hpos : 0 < m'.size := by rw [hs]; exact h0.pos
    have : ∃ mem1, MemOk m' mem1 ∧ (win → mem1 = mem') := by
      by_cases hw : win
      · refine ⟨mem', ⟨hlen, hpos, htop, fun k hk => ?_⟩, fun _ => rfl⟩
        rw [ho]; exact hm hw k (hs ▸ hk)
      · obtain ⟨mem1, h⟩ := memView m' hlen htop
        exact ⟨mem1, ⟨hlen, hpos, htop, h⟩, fun h => absurd h hw⟩
    obtain ⟨mem1, hok, he⟩ := this
    rcases hf m' ho hs mem1 hok he with ⟨h2, -⟩ | ⟨-, m'', h2, ho', hs', hl', hm'⟩
    · exact absurd (hb h2) h1
    · refine ⟨m'', h2, ho'.trans ho, hs'.trans hs, hl'.trans hl, fun hw k hk => ?_⟩
      have := hm' (hwin hw) k (hs ▸ hk)
      rw [ho] at this
      exact this


theorem MemOut.mono {m : TMem} {bad win win' : Prop} {mem' mem'' : Word → Byte} {o : Option TMem}
    (h : MemOut m bad win mem' o) (hwin : win' → win) (hm : win' → mem' = mem'') :
    MemOut m bad win' mem'' o := by
  rcases h with h | ⟨h1, m', h2, h3, h4, h5, h6⟩
  · exact Or.inl h
  · refine Or.inr ⟨h1, m', h2, h3, h4, h5, fun w k hk => ?_⟩
    rw [← hm w]; exact h6 (hwin w) k hk

/-- A further byte, written after `o`. -/
theorem MemOut.andThen {m : TMem} {win : Prop} {mem mem' : Word → Byte} {o : Option TMem} {chk : Bool}
    {a b : Nat} {v : Byte} (h0 : MemOk m mem) (h : MemOut m (chk = true ∧ a < m.offset) win mem' o)
    (hab : a ≤ b) (hwin : win → m.offset ≤ b ∧ b < m.offset + m.size) :
    MemOut m (chk = true ∧ a < m.offset) win (upd mem' (BitVec.ofNat 32 b) v)
      (o.bind fun m => m.writeByte chk b v) := by
  refine MemOut.bind (bad' := chk = true ∧ b < m.offset) (win' := win) h0 h (fun m' ho hs mem1 hok he => ?_)
    (fun hb => ⟨hb.1, by omega⟩) id
  have := hok.write chk b v
  rw [ho, hs] at this
  exact this.mono hwin (fun w => by rw [he w])

theorem sub_eq_iff (a b : Word) (k : Nat) (hk : k < 2 ^ 32) :
    (b - a).toNat = k ↔ b = a + BitVec.ofNat 32 k := by
  constructor
  · intro h
    have e : b - a = BitVec.ofNat 32 k := by
      apply BitVec.eq_of_toNat_eq; rw [h, BitVec.toNat_ofNat, Nat.mod_eq_of_lt hk]
    rw [← e, BitVec.add_comm, BitVec.sub_add_cancel]
  · rintro rfl
    rw [BitVec.add_comm, BitVec.add_sub_cancel, BitVec.toNat_ofNat, Nat.mod_eq_of_lt hk]

theorem ofNat_plus (a k : Nat) : BitVec.ofNat 32 a + BitVec.ofNat 32 k = BitVec.ofNat 32 (a + k) := by
  apply BitVec.eq_of_toNat_eq; simp [BitVec.toNat_add]

theorem store1 (mem : Word → Byte) (a : Nat) (v : Word) :
    storeBytes mem (BitVec.ofNat 32 a) v 1 = upd mem (BitVec.ofNat 32 a) (v.extractLsb' 0 8) := by
  funext b
  have h := sub_eq_iff (BitVec.ofNat 32 a) b 0 (by omega)
  rw [ofNat_plus, Nat.add_zero] at h
  by_cases hb : b = BitVec.ofNat 32 a
  · simp [storeBytes, upd, h.mpr hb, hb]
  · have : ¬ (b - BitVec.ofNat 32 a).toNat < 1 := fun hc => hb (h.mp (by omega))
    simp only [storeBytes, upd, if_neg hb, if_neg this]

/-- One more byte. -/
theorem storeSucc (mem : Word → Byte) (a : Nat) (v : Word) (n : Nat) (hn : n < 4) :
    storeBytes mem (BitVec.ofNat 32 a) v (n + 1)
      = upd (storeBytes mem (BitVec.ofNat 32 a) v n) (BitVec.ofNat 32 (a + n)) (v.extractLsb' (8 * n) 8) := by
  funext b
  have h := sub_eq_iff (BitVec.ofNat 32 a) b n (by omega)
  rw [ofNat_plus] at h
  by_cases hb : b = BitVec.ofNat 32 (a + n)
  · have e := h.mpr hb
    simp only [storeBytes, upd, if_pos hb, e]
    rw [if_pos (by omega)]
  · have e : (b - BitVec.ofNat 32 a).toNat ≠ n := fun hc => hb (h.mp hc)
    simp only [storeBytes, upd, if_neg hb]
    by_cases hlt : (b - BitVec.ofNat 32 a).toNat < n
    · rw [if_pos (by omega), if_pos hlt]
    · rw [if_neg (by omega), if_neg hlt]

theorem low8 (b : Word) : (extractBits b 8).setWidth 8 = b.extractLsb' 0 8 := by
  rw [extractBits_zero _ _ (by omega)]
  apply BitVec.eq_of_toNat_eq
  simp [BitVec.toNat_setWidth, BitVec.extractLsb'_toNat]

theorem low16 (b : Word) (k : Nat) (hk : k < 2) :
    valByte ((extractBits b 16).setWidth 16) k = b.extractLsb' (8 * k) 8 := by
  rw [extractBits_zero _ _ (by omega)]
  apply BitVec.eq_of_toNat_eq
  have := b.isLt
  have : k = 0 ∨ k = 1 := by omega
  rcases this with rfl | rfl <;>
    simp [valByte, BitVec.toNat_setWidth, BitVec.extractLsb'_toNat, Nat.shiftRight_eq_div_pow] <;> omega

theorem valByte_low (v : Word) (k : Nat) : valByte v k = v.extractLsb' (8 * k) 8 := by
  apply BitVec.eq_of_toNat_eq
  simp [valByte, BitVec.extractLsb'_toNat]

theorem MemOk.writeByte {m : TMem} {mem : Word → Byte} (h : MemOk m mem) (chk : Bool) (a v : Word) :
    MemOut m (chk = true ∧ a.toNat < m.offset) (m.offset ≤ a.toNat ∧ a.toNat + 1 ≤ m.offset + m.size)
      (storeBytes mem a v 1) (m.writeByte chk a.toNat ((extractBits v 8).setWidth 8)) := by
  have e : BitVec.ofNat 32 a.toNat = a := by simp
  have := (h.write chk a.toNat (v.extractLsb' 0 8))
  rw [← store1, e] at this
  rw [low8]
  exact this.mono (fun h => h) (fun _ => rfl)

theorem MemOk.writeHalf {m : TMem} {mem : Word → Byte} (h : MemOk m mem) (chk : Bool) (a v : Word) :
    MemOut m (chk = true ∧ a.toNat < m.offset) (m.offset ≤ a.toNat ∧ a.toNat + 2 ≤ m.offset + m.size)
      (storeBytes mem a v 2) (m.writeHalf chk a.toNat ((extractBits v 16).setWidth 16)) := by
  have e : BitVec.ofNat 32 a.toNat = a := by simp
  have ha := a.isLt
  rw [C37_write_half _ _ _ _ (by omega), low16 _ _ (by omega), low16 _ _ (by omega), ← e, storeSucc _ _ _ 1 (by omega),
    store1]
  rw [e]
  refine MemOut.andThen h ?_ (by omega) (fun hw => by omega)
  have := (h.write chk a.toNat (v.extractLsb' 0 8))
  rw [e] at this
  exact this.mono (fun hw => by omega) (fun _ => rfl)

theorem MemOk.writeWord {m : TMem} {mem : Word → Byte} (h : MemOk m mem) (chk : Bool) (a v : Word) :
    MemOut m (chk = true ∧ a.toNat < m.offset) (m.offset ≤ a.toNat ∧ a.toNat + 4 ≤ m.offset + m.size)
      (storeBytes mem a v 4) (m.writeWord chk a.toNat v) := by
  have e : BitVec.ofNat 32 a.toNat = a := by simp
  have ha := a.isLt
  rw [C37_write_word _ _ _ _ (by omega), ← e, storeSucc _ _ _ 3 (by omega), storeSucc _ _ _ 2 (by omega),
    storeSucc _ _ _ 1 (by omega), store1]
  rw [e]
  have h1 := (h.write chk a.toNat (v.extractLsb' 0 8))
  rw [e] at h1
  have h2 := MemOut.andThen (b := a.toNat + 1) (v := v.extractLsb' (8 * 1) 8) h
    (h1.mono (win' := m.offset ≤ a.toNat ∧ a.toNat + 4 ≤ m.offset + m.size) (fun hw => by omega) (fun _ => rfl))
    (by omega) (fun hw => by omega)
  have h3 := MemOut.andThen (b := a.toNat + 2) (v := v.extractLsb' (8 * 2) 8) h h2 (by omega) (fun hw => by omega)
  have h4 := MemOut.andThen (b := a.toNat + 3) (v := v.extractLsb' (8 * 3) 8) h h3 (by omega) (fun hw => by omega)
  simpa only [Option.bind_assoc, valByte_low] using h4

/-! ### Reads -/

theorem MemOk.read {m : TMem} {mem : Word → Byte} (h : MemOk m mem) (chk : Bool) (a : Nat) :
    (m.readByte chk a = none ↔ chk = true ∧ a < m.offset) ∧
    (m.offset ≤ a ∧ a < m.offset + m.size → m.readByte chk a = some (mem (BitVec.ofNat 32 a))) := by
  have hp := h.pos
  have hl := h.len
  constructor
  · constructor
    · intro hn
      by_cases hb : chk = true ∧ a < m.offset
      · exact hb
      · exfalso
        have hm : m.size ≠ 0 := by omega
        have hg : ∀ i, (m.get i).isSome := fun i => by
          simp only [TMem.get, hm, if_false]
          rw [List.getElem?_eq_getElem (by rw [hl]; exact Nat.mod_lt _ hp)]; rfl
        unfold TMem.readByte usizeSub at hn
        by_cases hle : m.offset ≤ a
        · rw [if_pos hle, Option.bind_some] at hn
          have := hg (a - m.offset); rw [hn] at this; cases this
        · have hc : chk = false := by
            cases chk
            · rfl
            · exact absurd ⟨rfl, by omega⟩ hb
          subst hc
          rw [if_neg hle, if_neg (by simp), Option.bind_some] at hn
          have := hg (2 ^ 64 + a - m.offset); rw [hn] at this; cases this
    · rintro ⟨rfl, hb⟩
      exact (C37_below m a 0#8 hb).1
  · rintro ⟨h1, h2⟩
    rw [readByte_of_ge _ _ _ h1]
    have hm : m.size ≠ 0 := by omega
    simp only [TMem.get, hm, if_false]
    rw [Nat.mod_eq_of_lt (by omega), h.mem _ (by omega)]
    rw [show m.offset + (a - m.offset) = a by omega]

theorem MemOk.some_read {m : TMem} {mem : Word → Byte} (h : MemOk m mem) (chk : Bool) (a : Nat)
    (hb : ¬ (chk = true ∧ a < m.offset)) : ∃ b, m.readByte chk a = some b := by
  cases hr : m.readByte chk a with
  | none => exact absurd ((h.read chk a).1.mp hr) hb
  | some b => exact ⟨b, rfl⟩

theorem MemOk.readHalf {m : TMem} {mem : Word → Byte} (h : MemOk m mem) (chk : Bool) (a : Word)
    (h2 : a.toNat % 2 = 0) :
    (m.readHalf chk a.toNat = none ↔ chk = true ∧ a.toNat < m.offset) ∧
    (m.offset ≤ a.toNat ∧ a.toNat + 2 ≤ m.offset + m.size →
      m.readHalf chk a.toNat = some (BitVec.ofNat 16 (leValue mem a 2))) := by
  have ha := a.isLt
  have ht := h.top
  have hp := h.pos
  have e : BitVec.ofNat 32 a.toNat = a := by simp
  rw [C37_read_half chk m _ (by omega) (by omega) h2]
  constructor
  · constructor
    · intro hn
      by_cases hb : chk = true ∧ a.toNat < m.offset
      · exact hb
      · obtain ⟨b0, h0⟩ := h.some_read chk a.toNat hb
        obtain ⟨b1, h1⟩ := h.some_read chk (a.toNat + 1) (fun hc => hb ⟨hc.1, by omega⟩)
        simp [h0, h1] at hn
    · intro hb
      rw [(h.read chk a.toNat).1.mpr hb]; rfl
  · intro hw
    rw [(h.read chk a.toNat).2 (by omega), (h.read chk (a.toNat + 1)).2 (by omega)]
    simp only [Option.bind_some, Option.map_some]
    refine congrArg some ?_
    rw [← ofNat_plus, e, le2]

theorem MemOk.readWord {m : TMem} {mem : Word → Byte} (h : MemOk m mem) (chk : Bool) (a : Word)
    (h4 : a.toNat % 4 = 0) :
    (m.readWord chk a.toNat = none ↔ chk = true ∧ a.toNat < m.offset) ∧
    (m.offset ≤ a.toNat ∧ a.toNat + 4 ≤ m.offset + m.size →
      m.readWord chk a.toNat = some (BitVec.ofNat 32 (leValue mem a 4))) := by
  have ha := a.isLt
  have ht := h.top
  have hp := h.pos
  have e : BitVec.ofNat 32 a.toNat = a := by simp
  rw [C37_read_word chk m _ (by omega) (by omega) h4]
  constructor
  · constructor
    · intro hn
      by_cases hb : chk = true ∧ a.toNat < m.offset
      · exact hb
      · obtain ⟨b0, h0⟩ := h.some_read chk a.toNat hb
        obtain ⟨b1, h1⟩ := h.some_read chk (a.toNat + 1) (fun hc => hb ⟨hc.1, by omega⟩)
        obtain ⟨b2, h2⟩ := h.some_read chk (a.toNat + 2) (fun hc => hb ⟨hc.1, by omega⟩)
        obtain ⟨b3, h3⟩ := h.some_read chk (a.toNat + 3) (fun hc => hb ⟨hc.1, by omega⟩)
        simp [h0, h1, h2, h3] at hn
    · intro hb
      rw [(h.read chk a.toNat).1.mpr hb]; rfl
  · intro hw
    rw [(h.read chk a.toNat).2 (by omega), (h.read chk (a.toNat + 1)).2 (by omega),
      (h.read chk (a.toNat + 2)).2 (by omega), (h.read chk (a.toNat + 3)).2 (by omega)]
    simp only [Option.bind_some, Option.map_some]
    refine congrArg some ?_
    rw [← ofNat_plus _ 1, ← ofNat_plus _ 2, ← ofNat_plus _ 3, e]
    have e2 : a + 1#32 + 1#32 = a + 2#32 := by rw [BitVec.add_assoc]; rfl
    have e3 : a + 1#32 + 1#32 + 1#32 = a + 3#32 := by rw [BitVec.add_assoc, BitVec.add_assoc]; rfl
    simp only [leValue, e2]
    rw [show a + 2#32 + 1#32 = a + 3#32 by rw [BitVec.add_assoc]; rfl]
    simp

/-! ### Whole instructions -/

section
variable {vm : TestVM} {s : Arch} (hw : TestVM.WF vm) (hs : TestVM.Shows vm s)
include hw hs

/-- A load: `o` is what memory returned. -/
theorem _root_.Verif.Model.TestVM.Shows.loaded (chk : Bool) (rd : Reg) (v : Word) (o : Option Word) (bad win : Prop)
    (h1 : o = none ↔ bad) (h2 : win → o = some v) :
    Outcome vm (bad ∨ (chk = true ∧ 2 ^ 32 ≤ s.pc.toNat + 4)) win ((s.setX rd v).next)
      ((o.bind fun v => vm.finish chk (wide rd) v).bind fun vm => vm.setReg 0#32 0#32) := by
  cases o with
  | none => exact Or.inl ⟨Or.inl (h1.mp rfl), rfl⟩
  | some u =>
    have hb : ¬ bad := fun h => absurd (h1.mpr h) (by simp)
    rw [Option.bind_some]
    rcases hs.finish hw chk rd u with ⟨h3, h4⟩ | ⟨h3, vm', h4, h5, h6, h7⟩
    · exact Or.inl ⟨Or.inr h3, h4⟩
    · refine Or.inr ⟨fun h => h.elim hb h3, vm', h4, h5, h6, fun w => ?_⟩
      rw [← Option.some.inj (h2 w)]; exact h7 trivial

/-- A store: `o` is the memory after writing. -/
theorem _root_.Verif.Model.TestVM.Shows.stored (chk : Bool) (o : Option TMem) (bad win : Prop) (mem' : Word → Byte)
    (h : MemOut vm.ram bad win mem' o) :
    Outcome vm (bad ∨ (chk = true ∧ 2 ^ 32 ≤ s.pc.toNat + 4)) win ({ s with mem := mem' } : Arch).next
      ((o.bind fun ram => TestVM.incPc chk { vm with ram := ram }).bind fun vm => vm.setReg 0#32 0#32) := by
  rcases h with ⟨h1, rfl⟩ | ⟨h1, m', rfl, ho, hsz, hl, hm⟩
  · exact Or.inl ⟨Or.inl h1, rfl⟩
  · have h2 : (0 : Nat) < vm.registers.length := by rw [hw.regs]; omega
    rw [Option.bind_some]
    by_cases hb : chk = true ∧ 2 ^ 32 ≤ s.pc.toNat + 4
    · refine Or.inl ⟨Or.inr hb, ?_⟩
      rw [← hs.pcEq] at hb
      simp [TestVM.incPc, hb]
    · refine Or.inr ⟨fun h => h.elim h1 hb, ?_⟩
      rw [← hs.pcEq] at hb
      refine ⟨{ vm with registers := vm.registers.set 0 0#32, pc := vm.pc + 4#32, ram := m' }, ?_, ?_,
        ?_, fun w => ?_⟩
      · have hb' : ¬ (chk = true ∧ 4294967292 ≤ vm.pc.toNat) := fun h => hb ⟨h.1, by have := h.2; omega⟩
        simp [TestVM.setReg, TestVM.incPc, h2, hb']
      · exact ⟨by simp [hw.regs], by simp only [hl, hsz, hw.len], by simp only [hsz, hw.pos],
          by simp only [ho, hsz]; exact hw.top⟩
      · simp [TestVM.frame, ho, hsz]
      · refine ⟨by simp [Arch.next, hs.pcEq], fun r => hs.regs_zero hw r, fun k hk => ?_⟩
        simp only [ho]
        exact hm w k (by simpa [hsz] using hk)

end

theorem Outcome.never {vm : TestVM} {bad bad' win : Prop} {s' : Arch} {o : Option TestVM}
    (hb : bad') (ho : o = none) (h : bad' ↔ bad) : Outcome vm bad win s' o := Or.inl ⟨h.mp hb, ho⟩

end Verif
