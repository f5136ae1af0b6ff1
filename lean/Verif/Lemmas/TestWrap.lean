import Verif.Spec.TestExact
import Verif.Lemmas.TestExec
/-
  Helper lemmas: memory accesses of the test VM at any address.
-/
namespace Verif
open Spec Model Props

theorem ramByte_lt {base size : Nat} (hs : 0 < size) (ht : base + size ≤ 2 ^ 32) (a : Word) :
    (ramByte base size a).toNat =
      base + (if base ≤ a.toNat then a.toNat - base else 2 ^ 64 + a.toNat - base) % size := by
  unfold ramByte
  rw [BitVec.toNat_ofNat]
  refine Nat.mod_eq_of_lt ?_
  have := Nat.mod_lt (if base ≤ a.toNat then a.toNat - base else 2 ^ 64 + a.toNat - base) hs
  omega

/-- Inside the RAM an address means itself. -/
theorem ramByte_in {base size : Nat} (a : Word) (h1 : base ≤ a.toNat) (h2 : a.toNat < base + size) :
    ramByte base size a = a := by
  unfold ramByte
  rw [if_pos h1, Nat.mod_eq_of_lt (by omega), show base + (a.toNat - base) = a.toNat by omega]
  simp

section
variable {m : TMem} {mem : Word → Byte} (h : MemOk m mem)
include h

theorem MemOk.readAny (chk : Bool) (a : Word) (hb : ¬ (chk = true ∧ a.toNat < m.offset)) :
    m.readByte chk a.toNat = some (mem (ramByte m.offset m.size a)) := by
  have hm : m.size ≠ 0 := by have := h.pos; omega
  have hlt : ∀ i, i % m.size < m.size := fun i => Nat.mod_lt _ h.pos
  unfold TMem.readByte usizeSub ramByte
  by_cases hle : m.offset ≤ a.toNat
  · rw [if_pos hle, if_pos hle, Option.bind_some]
    simp only [TMem.get, hm, if_false]
    rw [h.mem _ (hlt _)]
  · have hc : chk = false := by
      cases chk
      · rfl
      · exact absurd ⟨rfl, by omega⟩ hb
    subst hc
    rw [if_neg hle, if_neg hle, if_neg (by simp), Option.bind_some]
    simp only [TMem.get, hm, if_false]
    rw [h.mem _ (hlt _)]

theorem MemOk.readHalfAny (chk : Bool) (a : Word) (h2 : a.toNat % 2 = 0)
    (hb : ¬ (chk = true ∧ a.toNat < m.offset)) :
    m.readHalf chk a.toNat = some (BitVec.ofNat 16 (leValue (fun b => mem (ramByte m.offset m.size b)) a 2)) := by
  have ha := a.isLt
  have ht := h.top
  have hp := h.pos
  have e1 : a.toNat + 1 = (a + 1#32).toNat := by
    rw [BitVec.toNat_add]; simp; omega
  rw [C37_read_half chk m _ (by omega) (by omega) h2, e1, h.readAny chk a hb,
    h.readAny chk (a + 1#32) (fun hc => hb ⟨hc.1, by have := hc.2; omega⟩)]
  simp only [Option.bind_some, Option.map_some]
  refine congrArg some ?_
  rw [le2]

theorem MemOk.readWordAny (chk : Bool) (a : Word) (h4 : a.toNat % 4 = 0)
    (hb : ¬ (chk = true ∧ a.toNat < m.offset)) :
    m.readWord chk a.toNat = some (BitVec.ofNat 32 (leValue (fun b => mem (ramByte m.offset m.size b)) a 4)) := by
  have ha := a.isLt
  have ht := h.top
  have hp := h.pos
  have e1 : a.toNat + 1 = (a + 1#32).toNat := by rw [BitVec.toNat_add]; simp; omega
  have e2 : a.toNat + 2 = (a + 2#32).toNat := by rw [BitVec.toNat_add]; simp; omega
  have e3 : a.toNat + 3 = (a + 3#32).toNat := by rw [BitVec.toNat_add]; simp; omega
  rw [C37_read_word chk m _ (by omega) (by omega) h4, e1, e2, e3, h.readAny chk a hb,
    h.readAny chk (a + 1#32) (fun hc => hb ⟨hc.1, by have := hc.2; omega⟩),
    h.readAny chk (a + 2#32) (fun hc => hb ⟨hc.1, by have := hc.2; omega⟩),
    h.readAny chk (a + 3#32) (fun hc => hb ⟨hc.1, by have := hc.2; omega⟩)]
  simp only [Option.bind_some, Option.map_some]
  refine congrArg some ?_
  have f2 : a + 1#32 + 1#32 = a + 2#32 := by rw [BitVec.add_assoc]; rfl
  have f3 : a + 2#32 + 1#32 = a + 3#32 := by rw [BitVec.add_assoc]; rfl
  simp only [leValue, f2, f3]
  simp

/-- A byte written at any address. -/
theorem MemOk.writeAny (chk : Bool) (a : Word) (v : Byte) (hb : ¬ (chk = true ∧ a.toNat < m.offset)) :
    ∃ m', m.writeByte chk a.toNat v = some m' ∧ m'.offset = m.offset ∧ m'.size = m.size ∧
      MemOk m' (fun b => if b = ramByte m.offset m.size a then v else mem b) := by
  have hm : m.size ≠ 0 := by have := h.pos; omega
  have hlt : ∀ i, i % m.size < m.size := fun i => Nat.mod_lt _ h.pos
  have key : ∀ i, ∃ m', m.put i v = some m' ∧ m'.offset = m.offset ∧ m'.size = m.size ∧
      MemOk m' (fun b => if b = BitVec.ofNat 32 (m.offset + i % m.size) then v else mem b) := by
    intro i
    refine ⟨{ m with data := m.data.set (i % m.size) v }, ?_, rfl, rfl, ?_, h.pos, h.top, ?_⟩
    · simp only [TMem.put, hm, if_false]
      rw [if_pos (by rw [h.len]; exact hlt i)]
    · simp [h.len]
    · intro k hk
      have hk' : k < m.size := hk
      have ht := h.top
      have hi := hlt i
      have hl := h.len
      have hinj := ofNat_inj32 (m.offset + k) (m.offset + i % m.size) (by omega) (by omega)
      simp only [List.getElem?_set]
      by_cases e : i % m.size = k
      · have h4 : k < m.data.length := by omega
        simp [e, h4]
      · have h3 : ¬ m.offset + k = m.offset + i % m.size := by omega
        rw [if_neg e, if_neg (fun hc => h3 (hinj.mp hc)), h.mem k hk']
  unfold TMem.writeByte usizeSub ramByte
  by_cases hle : m.offset ≤ a.toNat
  · rw [if_pos hle, if_pos hle, Option.bind_some]; exact key _
  · have hc : chk = false := by
      cases chk
      · rfl
      · exact absurd ⟨rfl, by omega⟩ hb
    subst hc
    rw [if_neg hle, if_neg hle, if_neg (by simp), Option.bind_some]; exact key _

end

/-- `n` bytes written by the loops of the test VM. -/
theorem MemOk.writeSeq {m m' : TMem} {mem : Word → Byte} {base size : Nat} (a v : Word) (n : Nat) (chk : Bool)
    (h : MemOk m' (storeEach (ramByte base size) mem a v n)) (ho : m'.offset = base) (hsz : m'.size = size)
    (hn : a.toNat + n < 2 ^ 32) (hb : ¬ (chk = true ∧ a.toNat < base)) :
    ∃ m'', m'.writeByte chk (a.toNat + n) (v.extractLsb' (8 * n) 8) = some m'' ∧ m''.offset = base ∧
      m''.size = size ∧ MemOk m'' (storeEach (ramByte base size) mem a v (n + 1)) := by
  have e : a.toNat + n = (a + BitVec.ofNat 32 n).toNat := by
    rw [BitVec.toNat_add, BitVec.toNat_ofNat]; omega
  obtain ⟨m'', h1, h2, h3, h4⟩ := h.writeAny chk (a + BitVec.ofNat 32 n) (v.extractLsb' (8 * n) 8)
    (fun hc => hb ⟨hc.1, by have := hc.2; omega⟩)
  rw [ho, hsz] at h4
  rw [e]
  exact ⟨m'', h1, h2.trans ho, h3.trans hsz, h4⟩

theorem MemOk.storeAny {m : TMem} {mem : Word → Byte} (h : MemOk m mem) (chk : Bool) (o : StoreOp) (a v : Word)
    (hn : a.toNat + o.size ≤ 2 ^ 32) (hb : ¬ (chk = true ∧ a.toNat < m.offset)) :
    ∃ m', (match o with
      | .sb => m.writeByte chk a.toNat ((extractBits v 8).setWidth 8)
      | .sh => m.writeHalf chk a.toNat ((extractBits v 16).setWidth 16)
      | .sw => m.writeWord chk a.toNat v) = some m' ∧ m'.offset = m.offset ∧ m'.size = m.size ∧
      MemOk m' (storeEach (ramByte m.offset m.size) mem a v o.size) := by
  have ha := a.isLt
  have h0 : MemOk m (storeEach (ramByte m.offset m.size) mem a v 0) := h
  cases o with
  | sb =>
    simp only [StoreOp.size] at hn ⊢
    rw [low8]
    obtain ⟨m1, e1, o1, s1, k1⟩ := MemOk.writeSeq (m := m) a v 0 chk h0 rfl rfl (by omega) hb
    exact ⟨m1, e1, o1, s1, k1⟩
  | sh =>
    simp only [StoreOp.size] at hn ⊢
    rw [C37_write_half _ _ _ _ (by omega), low16 _ _ (by omega), low16 _ _ (by omega)]
    obtain ⟨m1, e1, o1, s1, k1⟩ := MemOk.writeSeq (m := m) a v 0 chk h0 rfl rfl (by omega) hb
    obtain ⟨m2, e2, o2, s2, k2⟩ := MemOk.writeSeq (m := m) a v 1 chk k1 o1 s1 (by omega) hb
    rw [Nat.add_zero] at e1
    rw [e1, Option.bind_some]
    exact ⟨m2, e2, o2, s2, k2⟩
  | sw =>
    simp only [StoreOp.size] at hn ⊢
    rw [C37_write_word _ _ _ _ (by omega)]
    simp only [valByte_low]
    obtain ⟨m1, e1, o1, s1, k1⟩ := MemOk.writeSeq (m := m) a v 0 chk h0 rfl rfl (by omega) hb
    obtain ⟨m2, e2, o2, s2, k2⟩ := MemOk.writeSeq (m := m) a v 1 chk k1 o1 s1 (by omega) hb
    obtain ⟨m3, e3, o3, s3, k3⟩ := MemOk.writeSeq (m := m) a v 2 chk k2 o2 s2 (by omega) hb
    obtain ⟨m4, e4, o4, s4, k4⟩ := MemOk.writeSeq (m := m) a v 3 chk k3 o3 s3 (by omega) hb
    rw [Nat.add_zero] at e1
    rw [e1, Option.bind_some, e2, Option.bind_some, e3, Option.bind_some]
    exact ⟨m4, e4, o4, s4, k4⟩

end Verif
