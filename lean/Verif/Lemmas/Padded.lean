import Verif.Lemmas.Setup
/-
  Program memories beyond the program: what the unused places of the last ciphertext hold.
-/
namespace Verif.Model
open Verif Verif.Props

/-- The same ciphertexts taken as a memory of `k` words. -/
def Memory.padded {B : Backend} (k : Nat) (m : Memory B) : Memory B := { m with size := k }

/-- The same interpreter with program memories of `k` words. -/
def Interp.padded {B : Backend} (k : Nat) (vm : Interp B) : Interp B :=
  { vm with immRom := vm.immRom.padded k, rs1Rom := vm.rs1Rom.padded k, rs2Rom := vm.rs2Rom.padded k, rdRom := vm.rdRom.padded k
            rduRom := vm.rduRom.padded k, muRom := vm.muRom.padded k, pcuRom := vm.pcuRom.padded k }

/-- A cycle does not depend on how long the program memories are said to be. -/
theorem Interp.padded_step {B : Backend} (k : Nat) (vm : Interp B) : (vm.padded k).step = vm.step.map (Interp.padded k) := by
  unfold Interp.step
  rw [Option.map_map]
  rfl

theorem Interp.padded_run {B : Backend} (k n : Nat) (vm : Interp B) :
    Interp.run n (vm.padded k) = (Interp.run n vm).map (Interp.padded k) := by
  induction n generalizing vm with
  | zero => rfl
  | succ n ih =>
    simp only [Interp.run, Interp.padded_step]
    cases vm.step with
    | none => rfl
    | some v => exact ih v

theorem Memory.Rel.padded {B B' : Backend} {S : Sim B B'} {m : Memory B} {m' : Memory B'} (k : Nat) (h : Memory.Rel S m m') :
    Memory.Rel S (m.padded k) (m'.padded k) := ⟨h.bits, rfl, h.bitSize, h.state⟩

theorem Interp.Rel.padded {B B' : Backend} {S : Sim B B'} {vm : Interp B} {vm' : Interp B'} (k : Nat) (h : Interp.Rel S vm vm') :
    Interp.Rel S (vm.padded k) (vm'.padded k) :=
  ⟨h.cycle, h.threads, h.romSize, h.ramSize, h.romBits, h.ramBits, h.immRom.padded k, h.rs1Rom.padded k, h.rs2Rom.padded k,
    h.rdRom.padded k, h.rduRom.padded k, h.muRom.padded k, h.pcuRom.padded k, h.registers, h.ram, h.pc, h.pcP⟩

section plain
variable {logN : Nat} {L : Lib (2 ^ logN)}

/-- Zeros beyond the last word. -/
def Memory.Clear (m : Memory (plain logN L)) : Prop :=
  ∀ b ∈ m.bits, ∀ a, m.size ≤ a → b.decrypt (plainCipher logN L) a = 0#2

theorem BitArray.encrypt_clear {B : Backend} (C : Cipher B) (hC : ∀ r p, C.dec (C.enc r p) = p) (rand : Nat → C.Rand) (b : BitArray B)
    (bits : List (BitVec 2)) (hb : b.data.length = divCeil bits.length (2 ^ B.logN)) (a : Nat) (ha : bits.length ≤ a) :
    (b.encrypt C rand bits).decrypt C a = 0#2 := by
  unfold BitArray.decrypt BitArray.encrypt
  simp only [List.getElem?_mapIdx]
  by_cases hlt : a / 2 ^ B.logN < b.data.length
  · rw [List.getElem?_eq_getElem hlt]
    simp only [Option.map_some, Option.elim_some, if_pos (hb ▸ hlt), hC]
    have := Nat.div_add_mod a (2 ^ B.logN)
    rw [Nat.mul_comm] at this
    rw [this, List.getElem?_eq_none ha]
    rfl
  · rw [List.getElem?_eq_none (by omega)]
    rfl

theorem Memory.encrypt_clear {rand : Nat → Nat → Unit} {K size : Nat} {m0 m : Memory (plain logN L)} {l : List (BitVec 32)}
    (h0 : Memory.alloc (plain logN L) K size = some m0) (h : m0.encrypt (plainCipher logN L) rand l = some m) : m.Clear := by
  unfold Memory.alloc at h0
  by_cases hs : size = 0
  · rw [if_pos hs] at h0
    cases h0
  rw [if_neg hs] at h0
  have e0 := Option.some.inj h0
  subst e0
  unfold Memory.encrypt at h
  simp only [List.length_replicate] at h
  by_cases hK : K = 0
  · rw [if_pos hK] at h
    cases h
  rw [if_neg hK] at h
  by_cases hd : l.length / K ≤ size
  case neg =>
    rw [if_neg hd] at h
    cases h
  rw [if_pos hd] at h
  have e1 := Option.some.inj h
  subst e1
  intro b hb a ha
  obtain ⟨i, hi, rfl⟩ := List.mem_mapIdx.mp hb
  have hl : (bitBuffer size l i).length = size := by simp [bitBuffer]
  refine BitArray.encrypt_clear (plainCipher logN L) (fun _ _ => rfl) _ _ _ ?_ a (by rw [hl]; exact ha)
  rw [hl]
  simp [BitArray.alloc]

/-- As many words as the addresses go, if there are ciphertexts for them. -/
theorem Memory.Stores.padded {m : Memory (plain logN L)} {l : List (BitVec 32)} (h : m.Stores l) (hc : m.Clear)
    (hk : 2 ^ bitsFor m.size ≤ divCeil m.size (2 ^ logN) * 2 ^ logN) :
    (m.padded (2 ^ bitsFor m.size)).Stores (l ++ List.replicate (2 ^ bitsFor m.size - l.length) 0#32) := by
  have hle := le_two_pow_bitsFor m.size
  have hlen := h.length
  refine ⟨Nat.two_pow_pos _, by simp [Memory.padded]; omega, h.width, fun b hb => ?_, fun i b hb a y ha => ?_, h.idle⟩
  · obtain ⟨h1, h2⟩ := h.shape b hb
    refine ⟨h1.trans (Nat.le_antisymm ?_ ?_), by show _ = bitsFor (2 ^ bitsFor m.size); rw [bitsFor_pow]; exact h2⟩
    · exact divCeil_le_of_le_mul _ _ _ (Nat.two_pow_pos _) (Nat.le_trans hle (divCeil_mul_ge _ _ (Nat.two_pow_pos _)))
    · exact divCeil_le_of_le_mul _ _ _ (Nat.two_pow_pos _) hk
  · by_cases hl : a < l.length
    · rw [List.getElem?_append_left hl] at ha
      exact h.content i b hb a y ha
    · rw [List.getElem?_append_right (by omega), List.getElem?_replicate] at ha
      split at ha
      · cases ha
        rw [hc b (bits_mem hb) a (by omega)]
        simp [bitCoeff]
      · cases ha

theorem load_clear {rand : Nat → Nat → Nat → Unit} {dbg : Bool} {romSize ramSize threads : Nat}
    {p : Parser} {data : List (BitVec 32)} {vm : Interp (plain logN L)}
    (h : Interp.load (plainCipher logN L) rand dbg romSize ramSize threads p data = some vm) :
    (vm.immRom.Clear ∧ vm.rs1Rom.Clear ∧ vm.rs2Rom.Clear ∧ vm.rdRom.Clear ∧ vm.rduRom.Clear ∧ vm.muRom.Clear ∧ vm.pcuRom.Clear) := by
  unfold Interp.load at h
  obtain ⟨v0, h0, h⟩ := Option.bind_eq_some_iff.mp h
  obtain ⟨v1, h1, h⟩ := Option.bind_eq_some_iff.mp h
  obtain ⟨v2, h2, h⟩ := Option.map_eq_some_iff.mp h
  unfold Interp.new at h0
  obtain ⟨rom, e1, h0⟩ := Option.bind_eq_some_iff.mp h0
  obtain ⟨regs, e2, h0⟩ := Option.bind_eq_some_iff.mp h0
  obtain ⟨ram, e3, h0⟩ := Option.map_eq_some_iff.mp h0
  subst h0
  unfold Interp.encryptInstructions at h1
  split at h1
  · cases h1
  obtain ⟨ds, hd, h1⟩ := Option.bind_eq_some_iff.mp h1
  obtain ⟨m1, s1, h1⟩ := Option.bind_eq_some_iff.mp h1
  obtain ⟨m2, s2, h1⟩ := Option.bind_eq_some_iff.mp h1
  obtain ⟨m3, s3, h1⟩ := Option.bind_eq_some_iff.mp h1
  obtain ⟨m4, s4, h1⟩ := Option.bind_eq_some_iff.mp h1
  obtain ⟨m5, s5, h1⟩ := Option.bind_eq_some_iff.mp h1
  obtain ⟨m6, s6, h1⟩ := Option.bind_eq_some_iff.mp h1
  obtain ⟨m7, s7, h1⟩ := Option.map_eq_some_iff.mp h1
  subst h1
  unfold Interp.encryptRam at h2
  split at h2
  · obtain ⟨m8, s8, h2⟩ := Option.map_eq_some_iff.mp h2
    subst h2 h
    exact ⟨Memory.encrypt_clear e1 s4, Memory.encrypt_clear e1 s1, Memory.encrypt_clear e1 s2, Memory.encrypt_clear e1 s3,
      Memory.encrypt_clear e1 s5, Memory.encrypt_clear e1 s6, Memory.encrypt_clear e1 s7⟩
  · cases h2

theorem load_padded {rand : Nat → Nat → Nat → Unit} {dbg : Bool} {romSize ramSize threads : Nat}
    {p : Parser} {data : List (BitVec 32)} {vm : Interp (plain logN L)} {ds : List Decoded}
    (ht : 0 < threads) (hd : decodeProgram dbg p = some ds) (hl : ds.length ≤ romSize)
    (hk : 2 ^ bitsFor romSize ≤ divCeil romSize (2 ^ logN) * 2 ^ logN)
    (h : Interp.load (plainCipher logN L) rand dbg romSize ramSize threads p data = some vm) :
    Mirrors (vm.padded (2 ^ bitsFor romSize)) (Debug.image (2 ^ bitsFor romSize) ramSize ds data) := by
  obtain ⟨M, -⟩ := load_mirrors ht hd h
  obtain ⟨c1, c2, c3, c4, c5, c6, c7⟩ := load_clear h
  have hle := le_two_pow_bitsFor romSize
  have rl : (Debug.image romSize ramSize ds data).rom.length = romSize := by simp [Debug.image]; omega
  have rk : (Debug.image (2 ^ bitsFor romSize) ramSize ds data).rom.length = 2 ^ bitsFor romSize := by simp [Debug.image]; omega
  have col {m : Memory (plain logN L)} {f : Decoded → BitVec 32} (hf : f Decoded.zero = 0#32)
      (hs : m.Stores ((Debug.image romSize ramSize ds data).rom.map f)) (hc : m.Clear) :
      (m.padded (2 ^ bitsFor romSize)).Stores ((Debug.image (2 ^ bitsFor romSize) ramSize ds data).rom.map f) := by
    have e : m.size = romSize := by rw [← hs.length, List.length_map, rl]
    have := hs.padded hc (by rw [e]; exact hk)
    rw [e] at this
    have eq : (Debug.image (2 ^ bitsFor romSize) ramSize ds data).rom.map f = (Debug.image romSize ramSize ds data).rom.map f ++
        List.replicate (2 ^ bitsFor romSize - ((Debug.image romSize ramSize ds data).rom.map f).length) 0#32 := by
      rw [List.length_map, rl]
      simp only [Debug.image, List.map_append, List.map_replicate, hf, List.append_assoc, List.replicate_append_replicate]
      rw [show romSize - ds.length + (2 ^ bitsFor romSize - romSize) = 2 ^ bitsFor romSize - ds.length by omega]
    rw [eq]
    exact this
  exact ⟨M.threads, by rw [rk, bitsFor_pow]; exact M.romBits.trans (by rw [rl]), M.ramBits, M.ramSize, col rfl M.imm c1, col rfl M.rs1 c2, col rfl M.rs2 c3, col rfl M.rd c4,
    col rfl M.rdu c5, col rfl M.mu c6, col rfl M.pcu c7, M.registers, M.regs, M.ram, M.pc0, M.pc⟩

end plain

/-- The interpreter that was set up, with program memories as long as the addresses go, is in the state of the mirror whose program is
continued by zeros up to there. -/
theorem Fhe.runs_padded {F : Fhe} {rand : Nat → Nat → Nat → F.C.Rand} {dbg : Bool}
    {romSize ramSize threads : Nat} {p : Parser} {data : List (BitVec 32)} {vm : Interp F.B}
    {ds : List Decoded} (ht : 0 < threads) (hd : decodeProgram dbg p = some ds) (hl : ds.length ≤ romSize)
    (hk : 2 ^ bitsFor romSize ≤ divCeil romSize (2 ^ F.B.logN) * 2 ^ F.B.logN)
    (h : Interp.load F.C rand dbg romSize ramSize threads p data = some vm) :
    F.Runs (vm.padded (2 ^ bitsFor romSize)) (Debug.image (2 ^ bitsFor romSize) ramSize ds data) := by
  have r := Interp.load_rel (F := F) rand dbg romSize ramSize threads p data
  rw [h] at r
  obtain ⟨vm', e, r⟩ := r.of_some_left
  exact ⟨vm'.padded _, r.padded _, load_padded ht hd hl hk e⟩

end Verif.Model
