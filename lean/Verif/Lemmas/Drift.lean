import Verif.Lemmas.NoiseRun
/-
  A library of ring degree 1 in which moving ciphertexts through the retrieval network is the only noisy
  operation: it adds 1 to every phase.  It meets the contract, and its noise is never refreshed except for
  the word that a cycle addresses.
-/
namespace Verif.Model
open Verif.Spec (Fits FitsRun regGrowth ramGrowth wordNoise)

namespace Drift

/-- Distance of two neighbouring messages. -/
def delta (limit : Nat) : Int := 2 * limit + 2

/-- Decoding of a phase: correct up to `limit`, the opposite bit beyond. -/
def decode (limit : Nat) (a : Int) : BitVec 2 :=
  if (a + limit) % delta limit ≤ 2 * limit then BitVec.ofInt 2 ((a + limit) / delta limit)
  else 1#2 - BitVec.ofInt 2 ((a + limit) / delta limit)

/-- Multiplication by `X^k` in degree 1, where `X = -1`. -/
def rot (k : Int) (a : Int) : Int := if k % 2 = 0 then a else -a

@[reducible] def backend (limit : Nat) : Backend :=
  { plain 0 (sampleLib _) with
    Glwe := Int
    glweZero := 0
    add a b := a + b
    sub a b := a - b
    rotate := rot
    trace a := a
    normalize a := a
    blindRotate a w sign rsh mask lsh :=
      let k : Nat := w.toNat / 2 ^ rsh % 2 ^ mask * 2 ^ lsh
      rot (if sign then (k : Int) else -(k : Int)) a
    retrieve data w offset := (data[w.toNat / 2 ^ offset]?).getD 0
    retrieval data w offset bits :=
      ((swapNet Int).fwd bits (w.toNat / 2 ^ offset % 2 ^ bits) data).map (· + 1)
    retrievalRev data w offset bits :=
      ((swapNet Int).rev bits (w.toNat / 2 ^ offset % 2 ^ bits) data).map (· + 1)
    pack l := wordOf (fun i => (l[i]?).elim false fun a => (decode limit a).getLsbD 0) 32
    getBit u i := delta limit * (bitCoeff u i).toNat
    bdd c bit := (c.run bit (fun _ => false) (fun _ => false)).map fun b => if b then delta limit else 0 }

/-- Only the retrieval network adds noise. -/
def costs : Costs := ⟨0, 0, 0, 0, 0, 1, 0, 0, 0, 0, 0, 0, 0⟩

@[reducible] def ops (limit : Nat) : NoisyOps where
  B := backend limit
  lib := sampleLib _
  c := costs
  delta := delta limit
  limit := limit
  phase a _ := a
  U _ u w := u = w
  P x w := x = w
  Bt b b' := b = b'

theorem G_iff {limit ν : Nat} {a : Int} {p : Coeffs 1} : (ops limit).G ν a p ↔
    ∃ e z : Int, e.natAbs ≤ ν ∧ a = delta limit * (p 0).toNat + e + 4 * delta limit * z := by
  constructor
  · intro h; exact h 0
  · intro h i
    have e : i = (0 : Fin 1) := Subsingleton.elim (α := Fin 1) i 0
    rw [e]
    exact h

theorem decode_ok {limit ν : Nat} (hν : ν ≤ limit) {a : Int} {p : Coeffs 1} (h : (ops limit).G ν a p) :
    decode limit a = p 0 := by
  obtain ⟨e, z, he, ha⟩ := G_iff.mp h
  have hd : 0 < delta limit := by unfold delta; omega
  have h1 : a + limit = (e + limit) + delta limit * ((p 0).toNat + 4 * z) := by
    rw [ha, Int.mul_add]
    have : 4 * delta limit * z = delta limit * (4 * z) := by
      rw [Int.mul_comm 4, Int.mul_assoc]
    omega
  have hr : 0 ≤ e + limit ∧ e + limit < delta limit := by unfold delta; omega
  have hm : (a + limit) % delta limit = e + limit := by
    rw [h1, Int.add_mul_emod_self_left, Int.emod_eq_of_lt hr.1 hr.2]
  have hq : (a + limit) / delta limit = (p 0).toNat + 4 * z := by
    rw [h1, Int.add_mul_ediv_left _ _ (by omega), Int.ediv_eq_zero_of_lt hr.1 hr.2, Int.zero_add]
  unfold decode
  rw [hm, hq, if_pos (by omega)]
  apply BitVec.eq_of_toNat_eq
  rw [BitVec.toNat_ofInt]
  have := (p 0).isLt
  omega

theorem G_rot {limit ν : Nat} {a : Int} {p : Coeffs 1} (k : Int) (h : (ops limit).G ν a p) :
    (ops limit).G ν (rot k a) (polyRotate (n := 1) k p) := by
  obtain ⟨e, z, he, ha⟩ := G_iff.mp h
  refine G_iff.mpr ?_
  have hx : polyRotate k p 0 = if k % 2 = 0 then p 0 else -(p 0) := by
    show ext p ((0 : Int) - k) = _
    unfold ext
    by_cases hk : k % 2 = 0
    · rw [dif_pos (by omega), if_pos hk]
      exact congrArg p (Fin.ext (by simp; omega))
    · rw [dif_neg (by omega), dif_pos (by omega), if_neg hk]
      exact congrArg (fun i => -(p i)) (Fin.ext (by simp; omega))
  rw [hx]
  unfold rot
  by_cases hk : k % 2 = 0
  · rw [if_pos hk, if_pos hk]
    exact ⟨e, z, he, ha⟩
  · rw [if_neg hk, if_neg hk]
    have hn : ((-(p 0)).toNat : Int) = -((p 0).toNat : Int)
        ∨ ((-(p 0)).toNat : Int) = -((p 0).toNat : Int) + 4 := by
      rw [BitVec.toNat_neg]
      have := (p 0).isLt
      omega
    rcases hn with hn | hn
    · refine ⟨-e, -z, by omega, ?_⟩
      rw [hn, ha, Int.mul_neg, Int.mul_neg]
      omega
    · refine ⟨-e, -z - 1, by omega, ?_⟩
      rw [hn, ha, Int.mul_add, Int.mul_neg, Int.mul_sub, Int.mul_neg]
      omega

theorem G_succ {limit ν : Nat} {a : Int} {p : Coeffs 1} (h : (ops limit).G ν a p) :
    (ops limit).G (ν + 1) (a + 1) p := by
  obtain ⟨e, z, he, ha⟩ := G_iff.mp h
  exact G_iff.mpr ⟨e + 1, z, by omega, by omega⟩

theorem map_left {α β γ : Type} {R : α → β → Prop} {S : γ → β → Prop} {f : α → γ}
    (h : ∀ a b, R a b → S (f a) b) {l : List α} {l' : List β} (hl : LRel R l l') :
    LRel S (l.map f) l' := by
  have := LRel.map (g := id) h hl
  rwa [List.map_id] at this

theorem swap_rel {α β : Type} {R : α → β → Prop} {l : List α} {l' : List β} (h : LRel R l l')
    (bits idx : Nat) : LRel R ((swapNet α).fwd bits idx l) ((swapNet β).fwd bits idx l') := by
  show LRel R (match l[0]?, l[idx]? with
      | some a, some b => (l.set 0 b).set idx a
      | _, _ => l) (match l'[0]?, l'[idx]? with
      | some a, some b => (l'.set 0 b).set idx a
      | _, _ => l')
  have h0 := h 0
  have h1 := h idx
  have set_rel : ∀ {m : List α} {m' : List β} {x y} (k : Nat), LRel R m m' → R x y →
      LRel R (m.set k x) (m'.set k y) := by
    intro m m' x y k hm hxy i
    rw [List.getElem?_set, List.getElem?_set, hm.length]
    split
    · split
      · exact hxy
      · trivial
    · exact hm i
  cases e0 : l[0]? <;> cases e0' : l'[0]? <;> rw [e0, e0'] at h0
  · exact h
  · exact h0.elim
  · exact h0.elim
  · cases e1 : l[idx]? <;> cases e1' : l'[idx]? <;> rw [e1, e1'] at h1
    · exact h
    · exact h1.elim
    · exact h1.elim
    · exact set_rel _ (set_rel _ h h1) h0

end Drift

open Drift in
/-- The library with the given limit. -/
@[reducible] def drift (limit : Nat) : Noisy where
  toNoisyOps := ops limit
  phase_zero _ := ⟨0, by simp⟩
  phase_add a b i := ⟨0, by simp⟩
  phase_sub a b i := ⟨0, by simp⟩
  phase_trace a i := ⟨0, 0, by simp, by
    have : i.val = 0 := by have := i.isLt; simp at this; omega
    rw [if_pos this]; simp⟩
  rotate k h := G_rot k h
  normalize h := h
  blindRotate sign rsh mask lsh h hx := by
    subst hx
    exact G_rot _ h
  retrieve offset h hx := by
    subst hx
    rename_i l l' x
    have := h (x.toNat / 2 ^ offset)
    show (ops limit).G _ ((l[x.toNat / 2 ^ offset]?).getD 0)
      ((l'[x.toNat / 2 ^ offset]?).getD fun _ => 0#2)
    cases h1 : l[x.toNat / 2 ^ offset]? <;> cases h2 : l'[x.toNat / 2 ^ offset]? <;> rw [h1, h2] at this
    · exact G_iff.mpr ⟨0, 0, by simp, by simp⟩
    · exact this.elim
    · exact this.elim
    · exact this
  retrieval offset bits h hx := by
    subst hx
    rename_i ν l l' x
    exact map_left (fun a b h => G_succ h) (swap_rel h bits (x.toNat / 2 ^ offset % 2 ^ bits))
  retrievalRev offset bits h hx := by
    subst hx
    rename_i ν l l' x
    exact map_left (fun a b h => G_succ h) (swap_rel h bits (x.toNat / 2 ^ offset % 2 ^ bits))
  U_mono _ h := h
  uzero := rfl
  pack hν h := by
    rename_i ν l l'
    show wordOf _ 32 = wordOf _ 32
    refine congrArg (fun f => wordOf f 32) (funext fun i => ?_)
    have := h i
    cases h1 : l[i]? <;> cases h2 : l'[i]? <;> rw [h1, h2] at this
    · rfl
    · exact this.elim
    · exact this.elim
    · show (decode limit _).getLsbD 0 = _
      rw [decode_ok hν this]
      rfl
  getBit i h := by
    subst h
    exact G_iff.mpr ⟨0, 0, by simp, by simp [constPoly]⟩
  select _ _ h hx := by
    subst hx
    rw [eq_of_assoc h]
  zeroByte _ h := by subst h; rfl
  sextByte _ h := by subst h; rfl
  spliceU8 _ _ h h' := by subst h h'; rfl
  spliceU16 _ _ h h' := by subst h h'; rfl
  bootstrap _ _ h := by subst h; rfl
  prepareCustom _ _ _ h := by subst h; rfl
  pzero := rfl
  gbit _ h := by subst h; rfl
  gzero := rfl
  ofBits h := by rw [LRel.of_eq.mp h]
  bin _ h h' := by subst h h'; rfl
  bdd k _ f f' h := by
    have e : f = f' := funext h
    subst e
    show ORel _ ((k.run f (fun _ => false) fun _ => false).map _)
      ((k.run f (fun _ => false) fun _ => false).map _)
    cases k.run f (fun _ => false) fun _ => false with
    | none => trivial
    | some b =>
      refine G_iff.mpr ⟨0, 0, by simp, ?_⟩
      cases b <;> simp [constPoly]
  identity h := h
  C := { Rand := Unit, enc := fun _ p => delta limit * (p 0).toNat, dec := fun a _ => decode limit a }
  enc _ p := G_iff.mpr ⟨0, 0, by simp, by simp; rfl⟩
  dec hν h := by
    funext i
    have e : i = (0 : Fin 1) := Subsingleton.elim (α := Fin 1) i 0
    rw [e]
    exact decode_ok hν h
  decU u := u
  decU_ok _ h := h


/-! ### Exact noise of a word that is never addressed -/

section trace
variable {B : Backend}

/-- The RAM after a cycle: every bit array goes to the front and back. -/
theorem Interp.trace_ram {vm : Interp B} {t : Trace B} (ht : 0 < vm.threads) (h : vm.trace = some t) :
    t.ram.bits = vm.ram.bits.mapIdx fun i b =>
      b.write (B.getBit t.ramVal i) (B.prepareCustom t.q.addr 0 (vm.ramBits + 2)) 2 := by
  unfold Interp.trace at h
  obtain ⟨f, -, h⟩ := Option.bind_eq_some_iff.mp h
  obtain ⟨s, -, h⟩ := Option.bind_eq_some_iff.mp h
  obtain ⟨q, hq, h⟩ := Option.bind_eq_some_iff.mp h
  obtain ⟨rd, -, h⟩ := Option.bind_eq_some_iff.mp h
  obtain ⟨st, hst, h⟩ := Option.bind_eq_some_iff.mp h
  obtain ⟨pc, -, h⟩ := Option.map_eq_some_iff.mp h
  subst h
  unfold Interp.readRam at hq
  obtain ⟨addr, -, hq⟩ := Option.bind_eq_some_iff.mp hq
  obtain ⟨x, hx, hq⟩ := Option.map_eq_some_iff.mp hq
  subst hq
  unfold Memory.readStatefull at hx
  by_cases he : vm.ram.bits.isEmpty = true
  · rw [if_pos he] at hx; cases hx
  have hpos : 0 < vm.ram.bits.length := by
    cases hb : vm.ram.bits with
    | nil => rw [hb] at he; simp at he
    | cons => simp
  rw [if_neg he] at hx
  by_cases hs : vm.ram.state = true
  · rw [if_pos hs] at hx; cases hx
  rw [if_neg hs, parallel_eq _ _ _ ht (by unfold Memory.withTmp; simpa using hpos), Option.bind_some] at hx
  obtain ⟨rs, -, hx⟩ := Option.map_eq_some_iff.mp hx
  subst hx
  unfold Interp.updateRam at hst
  obtain ⟨r, hr, hst⟩ := Option.map_eq_some_iff.mp hst
  subst hst
  unfold Memory.readStatefullRev at hr
  simp only [Bool.true_eq_false, if_false] at hr
  obtain ⟨bits, hb, hr⟩ := Option.map_eq_some_iff.mp hr
  subst hr
  rw [parallel_eq _ _ _ ht (by unfold Memory.withTmp; simpa using hpos)] at hb
  show bits = _
  rw [← Option.some.inj hb]
  apply List.ext_getElem?
  intro i
  simp only [Memory.withTmp, List.getElem?_mapIdx, List.getElem?_map, Option.map_map]
  rfl

end trace

namespace Drift

/-- There and back: a word other than the addressed one has been moved twice. -/
theorem swap_there_back (bits idx : Nat) (l : List Int) (g : Int → Int) (hidx : idx < l.length) (j : Nat)
    (hj : j ≠ idx) :
    (((swapNet Int).rev bits idx ((((swapNet Int).fwd bits idx l).map (· + 1)).modify 0 g)).map (· + 1))[j]?
      = (l[j]?).map (· + 2) := by
  have h0 : 0 < l.length := by omega
  have e1 : (swapNet Int).fwd bits idx l = (l.set 0 l[idx]).set idx l[0] := by
    simp only [swapNet]
    rw [List.getElem?_eq_getElem h0, List.getElem?_eq_getElem hidx]
  rw [e1]
  generalize hm : (((l.set 0 l[idx]).set idx l[0]).map (· + 1)).modify 0 g = m
  have hml : m.length = l.length := by rw [← hm]; simp
  have hget : ∀ i, i ≠ 0 → m[i]? = if i = idx then some (l[0] + 1) else (l[i]?).map (· + 1) := by
    intro i hi
    rw [← hm, List.getElem?_modify, List.getElem?_map, List.getElem?_set, List.getElem?_set]
    by_cases e : idx = i
    · subst e
      simp [hidx, Ne.symm hi]
    · have e' : i ≠ idx := fun h => e h.symm
      simp [e, e', Ne.symm hi]
  have e2 : (swapNet Int).rev bits idx m
      = (m.set 0 (m[idx]'(by omega))).set idx (m[0]'(by omega)) := by
    simp only [swapNet]
    rw [List.getElem?_eq_getElem (show 0 < m.length by omega),
      List.getElem?_eq_getElem (show idx < m.length by omega)]
  rw [e2, List.getElem?_map, List.getElem?_set, if_neg (fun h => hj h.symm), List.getElem?_set]
  by_cases hz : 0 = j
  · subst hz
    have := hget idx (fun h => hj h.symm)
    rw [if_pos rfl, List.getElem?_eq_getElem (show idx < m.length by omega)] at this
    rw [if_pos rfl, if_pos (by omega), Option.some.inj this, List.getElem?_eq_getElem h0]
    simp only [Option.map_some]
    congr 1
    omega
  · rw [if_neg hz, hget j (fun h => hz h.symm), if_neg hj]
    cases l[j]? with
    | none => rfl
    | some x =>
      simp only [Option.map_some]
      congr 1
      omega

theorem rot_zero (a : Int) : rot 0 a = a := by simp [rot]
theorem rot_neg_zero (a : Int) : rot (-0) a = a := by simp [rot]

/-- One bit array after a cycle. -/
theorem array_cycle (limit : Nat) (b : BitArray (backend limit)) (addr : BitVec 32) (w : Int) (j : Nat)
    (hs : 0 < b.bitSize) (ha : addr.toNat / 4 % 2 ^ b.bitSize < b.data.length)
    (hj : j ≠ addr.toNat / 4 % 2 ^ b.bitSize) :
    (BitArray.backward { b with data := b.forward addr 2 } w addr 2)[j]? = (b.data[j]?).map (· + 2) := by
  have h4 : (2 : Nat) ^ (2 + 0) = 4 := by decide
  have hf : b.forward addr 2
      = (((swapNet Int).fwd b.bitSize (addr.toNat / 4 % 2 ^ b.bitSize) b.data).map (· + 1)).modify 0
        fun a => a := by
    unfold BitArray.forward
    simp only
    rw [if_pos hs]
    simp only [Nat.sub_zero, h4, Nat.zero_min, Nat.pow_zero, Nat.mod_one, Nat.zero_mul]
    congr 1
  unfold BitArray.backward
  simp only
  rw [if_pos hs, hf]
  simp only [Nat.sub_zero, h4, Nat.zero_min, Nat.pow_zero, Nat.mod_one, Nat.zero_mul]
  rw [List.modify_modify_eq, List.modify_modify_eq, List.modify_modify_eq]
  exact swap_there_back b.bitSize _ b.data _ ha j hj

/-- Word `j` of the RAM has noise exactly `e`. -/
def Exact (limit : Nat) (vm : Interp (backend limit)) (j : Nat) (w : BitVec 32) (e : Int) : Prop :=
  ∀ i b, vm.ram.bits[i]? = some b →
    ∃ z : Int, b.data[j]? = some (delta limit * (bitCoeff w i).toNat + e + 4 * delta limit * z)

/-- No cycle addresses word `j`. -/
def Untouched (n : Nat) (d : Debug) (j : Nat) : Prop :=
  ∀ k d1, k < n → Spec.cycles (k + 1) d = some d1 →
    d1.ramAddr.toNat / 4 % 2 ^ bitsFor d1.ram.length ≠ j

theorem run_exact (limit n : Nat) {r m : Nat} {vm : Interp (backend limit)}
    {vm' : Interp (plain 0 (sampleLib _))} {d d2 : Debug} (h : Interp.NRel (drift limit) r m vm vm')
    (mi : Mirrors vm' d) (hc : Spec.cycles n d = some d2) (hcy : vm'.cycle.toNat + n < 2 ^ 32)
    (hl : ∀ k, k < n → Fits costs limit (r + k * regGrowth costs) (m + k * ramGrowth costs))
    (hsize : 1 < d.ram.length) (j : Nat) (hj : Untouched n d j) (w : BitVec 32) (e : Int)
    (he : Exact limit vm j w e) :
    ∃ vm2, Interp.run n vm = some vm2 ∧ Exact limit vm2 j w (e + 2 * n) := by
  induction n generalizing r m vm vm' d e with
  | zero => exact ⟨vm, rfl, by simpa using he⟩
  | succ n ih =>
    obtain ⟨d1, c1, c2⟩ := Option.bind_eq_some_iff.mp hc
    have hne : vm'.cycle ≠ 0xFFFFFFFF#32 := by
      intro h
      rw [h] at hcy
      simp at hcy
      omega
    obtain ⟨pc, i, a, b, v, rr, o, ro, po, co⟩ := cycle_inv c1
    obtain ⟨t', et', ag, m1⟩ := mi.trace co hne
    have h0 := hl 0 (by omega)
    rw [Nat.zero_mul, Nat.zero_mul] at h0
    have tr := h.trace h0
    rw [et'] at tr
    obtain ⟨t, et, rt⟩ := tr.of_some
    have st := h.step h0
    rw [Interp.step, Interp.step, et, et'] at st
    have haddr : t.q.addr = d1.ramAddr := rt.addr.trans ag.addr
    have hlen : d1.ram.length = d.ram.length := by rw [co.result]; simp
    have hram : vm.ram.size = d.ram.length := by rw [h.ram.size, ← mi.ram.length]
    have hbits := Interp.trace_ram (by rw [h.threads]; exact mi.threads) et
    have hb0 : 0 < bitsFor d.ram.length := by
      have := le_two_pow_bitsFor d.ram.length
      rcases Nat.eq_zero_or_pos (bitsFor d.ram.length) with h | h
      · rw [h] at this; omega
      · exact h
    have htouch := hj 0 d1 (by omega) (by rw [Spec.cycles, c1]; rfl)
    have hidx : d1.ramAddr.toNat / 4 % 2 ^ bitsFor d.ram.length < d.ram.length := by
      have := (List.getElem?_eq_some_iff.mp co.ram).1
      rw [co.result]
      exact this
    have hP : (((backend limit).prepareCustom t.q.addr 0 (vm.ramBits + 2) : BitVec 32)).toNat / 4
        % 2 ^ bitsFor d.ram.length = d1.ramAddr.toNat / 4 % 2 ^ bitsFor d.ram.length := by
      rw [haddr, h.ramBits, mi.ramBits]
      exact ram_access (logN := 0) (L := sampleLib _) d1.ramAddr d.ram.length
    have he1 : Exact limit (vm.next t) j w (e + 2) := by
      intro i b hb
      have hb' : t.ram.bits[i]? = some b := hb
      rw [hbits, List.getElem?_mapIdx] at hb'
      obtain ⟨b0, hb0', rfl⟩ := Option.map_eq_some_iff.mp hb'
      have hshape : b0.bitSize = bitsFor d.ram.length ∧ b0.data.length = d.ram.length := by
        have hr := h.ram.bits i
        rw [hb0'] at hr
        obtain ⟨b1, hb1, hrel⟩ := hr.of_some_left
        have sh := mi.ram.shape b1 (List.mem_of_getElem? hb1)
        refine ⟨by rw [hrel.bitSize, sh.bitSize, mi.ram.length], ?_⟩
        rw [hrel.data.length, sh.length, mi.ram.length]
        simp [divCeil]
      obtain ⟨z, hz⟩ := he i b0 hb0'
      refine ⟨z, ?_⟩
      show (BitArray.backward _ _ _ 2)[j]? = _
      rw [array_cycle limit b0 _ _ j (by rw [hshape.1]; exact hb0)
        (by rw [hshape.1, hshape.2, hP]; exact hidx)
        (by rw [hshape.1, hP, ← hlen]; exact fun h => htouch h.symm), hz]
      simp only [Option.map_some]
      congr 1
      omega
    obtain ⟨vm2, e2, x2⟩ := ih st m1 c2
      (by
        show (vm'.cycle + 1#32).toNat + n < 2 ^ 32
        rw [BitVec.toNat_add]
        simp only [BitVec.toNat_ofNat]
        omega)
      (fun k hk => by
        have := hl (k + 1) (by omega)
        rw [Nat.succ_mul, Nat.succ_mul] at this
        exact Fits.anti this (by show r + regGrowth costs + _ ≤ _; omega)
          (by show m + ramGrowth costs + _ ≤ _; omega))
      (by rw [hlen]; exact hsize)
      (fun k d3 hk h3 => hj (k + 1) d3 (by omega) (by rw [Spec.cycles, c1]; exact h3))
      (e + 2) he1
    refine ⟨vm2, ?_, ?_⟩
    · show vm.step.bind _ = _
      rw [Interp.step, et]
      exact e2
    · have : e + 2 * ((n + 1 : Nat) : Int) = e + 2 + 2 * n := by omega
      rw [this]
      exact x2

/-- A word with noise just beyond the limit decrypts to its complement. -/
theorem decrypt_wrong (limit : Nat) (m : Memory (backend limit)) (hw : m.bits.length = 32)
    (out : List (BitVec 32)) (ho : out.length = m.size) (j : Nat) (hj : j < m.size) (w : BitVec 32)
    (he : ∀ i b, m.bits[i]? = some b → ∃ z : Int,
      b.data[j]? = some (delta limit * (bitCoeff w i).toNat + (limit + 1 : Int) + 4 * delta limit * z)) :
    ∃ ws, m.decrypt (drift limit).C out = some ws ∧ ws[j]? = some (~~~w) := by
  unfold Memory.decrypt
  rw [if_neg (by omega), if_pos (by rw [hw, ho]; exact Nat.div_le_self _ _)]
  refine ⟨_, rfl, ?_⟩
  rw [List.getElem?_mapIdx, List.getElem?_eq_getElem (by omega), Option.map_some, if_pos hj, hw]
  refine congrArg some ?_
  rw [foldl_congr' _ (fun y i => setBit y i (bitCoeff (~~~w) i))]
  · exact decrypt_word _ _ _ (fun _ _ => rfl)
  · intro y i hi
    have hi' := List.mem_range.mp hi
    rw [List.getElem?_eq_getElem (by omega)]
    simp only [Option.elim_some]
    refine congrArg (setBit y i) ?_
    unfold BitArray.decrypt
    have e0 : j / 2 ^ (backend limit).logN = j := by simp
    obtain ⟨z, hz⟩ := he i _ (List.getElem?_eq_getElem (show i < m.bits.length by omega))
    rw [e0, hz]
    simp only [Option.elim_some]
    have hd : 0 < delta limit := by unfold delta; omega
    have hsum : delta limit * ((bitCoeff w i).toNat : Int) + (limit + 1) + 4 * delta limit * z + limit
        = (2 * limit + 1) + delta limit * (((bitCoeff w i).toNat : Int) + 4 * z) := by
      have : 4 * delta limit * z = delta limit * (4 * z) := by
        rw [Int.mul_comm 4, Int.mul_assoc]
      rw [Int.mul_add]
      omega
    have hr : (0 : Int) ≤ 2 * limit + 1 ∧ (2 * limit + 1 : Int) < delta limit := by unfold delta; omega
    show decode limit _ = _
    unfold decode
    rw [hsum, Int.add_mul_emod_self_left, Int.emod_eq_of_lt hr.1 hr.2, if_neg (by omega),
      Int.add_mul_ediv_left _ _ (by omega), Int.ediv_eq_zero_of_lt hr.1 hr.2, Int.zero_add]
    have hi2 : BitVec.ofInt 2 (((bitCoeff w i).toNat : Int) + 4 * z) = bitCoeff w i := by
      apply BitVec.eq_of_toNat_eq
      rw [BitVec.toNat_ofInt]
      have := (bitCoeff w i).isLt
      omega
    rw [hi2]
    have hx : (~~~w).getLsbD i = !w.getLsbD i := by simp [hi']
    unfold bitCoeff
    rw [hx]
    cases w.getLsbD i <;> decide

/-- A freshly loaded VM. -/
theorem exact_of_nrel {limit r : Nat} {vm : Interp (backend limit)} {vm' : Interp (plain 0 (sampleLib _))}
    {d : Debug} (h : Interp.NRel (drift limit) r 0 vm vm') (mi : Mirrors vm' d) (j : Nat) (w : BitVec 32)
    (hw : d.ram[j]? = some w) : Exact limit vm j w 0 := by
  intro i b hb
  have hr := h.ram.bits i
  rw [hb] at hr
  obtain ⟨b1, hb1, hrel⟩ := hr.of_some_left
  have hv := mi.ram.content i b1 hb1 j w hw
  have hd := hrel.data j
  unfold BitArray.decrypt at hv
  have e0 : j / 2 ^ (plain 0 (sampleLib (2 ^ 0))).logN = j := by simp
  rw [e0] at hv
  have hlen : j < b1.data.length := by
    have sh := mi.ram.shape b1 (List.mem_of_getElem? hb1)
    rw [sh.length, ← mi.ram.length]
    have := (List.getElem?_eq_some_iff.mp hw).1
    simpa [divCeil] using this
  rw [List.getElem?_eq_getElem hlen] at hv hd
  obtain ⟨a, ha, hg⟩ := hd.of_some
  obtain ⟨e, z, he, hp⟩ := G_iff.mp hg
  refine ⟨z, ?_⟩
  rw [ha]
  simp only [Option.elim_some] at hv
  have hz : e = 0 := by omega
  rw [hp, hz]
  refine congrArg (fun x : BitVec 2 => some (delta limit * (x.toNat : Int) + 0 + 4 * delta limit * z)) ?_
  rw [← hv]
  exact congrArg (b1.data[j]) (Subsingleton.elim (α := Fin 1) _ _)

/-- The size of the RAM never changes. -/
theorem cycles_ram {n : Nat} {d d2 : Debug} (h : Spec.cycles n d = some d2) :
    d2.ram.length = d.ram.length := by
  induction n generalizing d with
  | zero => cases h; rfl
  | succ n ih =>
    obtain ⟨d1, c1, c2⟩ := Option.bind_eq_some_iff.mp h
    obtain ⟨pc, i, a, b, v, rr, o, ro, po, co⟩ := cycle_inv c1
    rw [ih c2, co.result]
    simp

end Drift
end Verif.Model
