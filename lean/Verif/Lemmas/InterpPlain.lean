import Verif.Lemmas.Prepare
import Verif.Model.Debug
import Verif.Props.Alu
import Verif.Props.Circuits
import Verif.Props.Memory
/-
  The encrypted operations on plaintexts: what they compute, compared to the plaintext evaluation.
-/
namespace Verif.Model
open Verif Verif.Bdd Verif.Props

variable {logN : Nat} {L : Lib (2 ^ logN)}

/-! ### Circuits -/

theorem runAll_length (bit : Nat → Bool) (s0 s1 : Nat → Nat → Bool) :
    ∀ (cs : List BitCircuit) (i : Nat) (bs : List Bool), runAll bit s0 s1 i cs = some bs →
      bs.length = cs.length := by
  intro cs
  induction cs with
  | nil => intro i bs h; cases h; rfl
  | cons c cs ih =>
    intro i bs h
    simp only [runAll] at h
    cases h1 : c.run bit (s0 i) (s1 i) with
    | none => rw [h1] at h; cases h
    | some b =>
      rw [h1] at h
      cases h2 : runAll bit s0 s1 (i + 1) cs with
      | none => rw [h2] at h; cases h
      | some bs' =>
        rw [h2] at h
        cases h
        simp [ih (i + 1) bs' h2]

theorem collect_runAll (bit : Nat → Bool) :
    ∀ (cs : List BitCircuit) (i : Nat),
      collect (cs.map fun c => (plain logN L).bdd c bit)
        = (runAll bit (fun _ => L.stale0) (fun _ => L.stale1) i cs).map fun bs =>
            bs.map fun b => (constPoly (if b then 1#2 else 0#2) : Coeffs (2 ^ logN)) := by
  intro cs
  induction cs with
  | nil => intro i; rfl
  | cons c cs ih =>
    intro i
    have := ih (i + 1)
    rw [List.map_cons]
    show collect ((c.run bit L.stale0 L.stale1).map _ :: _) = _
    simp only [runAll]
    cases h1 : c.run bit L.stale0 L.stale1 with
    | none => rfl
    | some b =>
      simp only [Option.map_some, collect]
      rw [this]
      cases h2 : runAll bit (fun _ => L.stale0) (fun _ => L.stale1) (i + 1) cs with
      | none => rfl
      | some bs => rfl

theorem coeff0_const (c : BitVec 2) : coeff0 (constPoly c : Coeffs (2 ^ logN)) = c := by
  unfold coeff0 constPoly
  rw [dif_pos (Nat.two_pow_pos _)]
  rfl

theorem evalCircuits_plain (cs : List BitCircuit) (bit : Nat → Bool) (hl : cs.length = 32) :
    evalCircuits (plain logN L) cs bit
      = circuitWord cs bit (fun _ => L.stale0) (fun _ => L.stale1) := by
  unfold evalCircuits circuitWord
  rw [collect_runAll (L := L) bit cs 0]
  cases h : runAll bit (fun _ => L.stale0) (fun _ => L.stale1) 0 cs with
  | none => rfl
  | some bs =>
    simp only [Option.map_some]
    refine congrArg some ?_
    have hb := runAll_length _ _ _ cs 0 bs h
    apply pack_eq
    · rw [List.length_map, hb, hl]
    · intro i q hq
      rw [List.getElem?_map] at hq
      cases hi : bs[i]? with
      | none => rw [hi] at hq; cases hq
      | some b =>
        rw [hi] at hq
        cases hq
        have : i < 32 := by
          rw [← hl, ← hb]
          exact (List.getElem?_eq_some_iff.mp hi).1
        rw [coeff0_const]
        unfold bitCoeff
        rw [packBits_bit bs i this, hi]
        cases b <;> rfl

theorem helperGBit_plain (offsets : List Nat) : ∀ (data : List (BitVec 32)) (bit : Nat),
    helperGBit (plain logN L) offsets data bit = helperBit offsets data bit := by
  induction offsets with
  | nil => intro data bit; cases data <;> rfl
  | cons o os ih =>
    intro data bit
    cases data with
    | nil => rfl
    | cons d ds =>
      cases os with
      | nil => rfl
      | cons o' os => 
        simp only [helperGBit, helperBit]
        rw [← ih ds bit]

theorem ramOffset_plain (a b : BitVec 32) :
    ramOffset (plain logN L) a b = some (a + b - 0x40000#32) := by
  unfold ramOffset
  rw [evalCircuits_plain _ _ rfl, ← C18_ram_offset a b (fun _ => L.stale0) (fun _ => L.stale1)]
  unfold ramOffsetOp
  exact congrArg (fun f => circuitWord _ f _ _) (funext fun i => helperGBit_plain _ _ i)

theorem updatePc_plain (o : PcUpdate) (opid rs1 rs2 pc imm : BitVec 32)
    (h : opid.setWidth 4 = o.id.setWidth 4) :
    updatePc (plain logN L) rs1 rs2 pc imm opid
      = some (o.evalPlain ((imm.setWidth 20).signExtend 32) rs1 rs2 pc) := by
  unfold updatePc
  rw [evalCircuits_plain _ _ rfl,
    ← C19_next_pc o opid rs1 rs2 pc imm (fun _ => L.stale0) (fun _ => L.stale1) h]
  unfold updatePcOp
  exact congrArg (fun f => circuitWord _ f _ _) (funext fun i => helperGBit_plain _ _ i)

theorem lui_plain (a b : BitVec 32) :
    evalCircuits (plain logN L) Circuits.Lui.circuits (twoPreps (plain logN L) a b)
      = some (a <<< 12) := by
  rw [evalCircuits_plain _ _ rfl, ← C15_lui a b (fun _ => L.stale0) (fun _ => L.stale1)]
  rfl

theorem auipc_plain (a b : BitVec 32) :
    evalCircuits (plain logN L) Circuits.Auipc.circuits (twoPreps (plain logN L) a b)
      = some (a + b <<< 12) := by
  rw [evalCircuits_plain _ _ rfl, ← C16_auipc a b (fun _ => L.stale0) (fun _ => L.stale1)]
  rfl

theorem jalr_plain (a b : BitVec 32) :
    evalCircuits (plain logN L) Circuits.Jalr.circuits (twoPreps (plain logN L) a b)
      = some (a + 4#32) := by
  rw [evalCircuits_plain _ _ rfl, ← C17_link a b (fun _ => L.stale0) (fun _ => L.stale1)]
  rfl

/-! ### Register values -/

theorem toNat_and31 (n : BitVec 32) : (n &&& 31#32).toNat = n.toNat % 32 := by
  rw [BitVec.toNat_and]
  exact Nat.and_two_pow_sub_one_eq_mod n.toNat 5

theorem and31_and31 (n : BitVec 32) : (n &&& 0x1F#32) &&& 31#32 = n &&& 31#32 := by
  rw [BitVec.and_assoc]; rfl

theorem evalEnc_plain (o : RdUpdate) (ho : o ∈ rdUpdateRv32iOpList) (rs1 rs2 imm pc ram : BitVec 32) :
    RdUpdate.evalEnc (plain logN L) o rs1 rs2 imm pc ram
      = if o = .LB then some (ram &&& 0xFF#32) else o.evalPlain imm rs1 rs2 pc ram := by
  have b1 : (plain logN L).zeroByte ((plain logN L).zeroByte ((plain logN L).zeroByte ram 1) 2) 3
      = ram &&& 0xFF#32 := by
    show ram &&& _ &&& _ &&& _ = _
    rw [BitVec.and_assoc, BitVec.and_assoc]
    rfl
  have b2 : (plain logN L).zeroByte ((plain logN L).zeroByte ram 2) 3 = ram &&& 0xFFFF#32 := by
    show ram &&& _ &&& _ = _
    rw [BitVec.and_assoc]
    rfl
  have lh : (plain logN L).sextByte ((plain logN L).zeroByte ((plain logN L).zeroByte ram 2) 3) 1
      = (ram.setWidth 16).signExtend 32 := by
    rw [b2]
    show sextFromByte _ 1 = _
    have m : wordOf (fun _ => true) (8 * 1 + 8) = 0xFFFF#32 := by decide
    unfold sextFromByte
    rw [m]
    cases h : ram.getLsbD 15
    · rw [if_neg (by simpa using h)]
      bits32 <;> simpa using h
    · rw [if_pos (by simpa using h)]
      bits32 <;> simpa using h
  have sh (x n : BitVec 32) : wrappingShl x (n &&& 0x1F#32) = x <<< (n.toNat % 32) := by
    rw [wrappingShl, and31_and31, BitVec.shiftLeft_eq', toNat_and31]
  have sr (x n : BitVec 32) : wrappingShr x (n &&& 0x1F#32) = x >>> (n.toNat % 32) := by
    rw [wrappingShr, and31_and31, BitVec.ushiftRight_eq', toNat_and31]
  have sa (x n : BitVec 32) : wrappingSar x (n &&& 0x1F#32) = x.sshiftRight (n.toNat % 32) := by
    rw [wrappingSar, and31_and31, toNat_and31]
  have s12 (x : BitVec 32) : wrappingShl x 12#32 = x <<< 12 := rfl
  cases o <;> simp only [RdUpdate.evalEnc, RdUpdate.evalPlain, reduceCtorEq, if_false, if_true, sh,
    sr, sa, s12, lui_plain, auipc_plain, jalr_plain, sext15, BinOp.eval,
    BitVec.ushiftRight_eq', toNat_and31]
  all_goals first
    | exact congrArg some b1
    | exact congrArg some b2
    | exact congrArg some lh
    | exact absurd ho (by decide)

/-! ### Stored values -/

theorem toNat_and3 (n : BitVec 32) : (n &&& 3#32).toNat = n.toNat % 4 := by
  rw [BitVec.toNat_and]
  exact Nat.and_two_pow_sub_one_eq_mod n.toNat 2

theorem splice_u8 (i : Nat) (hi : i < 4) (a b : BitVec 32) :
    spliceByte i 0 a b = RamUpdate.SB.evalPlain b a (BitVec.ofNat 32 i) := by
  have : i = 0 ∨ i = 1 ∨ i = 2 ∨ i = 3 := by omega
  rcases this with rfl | rfl | rfl | rfl <;>
    simp only [spliceByte, byteAt, RamUpdate.evalPlain, BitVec.reduceEq, if_true, if_false]
  all_goals rw [BitVec.or_comm]; first | rfl | simp

theorem splice_u16 (i : Nat) (hi : i < 2) (a b : BitVec 32) :
    spliceHalf i 0 a b = RamUpdate.SH.evalPlain b a (BitVec.ofNat 32 (i <<< 1)) := by
  have : i = 0 ∨ i = 1 := by omega
  rcases this with rfl | rfl <;>
    simp only [spliceHalf, RamUpdate.evalPlain, Nat.reduceShiftLeft, BitVec.reduceEq, if_true, if_false]
  all_goals rw [BitVec.or_comm]; first | rfl | simp

theorem ramEvalEnc_plain (o : RamUpdate) (rs2 loaded p : BitVec 32) :
    RamUpdate.evalEnc (plain logN L) o rs2 loaded p = o.evalPlain rs2 loaded (p &&& 3#32) := by
  have hp : p &&& 3#32 = BitVec.ofNat 32 (p.toNat % 4) := by
    apply BitVec.eq_of_toNat_eq
    rw [toNat_and3, BitVec.toNat_ofNat]
    omega
  have hk : p.toNat / 2 ^ 0 % 2 ^ 2 = p.toNat % 4 := by simp
  have hlt : p.toNat % 4 < 4 := Nat.mod_lt _ (by omega)
  cases o with
  | NONE => rfl
  | SW => rfl
  | SB =>
    show lookupKey _ (p.toNat / 2 ^ 0 % 2 ^ 2) = _
    rw [hk, hp]
    generalize p.toNat % 4 = k at hlt
    rw [← splice_u8 k hlt loaded rs2]
    have : k = 0 ∨ k = 1 ∨ k = 2 ∨ k = 3 := by omega
    rcases this with rfl | rfl | rfl | rfl <;> rfl
  | SH =>
    show lookupKey _ (p.toNat / 2 ^ 0 % 2 ^ 2) = _
    rw [hk, hp]
    generalize p.toNat % 4 = k at hlt
    have : k = 0 ∨ k = 1 ∨ k = 2 ∨ k = 3 := by omega
    rcases this with rfl | rfl | rfl | rfl
    · exact splice_u16 0 (by omega) loaded rs2
    · rfl
    · exact splice_u16 1 (by omega) loaded rs2
    · rfl

/-! ### Association lists -/

theorem lookup_unique {α : Type} (ops : List α) (k : α → Nat) (v : α → BitVec 32)
    (inj : ∀ a ∈ ops, ∀ b ∈ ops, k a = k b → a = b) (a : α) (ha : a ∈ ops) :
    lookupKey (ops.map fun x => (k x, v x)) (k a) = v a := by
  unfold lookupKey
  cases h : (ops.map fun x => (k x, v x)).find? fun p => p.1 == k a with
  | none =>
    have := List.find?_eq_none.mp h (k a, v a) (List.mem_map.mpr ⟨a, ha, rfl⟩)
    simp at this
  | some q =>
    have h1 := List.find?_some h
    obtain ⟨b, hb, rfl⟩ := List.mem_map.mp (List.mem_of_find?_eq_some h)
    have : b = a := inj b hb a ha (by simpa using h1)
    rw [this]

theorem mapGet_some {α : Type} (ops : List α) (k : α → U32) (v : α → U32) (key r : U32)
    (h : mapGet (ops.map fun x => (k x, v x)) key = some r) :
    ∃ a ∈ ops, k a = key ∧ v a = r := by
  unfold mapGet at h
  cases hf : (ops.map fun x => (k x, v x)).reverse.find? fun p => p.1 == key with
  | none => rw [hf] at h; cases h
  | some q =>
    rw [hf] at h
    have h1 := List.find?_some hf
    obtain ⟨a, ha, rfl⟩ := List.mem_map.mp (List.mem_reverse.mp (List.mem_of_find?_eq_some hf))
    exact ⟨a, ha, by simpa using h1, Option.some.inj h⟩

theorem mapGet_unique {α : Type} (ops : List α) (k : α → U32) (v : α → U32)
    (inj : ∀ a ∈ ops, ∀ b ∈ ops, k a = k b → a = b) (a : α) (ha : a ∈ ops) :
    mapGet (ops.map fun x => (k x, v x)) (k a) = some (v a) := by
  unfold mapGet
  cases h : (ops.map fun x => (k x, v x)).reverse.find? fun p => p.1 == k a with
  | none =>
    have := List.find?_eq_none.mp h (k a, v a) (List.mem_reverse.mpr (List.mem_map.mpr ⟨a, ha, rfl⟩))
    simp at this
  | some q =>
    have h1 := List.find?_some h
    obtain ⟨b, hb, rfl⟩ := List.mem_map.mp (List.mem_reverse.mp (List.mem_of_find?_eq_some h))
    have : b = a := inj b hb a ha (by simpa using h1)
    rw [this]; rfl

theorem rdUpdate_inj : ∀ a b : RdUpdate, a.id = b.id → a = b := by
  intro a b; cases a <;> cases b <;> first | (intro _; rfl) | (intro h; exact absurd h (by decide))

theorem ramUpdate_inj : ∀ a b : RamUpdate, a.id = b.id → a = b := by
  intro a b; cases a <;> cases b <;> first | (intro _; rfl) | (intro h; exact absurd h (by decide))

theorem pcUpdate_inj : ∀ a b : PcUpdate, a.id = b.id → a = b := by
  intro a b; cases a <;> cases b <;> first | (intro _; rfl) | (intro h; exact absurd h (by decide))

theorem rv32i_plain_total (o : RdUpdate) (ho : o ∈ rdUpdateRv32iOpList) (imm rs1 rs2 pc ram : U32) :
    ∃ v, o.evalPlain imm rs1 rs2 pc ram = some v := by
  cases o <;> first
    | exact ⟨_, rfl⟩
    | exact ⟨_, sext15 ram⟩
    | exact ⟨_, sext7 ram⟩
    | exact absurd ho (by decide)

/-! ### Prepared words -/

theorem prepareCustom_id (u : BitVec 32) (c : Nat) (h : u.toNat < 2 ^ c) :
    ((plain logN L).prepareCustom u 0 c : BitVec 32) = u := by
  apply BitVec.eq_of_toNat_eq
  rw [prepareCustom_toNat, Nat.mod_eq_of_lt h]

theorem ofBits_id (u : BitVec 32) (c : Nat) (hc : c ≤ 32) (h : u.toNat < 2 ^ c) :
    (plain logN L).ofBits ((List.range c).map ((plain logN L).bootstrap u)
      ++ List.replicate (32 - c) (plain logN L).gzero) = u := by
  rw [plain_ofBits logN L u c hc]
  exact prepareCustom_id u c h

/-- Words that fit their field are prepared unchanged. -/
theorem prepareMultiple_id (threads : Nat) (ht : 0 < threads) (us : List (BitVec 32)) (cs : List Nat)
    (hl : us.length = cs.length) (hc : ∀ c ∈ cs, c ≤ 32) (hpos : 0 < cs.sum)
    (h : ∀ (i : Nat) u c, us[i]? = some u → cs[i]? = some c → u.toNat < 2 ^ c) :
    prepareMultiple (plain logN L) threads us cs = some us := by
  rw [prepareMultiple_eq (plain logN L) threads ht us cs hl hc hpos]
  refine congrArg some ?_
  apply List.ext_getElem?
  intro i
  rw [List.getElem?_zipWith]
  cases hu : us[i]? with
  | none => cases cs[i]? <;> rfl
  | some u =>
    cases hcs : cs[i]? with
    | none =>
      have := (List.getElem?_eq_some_iff.mp hu).1
      rw [List.getElem?_eq_none_iff] at hcs
      omega
    | some c => exact congrArg some (ofBits_id u c (hc c (List.mem_of_getElem? hcs)) (h i u c hu hcs))

theorem refresh_plain (u : BitVec 32) : refresh (plain logN L) u = u :=
  prepareCustom_id (logN := logN) (L := L) u 32 u.isLt

end Verif.Model
