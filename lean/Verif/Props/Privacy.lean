import Verif.Lemmas.Hybrid
import Mathlib.Algebra.Order.BigOperators.Group.Finset
import Mathlib.Algebra.Order.Ring.Rat
import Verif.Props.Sources
import Verif.Props.EndToEnd
/-
  C76: privacy of a set-up reduces to that of one ciphertext.
-/
namespace Verif.Props
open Model Spec Lemmas

variable {B : Backend}

theorem memory_eq {C : Cipher B} {rand : Nat → Nat → C.Rand} {size : Nat} {m0 m : Memory B} {data : List Word}
    (ha : Memory.alloc B 32 size = some m0) (h : m0.encrypt C rand data = some m) :
    m = memoryOf size fun (i : Fin 32) (j : Fin (divCeil size (2 ^ B.logN))) =>
      C.enc (rand i j) (Spec.slice (2 ^ B.logN) size (fun x => (data[x]?).getD 0#32) i j) := by
  unfold Memory.alloc at ha
  by_cases h0 : size = 0
  · rw [if_pos h0] at ha; cases ha
  rw [if_neg h0] at ha
  have ha := (Option.some.inj ha).symm
  subst ha
  unfold Memory.encrypt at h
  rw [if_neg (by rw [List.length_replicate]; decide)] at h
  split at h
  · have h := (Option.some.inj h).symm
    subst h
    unfold memoryOf
    simp only [Memory.mk.injEq, and_true]
    refine List.ext_getElem (by simp) fun i h1 h2 => ?_
    have hi : i < 32 := by simpa using h2
    simp only [List.getElem_mapIdx, List.getElem_replicate, List.getElem_ofFn]
    unfold BitArray.encrypt BitArray.alloc
    simp only [BitArray.mk.injEq, and_true]
    refine List.ext_getElem (by simp) fun j h3 h4 => ?_
    have hj : j < divCeil size (2 ^ B.logN) := by simpa using h4
    simp only [List.getElem_mapIdx, List.getElem_replicate, List.getElem_ofFn]
    rw [if_pos (by simpa [bitBuffer] using hj)]
    congr 1
    funext k
    unfold Spec.slice bitBuffer bitCoeff
    by_cases hk : j * 2 ^ B.logN + k.val < size
    · cases hd : data[j * 2 ^ B.logN + k.val]? <;> simp [hk, hd]
    · rw [if_neg (fun h => hk h.1), List.getElem?_eq_none_iff.mpr (by simp; omega)]; rfl
  · cases h

/-- A set-up is a public assembly of encryptions: place by place, one bit of a stretch of words, encrypted with randomness
of its own; nothing else in the interpreter depends on the program or the data. -/
theorem C76_assembled (C : Cipher B) (r0 : C.Rand) (dbg : Bool) (romSize ramSize threads : Nat) (p : Parser)
    (data : List Word) (ds : List Decoded) (hd : decodeProgram dbg p = some ds)
    (w : Place (divCeil romSize (2 ^ B.logN)) (divCeil ramSize (2 ^ B.logN)) → C.Rand) (vm : Interp B)
    (h : Interp.load C (spread r0 w) dbg romSize ramSize threads p data = some vm) :
    vm = assemble B romSize ramSize threads fun x => C.enc (w x) (content (2 ^ B.logN) romSize ramSize ds data x) := by
  unfold Interp.load Interp.new at h
  obtain ⟨vm0, h0, h⟩ := Option.bind_eq_some_iff.mp h
  obtain ⟨rom0, hr, h0⟩ := Option.bind_eq_some_iff.mp h0
  obtain ⟨regs0, hg, h0⟩ := Option.bind_eq_some_iff.mp h0
  obtain ⟨ram0, ha, h0⟩ := Option.map_eq_some_iff.mp h0
  subst h0
  obtain ⟨vm1, h1, h⟩ := Option.bind_eq_some_iff.mp h
  obtain ⟨vm2, h2, h⟩ := Option.map_eq_some_iff.mp h
  subst h
  unfold Interp.encryptInstructions at h1
  simp only at h1
  by_cases hl : romSize < p.instructions.length
  · rw [if_pos hl] at h1; cases h1
  rw [if_neg hl, hd, Option.bind_some] at h1
  obtain ⟨r0', e0, h1⟩ := Option.bind_eq_some_iff.mp h1
  obtain ⟨r1, e1, h1⟩ := Option.bind_eq_some_iff.mp h1
  obtain ⟨r2, e2, h1⟩ := Option.bind_eq_some_iff.mp h1
  obtain ⟨r3, e3, h1⟩ := Option.bind_eq_some_iff.mp h1
  obtain ⟨r4, e4, h1⟩ := Option.bind_eq_some_iff.mp h1
  obtain ⟨r5, e5, h1⟩ := Option.bind_eq_some_iff.mp h1
  obtain ⟨r6, e6, h1⟩ := Option.map_eq_some_iff.mp h1
  subst h1
  unfold Interp.encryptRam at h2
  split at h2
  · obtain ⟨m7, e7, h2⟩ := Option.map_eq_some_iff.mp h2
    subst h2
    have col : ∀ (c : Fin 7) (m : Memory B), rom0.encrypt C (spread r0 w c)
        ((List.range romSize).map fun i => (ds[i]?).elim 0#32 (column c)) = some m →
        m = memoryOf romSize fun (i : Fin 32) (j : Fin (divCeil romSize (2 ^ B.logN))) =>
          C.enc (w (.inl (c, i, j))) (content (2 ^ B.logN) romSize ramSize
            (b := divCeil ramSize (2 ^ B.logN)) ds data (.inl (c, i, j))) := by
      intro c m hm
      rw [memory_eq hr hm]
      congr 1; funext i j
      have e1 : spread r0 w c i j = w (.inl (c, i, j)) := by
        unfold spread; rw [dif_pos ⟨c.isLt, i.isLt, j.isLt⟩]
      rw [e1]
      congr 1
      funext k
      unfold content Spec.slice
      by_cases hk : j.val * 2 ^ B.logN + k.val < romSize
      · simp [hk]
      · simp [hk]
    have hram : m7 = memoryOf ramSize fun (i : Fin 32) (j : Fin (divCeil ramSize (2 ^ B.logN))) =>
        C.enc (w (.inr (i, j))) (content (2 ^ B.logN) romSize ramSize
          (a := divCeil romSize (2 ^ B.logN)) ds data (.inr (i, j))) := by
      rw [memory_eq ha e7]
      congr 1; funext i j
      have e1 : spread r0 w 7 i j = w (.inr (i, j)) := by
        unfold spread; rw [dif_neg (by simp), dif_pos ⟨rfl, i.isLt, j.isLt⟩]
      rw [e1]; rfl
    have hregs : regs0 = memoryOf 32 fun (_ : Fin 32) (_ : Fin (divCeil 32 (2 ^ B.logN))) => B.glweZero := by
      unfold Memory.alloc at hg
      rw [if_neg (by decide)] at hg
      have hg := (Option.some.inj hg).symm
      subst hg
      unfold memoryOf BitArray.alloc
      rw [List.ofFn_const, List.ofFn_const]
    unfold assemble
    simp only [Interp.mk.injEq, true_and, and_true]
    exact ⟨col 3 _ e3, col 0 _ e0, col 1 _ e1, col 2 _ e2, col 4 _ e4, col 5 _ e5, col 6 _ e6, hregs, hram⟩
  · cases h2

/-- The chance of a test on a set-up with fresh randomness at every place. -/
def setupChance (C : Cipher B) [Fintype C.Rand] (r0 : C.Rand) (dbg : Bool) (romSize ramSize threads : Nat) (p : Parser)
    (data : List Word) (D : Interp B → ℚ) : ℚ :=
  mean fun w : Place (divCeil romSize (2 ^ B.logN)) (divCeil ramSize (2 ^ B.logN)) → C.Rand =>
    (Interp.load C (spread r0 w) dbg romSize ramSize threads p data).elim 0 D

/-- What the test derived from `D` for the place `x` finds out about the one ciphertext there. -/
noncomputable def leak (C : Cipher B) [Fintype C.Rand] (romSize ramSize threads : Nat) (ds ds' : List Decoded) (data data' : List Word)
    (D : Interp B → ℚ) (a b : Nat) (x : Place a b) : ℚ :=
  gain C.enc (content (2 ^ B.logN) romSize ramSize ds data x) (content (2 ^ B.logN) romSize ramSize ds' data' x)
    (only (order a b) C.enc (content (2 ^ B.logN) romSize ramSize ds data) (content (2 ^ B.logN) romSize ramSize ds' data')
      (fun ct => D (assemble B romSize ramSize threads ct)) x)

theorem setupChance_eq (C : Cipher B) [Fintype C.Rand] (r0 : C.Rand) (dbg : Bool) (romSize ramSize threads : Nat) (p : Parser)
    (data : List Word) (ds : List Decoded) (hd : decodeProgram dbg p = some ds) (h1 : 0 < romSize) (h2 : 0 < ramSize)
    (h3 : ds.length ≤ romSize) (h4 : data.length ≤ ramSize) (D : Interp B → ℚ) :
    setupChance C r0 dbg romSize ramSize threads p data D =
      chance C.enc (content (a := divCeil romSize (2 ^ B.logN)) (b := divCeil ramSize (2 ^ B.logN)) (2 ^ B.logN) romSize ramSize
        ds data) fun ct => D (assemble B romSize ramSize threads ct) := by
  unfold setupChance chance
  congr 1; funext w
  obtain ⟨vm, hv⟩ := load_total (C := C) (rand := spread r0 w) dbg romSize ramSize threads p ds data hd h1 h2 h3 h4
  rw [hv, C76_assembled C r0 dbg romSize ramSize threads p data ds hd w vm hv]
  rfl

/-- The reduction.  Whatever a test finds out about which of two programs and data were set up, it is the sum of what the
tests derived from it find out about single ciphertexts.  A test may look at the whole interpreter, and so at everything
an evaluator computes from it in any number of cycles. -/
theorem C76_reduction (C : Cipher B) [Fintype C.Rand] (r0 : C.Rand) (dbg dbg' : Bool) (romSize ramSize threads : Nat)
    (p p' : Parser) (data data' : List Word) (ds ds' : List Decoded) (hd : decodeProgram dbg p = some ds)
    (hd' : decodeProgram dbg' p' = some ds') (h1 : 0 < romSize) (h2 : 0 < ramSize) (h3 : ds.length ≤ romSize)
    (h3' : ds'.length ≤ romSize) (h4 : data.length ≤ ramSize) (h4' : data'.length ≤ ramSize) (D : Interp B → ℚ)
    (a b : Nat) (ha : a = divCeil romSize (2 ^ B.logN)) (hb : b = divCeil ramSize (2 ^ B.logN)) :
    setupChance C r0 dbg romSize ramSize threads p data D - setupChance C r0 dbg' romSize ramSize threads p' data' D =
      ∑ x, leak C romSize ramSize threads ds ds' data data' D a b x := by
  subst ha; subst hb
  have : Nonempty C.Rand := ⟨r0⟩
  rw [setupChance_eq C r0 dbg romSize ramSize threads p data ds hd h1 h2 h3 h4,
    setupChance_eq C r0 dbg' romSize ramSize threads p' data' ds' hd' h1 h2 h3' h4']
  exact chance_sub _ _ _ _ _

/-- Nothing leaks where the plaintexts agree. -/
theorem C76_same (C : Cipher B) [Fintype C.Rand] (romSize ramSize threads : Nat) (ds ds' : List Decoded) (data data' : List Word)
    (D : Interp B → ℚ) (a b : Nat) (x : Place a b)
    (h : content (2 ^ B.logN) romSize ramSize ds data x = content (2 ^ B.logN) romSize ramSize ds' data' x) :
    leak C romSize ramSize threads ds ds' data data' D a b x = 0 := by
  unfold leak gain
  rw [h]; exact sub_self _

theorem card_place (a b : Nat) : Fintype.card (Place a b) = 32 * (7 * a + b) := by
  simp only [Place, Fintype.card_sum, Fintype.card_prod, Fintype.card_fin]
  ring

/-- If no derived test on one ciphertext gains more than `ε`, then the test on the set-up gains at most `ε` for each of the
`32 * (7 * a + b)` places, and at most `ε` for each of the `32 * b` places of the RAM if the programs are the same. -/
theorem C76_bound (C : Cipher B) [Fintype C.Rand] (r0 : C.Rand) (dbg dbg' : Bool) (romSize ramSize threads : Nat)
    (p p' : Parser) (data data' : List Word) (ds ds' : List Decoded) (hd : decodeProgram dbg p = some ds)
    (hd' : decodeProgram dbg' p' = some ds') (h1 : 0 < romSize) (h2 : 0 < ramSize) (h3 : ds.length ≤ romSize)
    (h3' : ds'.length ≤ romSize) (h4 : data.length ≤ ramSize) (h4' : data'.length ≤ ramSize) (D : Interp B → ℚ)
    (a b : Nat) (ha : a = divCeil romSize (2 ^ B.logN)) (hb : b = divCeil ramSize (2 ^ B.logN)) (ε : ℚ)
    (hε : ∀ x, |leak C romSize ramSize threads ds ds' data data' D a b x| ≤ ε) :
    |setupChance C r0 dbg romSize ramSize threads p data D - setupChance C r0 dbg' romSize ramSize threads p' data' D|
      ≤ (32 * (7 * a + b) : Nat) * ε ∧
    (ds = ds' →
      |setupChance C r0 dbg romSize ramSize threads p data D - setupChance C r0 dbg' romSize ramSize threads p' data' D|
        ≤ (32 * b : Nat) * ε) := by
  rw [C76_reduction C r0 dbg dbg' romSize ramSize threads p p' data data' ds ds' hd hd' h1 h2 h3 h3' h4 h4' D a b ha hb]
  constructor
  · refine (Finset.abs_sum_le_sum_abs _ _).trans ((Finset.sum_le_sum fun x _ => hε x).trans (le_of_eq ?_))
    rw [Finset.sum_const, Finset.card_univ, card_place, nsmul_eq_mul]
  · rintro rfl
    unfold Place at *
    rw [Fintype.sum_sum_type, Finset.sum_eq_zero fun x _ => C76_same C romSize ramSize threads ds ds data data' D a b (.inl x) rfl,
      zero_add]
    refine (Finset.abs_sum_le_sum_abs _ _).trans ((Finset.sum_le_sum fun x _ => hε (.inr x)).trans (le_of_eq ?_))
    rw [Finset.sum_const, Finset.card_univ, nsmul_eq_mul]
    simp

/-- If encryptions of different plaintexts cannot be told apart at all, neither can set-ups of equal sizes, nor anything
computed from them. -/
theorem C76_perfect (C : Cipher B) [Fintype C.Rand] (r0 : C.Rand) (dbg dbg' : Bool) (romSize ramSize threads : Nat)
    (p p' : Parser) (data data' : List Word) (ds ds' : List Decoded) (hd : decodeProgram dbg p = some ds)
    (hd' : decodeProgram dbg' p' = some ds') (h1 : 0 < romSize) (h2 : 0 < ramSize) (h3 : ds.length ≤ romSize)
    (h3' : ds'.length ≤ romSize) (h4 : data.length ≤ ramSize) (h4' : data'.length ≤ ramSize)
    (hC : ∀ x y (T : B.Glwe → ℚ), mean (fun r => T (C.enc r x)) = mean (fun r => T (C.enc r y))) (D : Interp B → ℚ) :
    setupChance C r0 dbg romSize ramSize threads p data D = setupChance C r0 dbg' romSize ramSize threads p' data' D := by
  rw [← sub_eq_zero, C76_reduction C r0 dbg dbg' romSize ramSize threads p p' data data' ds ds' hd hd' h1 h2 h3 h3' h4 h4' D _ _ rfl rfl]
  exact Finset.sum_eq_zero fun x _ => sub_eq_zero.mpr (hC _ _ _)

/-- Over a random key: for every key its own library and encryption, with the same degree.  What a test gains on average over
the keys is the sum over the places of what the derived tests gain on average over the keys. -/
theorem C76_keys {K : Type} [Fintype K] (logN : Nat) (B : K → Backend) (C : ∀ k, Cipher (B k)) [∀ k, Fintype (C k).Rand]
    (r0 : ∀ k, (C k).Rand) (hN : ∀ k, (B k).logN = logN) (dbg dbg' : Bool) (romSize ramSize threads : Nat)
    (p p' : Parser) (data data' : List Word) (ds ds' : List Decoded) (hd : decodeProgram dbg p = some ds)
    (hd' : decodeProgram dbg' p' = some ds') (h1 : 0 < romSize) (h2 : 0 < ramSize) (h3 : ds.length ≤ romSize)
    (h3' : ds'.length ≤ romSize) (h4 : data.length ≤ ramSize) (h4' : data'.length ≤ ramSize) (D : ∀ k, Interp (B k) → ℚ) :
    mean (fun k => setupChance (C k) (r0 k) dbg romSize ramSize threads p data (D k)) -
      mean (fun k => setupChance (C k) (r0 k) dbg' romSize ramSize threads p' data' (D k)) =
      ∑ x, mean fun k => leak (C k) romSize ramSize threads ds ds' data data' (D k) (divCeil romSize (2 ^ logN))
        (divCeil ramSize (2 ^ logN)) x := by
  rw [mean_sub]
  unfold mean
  rw [← Finset.sum_div, Finset.sum_comm]
  congr 1
  exact Finset.sum_congr rfl fun k _ =>
    C76_reduction (C k) (r0 k) dbg dbg' romSize ramSize threads p p' data data' ds ds' hd hd' h1 h2 h3 h3' h4 h4' (D k) _ _
      (by rw [hN k]) (by rw [hN k])

/-- None of this helps the code as it stands, which takes all randomness from constant seeds: one and the same test tells any
two different RAM contents apart with certainty, whatever the programs. -/
theorem C76_code {K : Keyed B} {step : K.Src × K.Src → K.Src × K.Src} (hst : K.Steady step) (hK : K.Correct)
    (romSize ramSize threads : Nat) (data data' : List Word)
    (hne : data ++ List.replicate (ramSize - data.length) 0#32 ≠ data' ++ List.replicate (ramSize - data'.length) 0#32) :
    ∃ D : Interp B → ℚ, ∀ dbg p r,
      (K.setup dbg romSize ramSize threads p data = some r → D r.interp = 1) ∧
      (K.setup dbg romSize ramSize threads p data' = some r → D r.interp = 0) := by
  have key : ∀ dbg p data r, K.setup dbg romSize ramSize threads p data = some r →
      K.anyoneRam ramSize r.interp = some (data ++ List.replicate (ramSize - data.length) 0#32) := by
    intro dbg p data r h
    have hl := C67_set_up hst dbg romSize ramSize threads p data
    rw [h, Option.map_some] at hl
    obtain ⟨-, -, ds, -, -, hds, -, -, -, -, -⟩ := load_parts hl.symm
    exact (C67_anyone_decrypts hst hK dbg romSize ramSize threads p _ ds r hds h).1
  exact ⟨fun vm => if K.anyoneRam ramSize vm = some (data ++ List.replicate (ramSize - data.length) 0#32) then 1 else 0,
    fun dbg p r => ⟨fun h => if_pos (key dbg p data r h),
      fun h => if_neg fun e => hne (Option.some.inj (e.symm.trans (key dbg p data' r h)))⟩⟩

/-! ### Non-vacuity -/

/-- The one-time pad on plaintexts: it hides everything, and cannot be computed with. -/
@[reducible] def padCipher (logN : Nat) (L : Lib (2 ^ logN)) : Cipher (plain logN L) where
  Rand := Fin (2 ^ logN) → Fin 4
  enc r p := fun k => BitVec.ofFin (r k) + p k
  dec c := c

theorem padCipher_hides (logN : Nat) (L : Lib (2 ^ logN)) (x y : Coeffs (2 ^ logN)) (T : Coeffs (2 ^ logN) → ℚ) :
    mean (fun r => T ((padCipher logN L).enc r x)) = mean (fun r => T ((padCipher logN L).enc r y)) := by
  unfold mean
  congr 1
  have bij : Function.Bijective fun (r : Fin (2 ^ logN) → Fin 4) k => (BitVec.ofFin (r k) + x k - y k).toFin := by
    constructor
    · intro r r' h
      funext k
      have := congrFun h k
      have h2 := congrArg BitVec.ofFin this
      have h3 : BitVec.ofFin (w := 2) (r k) = BitVec.ofFin (r' k) := by
        have h4 : BitVec.ofFin (w := 2) (r k) + x k - y k = BitVec.ofFin (r' k) + x k - y k := h2
        generalize BitVec.ofFin (w := 2) (r k) = u at *
        generalize BitVec.ofFin (w := 2) (r' k) = v at *
        generalize x k = a at *
        generalize y k = b at *
        clear h this h2
        revert u v a b; decide
      exact congrArg BitVec.toFin h3
    · intro r
      refine ⟨fun k => (BitVec.ofFin (r k) - x k + y k).toFin, ?_⟩
      funext k
      show (BitVec.ofFin (w := 2) (r k) - x k + y k + x k - y k).toFin = r k
      have : BitVec.ofFin (w := 2) (r k) - x k + y k + x k - y k = BitVec.ofFin (r k) := by
        generalize BitVec.ofFin (w := 2) (r k) = u
        generalize x k = a
        generalize y k = b
        revert u a b; decide
      rw [this]
  refine Fintype.sum_bijective _ bij _ _ fun r => congrArg T ?_
  funext k
  show BitVec.ofFin (w := 2) (r k) + x k = BitVec.ofFin (w := 2) (r k) + x k - y k + y k
  generalize BitVec.ofFin (w := 2) (r k) = u
  generalize x k = a
  generalize y k = b
  revert u a b; decide

/-- With the one-time pad no test tells the input 7 from the input 9; with no encryption at all one does with certainty. -/
example : ∃ p, Parser.new.addAll true [0x00500093#32] = some p ∧
    (∀ D, setupChance (padCipher 2 (sampleLib _)) (fun _ => 0) true 1 2 3 p [7#32] D =
      setupChance (padCipher 2 (sampleLib _)) (fun _ => 0) true 1 2 3 p [9#32] D) ∧
    ∃ D, setupChance (plainCipher (logN := 2) (sampleLib _)) () true 1 2 3 p [7#32] D = 1 ∧
      setupChance (plainCipher (logN := 2) (sampleLib _)) () true 1 2 3 p [9#32] D = 0 := by
  have h1 : (Parser.new.addAll true [0x00500093#32]).isSome = true := by decide +kernel
  obtain ⟨p, hp⟩ := Option.isSome_iff_exists.mp h1
  obtain ⟨ds, hd, hds⟩ := decodeProgram_words true _ p hp
  have hl : ds.length ≤ 1 := by
    have := congrArg List.length hds
    simp only [List.length_map, List.length_cons, List.length_nil] at this
    omega
  refine ⟨p, hp, fun D => C76_perfect _ _ true true 1 2 3 p p _ _ ds ds hd hd (by decide) (by decide) hl hl (by decide)
    (by decide) (padCipher_hides 2 _) D, ?_⟩
  refine ⟨fun vm => if vm.decryptRam (plainCipher (logN := 2) (sampleLib _)) [0#32, 0#32] = some [7#32, 0#32] then 1 else 0, ?_⟩
  have key : ∀ x : Word, ∃ vm, vm.decryptRam (plainCipher (logN := 2) (sampleLib _)) [0#32, 0#32] = some [x, 0#32] ∧
      ∀ D, setupChance (plainCipher (logN := 2) (sampleLib _)) () true 1 2 3 p [x] D = D vm := by
    intro x
    obtain ⟨vm, hvm⟩ := load_total (C := plainCipher (logN := 2) (sampleLib _)) (rand := fun _ _ _ => ()) true 1 2 3 p ds [x] hd
      (by decide) (by decide) hl (by decide : 1 ≤ 2)
    refine ⟨vm, ?_, fun D => ?_⟩
    · have hr := Fhe.runs_of_load (F := plainFhe 2 (sampleLib _)) (rand := fun _ _ _ => ()) (by decide) hd hvm
      exact (C29_observe (plainFhe 2 (sampleLib _)) vm _ hr.1).2.1 [0#32, 0#32] rfl
    · unfold setupChance
      have e : ∀ w : Place (divCeil 1 (2 ^ 2)) (divCeil 2 (2 ^ 2)) → Unit,
          (Interp.load (plainCipher (logN := 2) (sampleLib _)) (spread () w) true 1 2 3 p [x]).elim 0 D = D vm := by
        intro w
        rw [show spread () w = fun _ _ _ => () from rfl, hvm]; rfl
      exact (congrArg mean (funext e)).trans (mean_const _)
  obtain ⟨v, hv, hv'⟩ := key 7#32
  obtain ⟨v2, hv2, hv2'⟩ := key 9#32
  rw [hv', hv2']
  simp only [hv, hv2]
  decide

end Verif.Props
