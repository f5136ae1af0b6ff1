import Verif.Lemmas.Witness
import Verif.Spec.Mem
/-
  Encrypted memories (fhevm/src/memory.rs): C21-C28, C50.

  All statements are about an arbitrary correct library `F : Fhe` (any ring degree, any network, any
  relation between ciphertexts and plaintexts preserved by the operations).
-/
namespace Verif.Props
open Model Spec

/-! ### C50: address width -/

/-- The number of address bits is the least `b` with `size ≤ 2^b`. -/
theorem C50_least_width (size : Nat) :
    size ≤ 2 ^ bitsFor size ∧ ∀ b, size ≤ 2 ^ b → bitsFor size ≤ b :=
  ⟨le_two_pow_bitsFor size, fun b h => bitsFor_le size b h⟩

/-- Every valid index fits, and the largest one does not fit in fewer bits. -/
theorem C50_every_index (size i : Nat) (h : i < size) : i < 2 ^ bitsFor size :=
  Nat.lt_of_lt_of_le h (le_two_pow_bitsFor size)

theorem C50_tight (size b : Nat) (hb : b < bitsFor size) : ∃ i, i < size ∧ ¬ i < 2 ^ b := by
  refine ⟨2 ^ b, ?_, by omega⟩
  rcases Nat.lt_or_ge (2 ^ b) size with h | h
  · exact h
  · have := bitsFor_le size b h
    omega

example : bitsFor 1 = 0 ∧ bitsFor 32 = 5 ∧ bitsFor 33 = 6 ∧ bitsFor 1024 = 10 := by decide

/-! ### C27: threads -/

/-- Every index is handled exactly once, in any number of threads. -/
theorem C27_partition (threads len : Nat) (ht : 0 < threads) (hl : 0 < len) :
    threadOrder threads len = some (List.range len) := threadOrder_eq threads len ht hl

/-- The result is the same in whatever order the tasks run. -/
theorem C27_interleaving {α : Type} (f : Nat → α → α) (xs : List α) (order : List Nat)
    (h : order.Perm (List.range xs.length)) :
    runTasks order f xs = runTasks (List.range xs.length) f xs := by
  rw [runTasks_perm f order xs h, runTasks_perm f _ xs (List.Perm.refl _)]

theorem parallel_threads {α : Type} (f : Nat → α → α) (xs : List α) (t t' : Nat) (ht : 0 < t)
    (ht' : 0 < t') : parallel t f xs = parallel t' f xs := by
  cases xs with
  | nil =>
    have h : ∀ t, divCeil 0 t = 0 := by
      intro t
      unfold divCeil
      rcases Nat.eq_zero_or_pos t with h | h
      · subst h
        rfl
      · exact Nat.div_eq_of_lt (by omega)
    have e : ∀ t, threadOrder t 0 = none := by
      intro t
      unfold threadOrder
      simp [h]
    simp [parallel, e]
  | cons a l =>
    rw [parallel_eq t f _ ht (by simp), parallel_eq t' f _ ht' (by simp)]

/-- Reads, writes and zeroing give the same result with any number of threads, for any library. -/
theorem C27_memory (B : Backend) (m : Memory B) (t t' : Nat) (ht : 0 < t) (ht' : 0 < t')
    (w : B.Uint) (p : B.Prep) (offset addr : Nat) :
    m.readStateless t p offset = m.readStateless t' p offset ∧
    m.readStatefull t p offset = m.readStatefull t' p offset ∧
    m.readStatefullRev t w p offset = m.readStatefullRev t' w p offset ∧
    m.write t w p offset = m.write t' w p offset ∧
    m.zero t addr = m.zero t' addr := by
  unfold Memory.readStateless Memory.readStatefull Memory.readStatefullRev Memory.write Memory.zero
  refine ⟨?_, ?_, ?_, ?_, ?_⟩
  · rw [parallel_threads _ _ t t' ht ht']
  · rw [parallel_threads _ _ t t' ht ht']
  · rw [parallel_threads _ _ t t' ht ht']
  · rw [parallel_threads _ _ t t' ht ht']
  · simp only
    rw [parallel_threads _ _ t t' ht ht']

example : threadOrder 3 32 = some (List.range 32) ∧ threadOrder 40 32 = some (List.range 32) ∧
    threadOrder 0 32 = none := by decide

/-! ### C21: encryption round trip -/

/-- What is decrypted is what was encrypted, zero-extended to the memory size; for any library whose
decryption undoes its encryption.  The caller's buffer contents are irrelevant. -/
theorem C21_round_trip (B : Backend) (C : Cipher B) (hC : ∀ r p, C.dec (C.enc r p) = p)
    (rand : Nat → Nat → C.Rand) (size : Nat) (hs : 0 < size) (data out : List (BitVec 32))
    (hd : data.length ≤ size) (ho : out.length = size) :
    ∃ m0 m, Memory.alloc B 32 size = some m0 ∧ m0.encrypt C rand data = some m ∧
      m.decrypt C out = some (data ++ List.replicate (size - data.length) 0#32) := by
  have e0 : ∃ m0, Memory.alloc B 32 size = some m0 ∧ m0.bits.length = 32 ∧ m0.size = size := by
    unfold Memory.alloc
    rw [if_neg (by omega)]
    exact ⟨_, rfl, List.length_replicate, rfl⟩
  obtain ⟨m0, e0, hb, hsz⟩ := e0
  have e1 : ∃ m, m0.encrypt C rand data = some m := by
    unfold Memory.encrypt
    rw [hb, if_neg (by omega), if_pos (by
      rw [hsz]
      exact Nat.le_trans (Nat.div_le_self _ _) hd)]
    exact ⟨_, rfl⟩
  obtain ⟨m, e1⟩ := e1
  obtain ⟨h1, h2, h3, h4, h5, h6⟩ := Memory.encrypt_content C hC rand 32 size data m0 m e0 e1
  refine ⟨m0, m, e0, e1, ?_⟩
  rw [← padTo_eq size data hd]
  exact Memory.decrypt_eq C m _ out h4 (by rw [padTo_length, h2]) (by rw [padTo_length, ho]) h6

/-- The length check of `encrypt_sk` is weak: up to `32 * size + 31` words are accepted, and the
excess is silently dropped. -/
theorem C21_excess_dropped (B : Backend) (C : Cipher B) (hC : ∀ r p, C.dec (C.enc r p) = p)
    (rand : Nat → Nat → C.Rand) (size : Nat) (hs : 0 < size) (data out : List (BitVec 32))
    (hd : size ≤ data.length) (hd' : data.length ≤ 32 * size + 31) (ho : out.length = size) :
    ∃ m0 m, Memory.alloc B 32 size = some m0 ∧ m0.encrypt C rand data = some m ∧
      m.decrypt C out = some (data.take size) := by
  have e0 : ∃ m0, Memory.alloc B 32 size = some m0 ∧ m0.bits.length = 32 ∧ m0.size = size := by
    unfold Memory.alloc
    rw [if_neg (by omega)]
    exact ⟨_, rfl, List.length_replicate, rfl⟩
  obtain ⟨m0, e0, hb, hsz⟩ := e0
  have e1 : ∃ m, m0.encrypt C rand data = some m := by
    unfold Memory.encrypt
    rw [hb, if_neg (by omega), if_pos (by rw [hsz]; omega)]
    exact ⟨_, rfl⟩
  obtain ⟨m, e1⟩ := e1
  obtain ⟨h1, h2, h3, h4, h5, h6⟩ := Memory.encrypt_content C hC rand 32 size data m0 m e0 e1
  refine ⟨m0, m, e0, e1, ?_⟩
  have e2 : padTo size data = data.take size := by
    apply List.ext_getElem?
    intro a
    by_cases ha : a < size
    · rw [padTo_getElem? _ _ _ ha, List.getElem?_take_of_lt ha,
        List.getElem?_eq_getElem (by omega)]
      rfl
    · rw [List.getElem?_eq_none (by rw [padTo_length]; omega), List.getElem?_eq_none]
      rw [List.length_take]
      omega
  rw [← e2]
  exact Memory.decrypt_eq C m _ out h4 (by rw [padTo_length, h2]) (by rw [padTo_length, ho]) h6

/-- A memory of `data` encrypted in a memory of `size` words (`Interpreter::ram_encrypt_sk`,
`init_registers`, `instructions_encrypt_sk`). -/
def encrypted (F : Fhe) (rand : Nat → Nat → F.C.Rand) (size : Nat) (data : List (BitVec 32)) :
    Option (Memory F.B) :=
  (Memory.alloc F.B 32 size).bind fun m => m.encrypt F.C rand data

theorem encrypted_holds {F : Fhe} {rand : Nat → Nat → F.C.Rand} {size : Nat}
    {data : List (BitVec 32)} {m : Memory F.B} (h : encrypted F rand size data = some m) :
    F.Holds m (padTo size data) := by
  unfold encrypted at h
  obtain ⟨m0, e0, e1⟩ := Option.bind_eq_some_iff.mp h
  exact Fhe.holds_of_encrypt rand size data m0 m e0 e1

theorem padTo_self (data : List (BitVec 32)) : padTo data.length data = data := by
  rw [padTo_eq _ _ (Nat.le_refl _)]
  simp

theorem encrypted_self {F : Fhe} {rand : Nat → Nat → F.C.Rand} {data : List (BitVec 32)}
    {m : Memory F.B} (h : encrypted F rand data.length data = some m) : F.Holds m data := by
  have := encrypted_holds h
  rwa [padTo_self] at this

example : ∃ m, encrypted sampleFhe (fun _ _ => ()) 6 [1#32, 2#32, 3#32, 0xFFFFFFFF#32, 5#32, 6#32]
      = some m ∧
    m.decrypt sampleFhe.C (List.replicate 6 7#32)
      = some [1#32, 2#32, 3#32, 0xFFFFFFFF#32, 5#32, 6#32] := by
  refine ⟨_, rfl, ?_⟩
  decide +kernel

/-! ### C22: reads -/

/-- A read at encrypted address `addr` returns an encryption of the addressed word (`offset` low
address bits are ignored).  The read does not produce a new memory: it leaves it as it was. -/
theorem C22_read (F : Fhe) (rand : Nat → Nat → F.C.Rand) (data : List (BitVec 32)) (m : Memory F.B)
    (hm : encrypted F rand data.length data = some m) (threads : Nat) (ht : 0 < threads)
    (p : F.B.Prep) (addr : BitVec 32) (hp : F.Prepares p addr) (offset : Nat) (w : BitVec 32)
    (hw : data[addr.toNat / 2 ^ offset]? = some w) :
    ∃ u, m.readStateless threads p offset = some u ∧ F.decU u = w := by
  obtain ⟨u, e, h⟩ := (encrypted_self hm).readStateless threads ht p addr hp offset w hw
  exact ⟨u, e, F.decU_sim u w h⟩

example : ∃ m, encrypted sampleFhe (fun _ _ => ()) 6 [1#32, 2#32, 3#32, 4#32, 0xDEADBEEF#32, 6#32]
      = some m ∧
    (m.readStateless 3 (19#32 : BitVec 32) 2).map sampleFhe.decU = some 0xDEADBEEF#32 := by
  refine ⟨_, rfl, ?_⟩
  decide +kernel

/-! ### C23: writes -/

/-- After a write, decryption gives the old words with the addressed one replaced. -/
theorem C23_write (F : Fhe) (rand : Nat → Nat → F.C.Rand) (data : List (BitVec 32)) (m : Memory F.B)
    (hm : encrypted F rand data.length data = some m) (threads : Nat) (ht : 0 < threads)
    (u : F.B.Uint) (w : BitVec 32) (hu : F.Encrypts u w) (p : F.B.Prep) (addr : BitVec 32)
    (hp : F.Prepares p addr) (offset : Nat) (ha : addr.toNat / 2 ^ offset < data.length)
    (out : List (BitVec 32)) (ho : out.length = data.length) :
    ∃ m', m.write threads u p offset = some m' ∧
      m'.decrypt F.C out = some (data.set (addr.toNat / 2 ^ offset) w) := by
  have h := encrypted_self hm
  have hl := h.length
  have e : accessIndex addr offset (bitsFor m.size) = addr.toNat / 2 ^ offset :=
    Nat.mod_eq_of_lt (Nat.lt_of_lt_of_le (by omega) (le_two_pow_bitsFor m.size))
  obtain ⟨m', e1, es, h'⟩ := h.write threads ht u w hu p addr hp offset (by omega)
  refine ⟨m', e1, ?_⟩
  rw [h'.decrypt out (by omega), e]

/-! Histories: any sequence of accesses behaves as on a list of words. -/

/-- Calls on an encrypted memory. -/
inductive MemCall (B : Backend)
  | read (p : B.Prep) (offset : Nat)
  | write (u : B.Uint) (p : B.Prep) (offset : Nat)
  | begin (p : B.Prep) (offset : Nat)
  | finish (u : B.Uint) (p : B.Prep) (offset : Nat)
  | clear (addr : Nat)

/-- One call, with the encrypted word returned. -/
def MemCall.run {B : Backend} (threads : Nat) (m : Memory B) :
    MemCall B → Option (Memory B × Option B.Uint)
  | .read p offset => (m.readStateless threads p offset).map fun u => (m, some u)
  | .write u p offset => (m.write threads u p offset).map fun m => (m, none)
  | .begin p offset => (m.readStatefull threads p offset).map fun x => (x.1, some x.2)
  | .finish u p offset => (m.readStatefullRev threads u p offset).map fun m => (m, none)
  | .clear addr => (m.zero threads addr).map fun m => (m, none)

def runCalls {B : Backend} (threads : Nat) (m : Memory B) :
    List (MemCall B) → Option (Memory B × List (Option B.Uint))
  | [] => some (m, [])
  | c :: cs =>
    (c.run threads m).bind fun x => (runCalls threads x.1 cs).map fun y => (y.1, x.2 :: y.2)

/-- The plain access a call stands for.  Of `zero`, only address 0 is covered (see C26). -/
inductive Means (F : Fhe) : MemCall F.B → MemReq → Prop
  | read (p addr offset) : F.Prepares p addr →
      Means F (.read p offset) (.read (addr.toNat / 2 ^ offset))
  | write (u w p addr offset) : F.Encrypts u w → F.Prepares p addr →
      Means F (.write u p offset) (.write (addr.toNat / 2 ^ offset) w)
  | begin (p addr offset) : F.Prepares p addr →
      Means F (.begin p offset) (.begin (addr.toNat / 2 ^ offset))
  | finish (u w p addr offset) : F.Encrypts u w → F.Prepares p addr →
      Means F (.finish u p offset) (.finish (addr.toNat / 2 ^ offset) w)
  | clear : Means F (.clear 0) (.clear 0)

/-- Encrypted memory against plain memory. -/
def Matches (F : Fhe) (m : Memory F.B) (s : WordMem) : Prop :=
  match s.pending with
  | none => F.Holds m s.words
  | some a => F.HoldsPending m s.words a

theorem step_matches {F : Fhe} (threads : Nat) (ht : 0 < threads) (m : Memory F.B) (s s' : WordMem)
    (o : Option (BitVec 32)) (c : MemCall F.B) (r : MemReq) (hm : Matches F m s)
    (hc : Means F c r) (hs : s.step r = some (s', o)) :
    ∃ m' o', c.run threads m = some (m', o') ∧ Matches F m' s' ∧ o'.map F.decU = o := by
  obtain ⟨words, pending⟩ := s
  have idx : ∀ (addr : BitVec 32) (offset : Nat), F.Holds m words →
      addr.toNat / 2 ^ offset < words.length →
      accessIndex addr offset (bitsFor m.size) = addr.toNat / 2 ^ offset := by
    intro addr offset h hl
    have := h.length
    exact Nat.mod_eq_of_lt (Nat.lt_of_lt_of_le (by omega) (le_two_pow_bitsFor m.size))
  cases hc with
  | read p addr offset hp =>
    cases pending with
    | some a => simp [WordMem.step] at hs
    | none =>
      cases hw : words[addr.toNat / 2 ^ offset]? with
      | none => simp [WordMem.step, hw] at hs
      | some w =>
        simp [WordMem.step, hw] at hs
        obtain ⟨rfl, rfl⟩ := hs
        obtain ⟨u, e, h⟩ := Fhe.Holds.readStateless hm threads ht p addr hp offset w hw
        exact ⟨m, some u, by simp [MemCall.run, e], hm, by simp [F.decU_sim u w h]⟩
  | write u w p addr offset hu hp =>
    cases pending with
    | some a => simp [WordMem.step] at hs
    | none =>
      by_cases ha : addr.toNat / 2 ^ offset < words.length
      case neg => simp [WordMem.step, ha] at hs
      simp [WordMem.step, ha] at hs
      obtain ⟨rfl, rfl⟩ := hs
      have h : F.Holds m words := hm
      have hi := idx addr offset h ha
      have hl := h.length
      obtain ⟨m', e1, es, h'⟩ := h.write threads ht u w hu p addr hp offset (by omega)
      rw [hi] at h'
      exact ⟨m', none, by simp [MemCall.run, e1], h', rfl⟩
  | «begin» p addr offset hp =>
    cases pending with
    | some a => simp [WordMem.step] at hs
    | none =>
      cases hw : words[addr.toNat / 2 ^ offset]? with
      | none => simp [WordMem.step, hw] at hs
      | some w =>
        simp [WordMem.step, hw] at hs
        obtain ⟨rfl, rfl⟩ := hs
        have h : F.Holds m words := hm
        have hi := idx addr offset h (List.getElem?_eq_some_iff.mp hw).1
        obtain ⟨m', u, e, hu, h'⟩ := h.readStatefull threads ht p addr hp offset w (by rw [hi]; exact hw)
        rw [hi] at h'
        exact ⟨m', some u, by simp [MemCall.run, e], h', by simp [F.decU_sim u w hu]⟩
  | finish u w p addr offset hu hp =>
    by_cases hpd : pending = some (addr.toNat / 2 ^ offset)
    case neg => simp [WordMem.step, hpd] at hs
    subst hpd
    simp [WordMem.step] at hs
    obtain ⟨rfl, rfl⟩ := hs
    have h : F.HoldsPending m words (addr.toNat / 2 ^ offset) := hm
    have hlt : addr.toNat / 2 ^ offset < m.size := by
      obtain ⟨m', addr', offset', r, s, e, hlt⟩ := h
      rw [r.size]
      exact hlt
    obtain ⟨m', e1, es, h'⟩ := h.finish threads ht u w hu p addr hp offset
      (Nat.mod_eq_of_lt (Nat.lt_of_lt_of_le hlt (le_two_pow_bitsFor m.size)))
    exact ⟨m', none, by simp [MemCall.run, e1], h', rfl⟩
  | clear =>
    cases pending with
    | some a => simp [WordMem.step] at hs
    | none =>
      by_cases ha : 0 < words.length
      case neg => simp [WordMem.step, ha] at hs
      simp [WordMem.step, ha] at hs
      obtain ⟨rfl, rfl⟩ := hs
      have h : F.Holds m words := hm
      have hl := h.length
      obtain ⟨m', e1, es, h'⟩ := h.zero threads ht 0 (by omega)
      have e0 : zeroTarget (2 ^ F.B.logN) 0 = 0 := by simp [zeroTarget]
      rw [e0] at h'
      exact ⟨m', none, by simp [MemCall.run, e1], h', rfl⟩

/-- After encryption, any sequence of calls that a plain word memory allows succeeds, returns
encryptions of the plain memory's answers, and leaves a memory that decrypts to the plain memory's
contents (when no two-phase access is in progress). -/
theorem C23_history (F : Fhe) (rand : Nat → Nat → F.C.Rand) (data : List (BitVec 32))
    (m : Memory F.B) (hm : encrypted F rand data.length data = some m) (threads : Nat)
    (ht : 0 < threads) (calls : List (MemCall F.B)) (reqs : List MemReq)
    (hc : LRel (Means F) calls reqs) (s : WordMem) (os : List (Option (BitVec 32)))
    (hs : WordMem.run ⟨data, none⟩ reqs = some (s, os)) :
    ∃ m' us, runCalls threads m calls = some (m', us) ∧ us.map (Option.map F.decU) = os ∧
      (s.pending = none → ∀ out, out.length = data.length → m'.decrypt F.C out = some s.words) := by
  have gen : ∀ (reqs : List MemReq) (calls : List (MemCall F.B)) (m : Memory F.B) (s0 : WordMem)
      (os : List (Option (BitVec 32))), Matches F m s0 → LRel (Means F) calls reqs →
      s0.run reqs = some (s, os) →
      ∃ m' us, runCalls threads m calls = some (m', us) ∧ us.map (Option.map F.decU) = os ∧
        Matches F m' s ∧ s.words.length = s0.words.length := by
    intro reqs
    induction reqs with
    | nil =>
      intro calls m s0 os h0 hc hs
      have := hc.length
      cases calls with
      | nil =>
        simp only [WordMem.run, Option.some.injEq, Prod.mk.injEq] at hs
        obtain ⟨rfl, rfl⟩ := hs
        exact ⟨m, [], rfl, rfl, h0, rfl⟩
      | cons => simp at this
    | cons r reqs ih =>
      intro calls m s0 os h0 hc hs
      cases calls with
      | nil => have := hc.length; simp at this
      | cons c calls =>
        obtain ⟨hc1, hc2⟩ := hc.uncons
        simp only [WordMem.run] at hs
        cases h1 : s0.step r with
        | none => simp [h1] at hs
        | some x =>
          obtain ⟨s1, o⟩ := x
          simp only [h1] at hs
          cases h2 : s1.run reqs with
          | none => simp [h2] at hs
          | some y =>
            obtain ⟨s2, os2⟩ := y
            simp only [h2, Option.some.injEq, Prod.mk.injEq] at hs
            obtain ⟨rfl, rfl⟩ := hs
            obtain ⟨m1, o', e1, hm1, ho⟩ := step_matches threads ht m s0 s1 o c r h0 hc1 h1
            obtain ⟨m', us, e2, hus, hm', hlen⟩ := ih calls m1 s1 os2 hm1 hc2 h2
            refine ⟨m', o' :: us, by simp [runCalls, e1, e2], by simp [ho, hus], hm', ?_⟩
            rw [hlen]
            obtain ⟨w0, p0⟩ := s0
            cases r <;> simp only [WordMem.step] at h1 <;> (repeat' split at h1) <;>
              simp_all <;> (obtain ⟨rfl, _⟩ := h1; simp)
  obtain ⟨m', us, e, hus, hm', hlen⟩ := gen reqs calls m ⟨data, none⟩ os (encrypted_self hm) hc hs
  refine ⟨m', us, e, hus, ?_⟩
  intro hp out ho
  unfold Matches at hm'
  rw [hp] at hm'
  have h : F.Holds m' s.words := hm'
  exact h.decrypt out (by rw [← h.length, hlen, ho])

example : ∃ m, encrypted sampleFhe (fun _ _ => ()) 6 [1#32, 2#32, 3#32, 4#32, 5#32, 6#32] = some m ∧
    ((runCalls (B := sampleFhe.B) 2 m
        [.write (77#32 : BitVec 32) (4#32 : BitVec 32) 0, .read (4#32 : BitVec 32) 0,
         .begin (5#32 : BitVec 32) 0, .finish (99#32 : BitVec 32) (5#32 : BitVec 32) 0, .clear 0]).bind
      fun x => x.1.decrypt sampleFhe.C (List.replicate 6 0#32))
      = some [0#32, 2#32, 3#32, 4#32, 77#32, 99#32] := by
  refine ⟨_, rfl, ?_⟩
  decide +kernel

/-! ### C24: two-phase accesses -/

/-- Phase one returns the old word; phase two then has the effect of a write. -/
theorem C24_two_phase (F : Fhe) (rand : Nat → Nat → F.C.Rand) (data : List (BitVec 32))
    (m : Memory F.B) (hm : encrypted F rand data.length data = some m) (threads : Nat)
    (ht : 0 < threads) (p : F.B.Prep) (addr : BitVec 32) (hp : F.Prepares p addr) (offset : Nat)
    (old : BitVec 32) (hold : data[addr.toNat / 2 ^ offset]? = some old) (new : F.B.Uint)
    (w : BitVec 32) (hw : F.Encrypts new w) (out : List (BitVec 32)) (ho : out.length = data.length) :
    ∃ m1 u m2 m3, m.readStatefull threads p offset = some (m1, u) ∧ F.decU u = old ∧
      m1.readStatefullRev threads new p offset = some m2 ∧
      m.write threads new p offset = some m3 ∧
      m2.decrypt F.C out = m3.decrypt F.C out ∧
      m2.decrypt F.C out = some (data.set (addr.toNat / 2 ^ offset) w) := by
  have h := encrypted_self hm
  have hl := h.length
  have hlt := (List.getElem?_eq_some_iff.mp hold).1
  have e : accessIndex addr offset (bitsFor m.size) = addr.toNat / 2 ^ offset :=
    Nat.mod_eq_of_lt (Nat.lt_of_lt_of_le (by omega) (le_two_pow_bitsFor m.size))
  obtain ⟨m1, u, e1, hu, hp1⟩ := h.readStatefull threads ht p addr hp offset old (by rw [e]; exact hold)
  obtain ⟨m3, e3, es3, h3⟩ := h.write threads ht new w hw p addr hp offset (by omega)
  have hs1 := hp1.length
  have hsz : m1.size = m.size := by rw [← hs1, hl]
  obtain ⟨m2, e2, es2, h2⟩ := hp1.finish threads ht new w hw p addr hp offset (by rw [hsz])
  have d2 := h2.decrypt out (by omega)
  have d3 := h3.decrypt out (by omega)
  exact ⟨m1, u, m2, m3, e1, F.decU_sim u old hu, e2, e3, by rw [d2, d3], by rw [d2, e]⟩

/-- Writing back the word that was read restores the memory. -/
theorem C24_write_back (F : Fhe) (rand : Nat → Nat → F.C.Rand) (data : List (BitVec 32))
    (m : Memory F.B) (hm : encrypted F rand data.length data = some m) (threads : Nat)
    (ht : 0 < threads) (p : F.B.Prep) (addr : BitVec 32) (hp : F.Prepares p addr) (offset : Nat)
    (ha : addr.toNat / 2 ^ offset < data.length) (out : List (BitVec 32))
    (ho : out.length = data.length) :
    ∃ m1 u m2, m.readStatefull threads p offset = some (m1, u) ∧
      m1.readStatefullRev threads u p offset = some m2 ∧ m2.decrypt F.C out = some data := by
  have h := encrypted_self hm
  have hl := h.length
  have e : accessIndex addr offset (bitsFor m.size) = addr.toNat / 2 ^ offset :=
    Nat.mod_eq_of_lt (Nat.lt_of_lt_of_le (by omega) (le_two_pow_bitsFor m.size))
  have hold := List.getElem?_eq_getElem ha
  obtain ⟨m1, u, e1, hu, hp1⟩ := h.readStatefull threads ht p addr hp offset _ (by rw [e]; exact hold)
  have hs1 := hp1.length
  have hsz : m1.size = m.size := by rw [← hs1, hl]
  obtain ⟨m2, e2, es2, h2⟩ := hp1.finish threads ht u _ hu p addr hp offset (by rw [hsz])
  refine ⟨m1, u, m2, e1, e2, ?_⟩
  rw [h2.decrypt out (by omega), e]
  simp

example : ∃ m, encrypted sampleFhe (fun _ _ => ()) 6 [1#32, 2#32, 3#32, 4#32, 5#32, 6#32] = some m ∧
    (m.readStatefull 2 (5#32 : BitVec 32) 0).map (fun x => sampleFhe.decU x.2) = some 6#32 := by
  refine ⟨_, rfl, ?_⟩
  decide +kernel

/-! ### C25: protocol -/

/-- Whether a sequence of calls respects the protocol, given whether an access is pending. -/
def protocolOk {B : Backend} : Bool → List (MemCall B) → Bool
  | _, [] => true
  | false, .read _ _ :: cs => protocolOk false cs
  | false, .write _ _ _ :: cs => protocolOk false cs
  | false, .begin _ _ :: cs => protocolOk true cs
  | true, .finish _ _ _ :: cs => protocolOk false cs
  | b, .clear _ :: cs => protocolOk b cs
  | _, _ => false

/-- Pending after a sequence of calls. -/
def pendingAfter {B : Backend} : Bool → List (MemCall B) → Bool
  | b, [] => b
  | _, .begin _ _ :: cs => pendingAfter true cs
  | _, .finish _ _ _ :: cs => pendingAfter false cs
  | b, _ :: cs => pendingAfter b cs

/-- Shape of a memory, as preserved by all calls. -/
structure Sound {B : Backend} (m : Memory B) (size : Nat) : Prop where
  width : m.bits.length = 32
  words : m.size = size
  data : ∀ b ∈ m.bits, b.data.length = divCeil size (2 ^ B.logN)

theorem collect_isSome {α : Type} (l : List (Option α)) (h : ∀ x ∈ l, x.isSome = true) :
    ∃ r, collect l = some r := by
  induction l with
  | nil => exact ⟨[], rfl⟩
  | cons a l ih =>
    obtain ⟨r, hr⟩ := ih fun x hx => h x (by simp [hx])
    cases a with
    | none => exact absurd (h none (by simp)) (by simp)
    | some a => exact ⟨a :: r, by simp [collect, hr]⟩

section protocol
variable {B : Backend} (hlen : ∀ l p o b, (B.retrieval l p o b).length = l.length)
  (hlen' : ∀ l p o b, (B.retrievalRev l p o b).length = l.length)
include hlen

theorem forward_length (b : BitArray B) (p : B.Prep) (o : Nat) :
    (b.forward p o).length = b.data.length := by
  unfold BitArray.forward
  simp only [List.length_modify]
  split
  · rw [hlen]
  · rfl

omit hlen in
include hlen' in
theorem backward_length (b : BitArray B) (w : B.Glwe) (p : B.Prep) (o : Nat) :
    (b.backward w p o).length = b.data.length := by
  unfold BitArray.backward
  simp only
  split
  · rw [hlen']
    simp
  · simp

include hlen' in
/-- One call: whether it succeeds, and what it leaves. -/
theorem call_protocol (threads : Nat) (ht : 0 < threads) (size : Nat) (hs : 0 < size) (m : Memory B)
    (h : Sound m size) (c : MemCall B) (hc : ∀ a, c = .clear a → a < size) :
    (protocolOk m.state [c] = true ∧
      ∃ m' o, c.run threads m = some (m', o) ∧ Sound m' size ∧ m'.state = pendingAfter m.state [c]) ∨
    (protocolOk m.state [c] = false ∧ c.run threads m = none) := by
  have hne : m.bits.isEmpty = false := by
    cases hb : m.bits with
    | nil => have := h.width; rw [hb] at this; cases this
    | cons => rfl
  have hcpos : 0 < divCeil size (2 ^ B.logN) := divCeil_pos _ _ hs (Nat.two_pow_pos _)
  cases c with
  | read p o =>
    cases hst : m.state with
    | true => exact Or.inr ⟨rfl, by simp [MemCall.run, Memory.readStateless, hne, hst]⟩
    | false =>
      refine Or.inl ⟨rfl, ?_⟩
      have : ∃ u, m.readStateless threads p o = some u := by
        unfold Memory.readStateless
        rw [hne, hst, parallel_eq _ _ _ ht (by simp [Memory.withTmp, h.width])]
        obtain ⟨r, hr⟩ := collect_isSome
          ((m.withTmp.mapIdx fun _ q => (q.1, some (q.1.retrieveStateless p o))).map Prod.snd) (by
            intro x hx
            obtain ⟨y, hy, rfl⟩ := List.mem_map.mp hx
            obtain ⟨i, hi, rfl⟩ := List.mem_mapIdx.mp hy
            rfl)
        exact ⟨B.pack r, by simp [hr]⟩
      obtain ⟨u, hu⟩ := this
      exact ⟨m, some u, by simp [MemCall.run, hu], h, by rw [hst]; rfl⟩
  | write u p o =>
    cases hst : m.state with
    | true => exact Or.inr ⟨rfl, by simp [MemCall.run, Memory.write, hst]⟩
    | false =>
      refine Or.inl ⟨rfl, ?_⟩
      have hr : m.write threads u p o = some { m with bits := (m.bits.mapIdx fun i b => b.write (B.getBit u i) p o) } := by
        unfold Memory.write
        rw [hst, parallel_eq _ _ _ ht (by simp [h.width])]
        simp [hst]
      refine ⟨_, none, congrArg (Option.map _) hr,
        ⟨by simp [h.width], h.words, ?_⟩, hst⟩
      intro b hb
      obtain ⟨i, hi, rfl⟩ := List.mem_mapIdx.mp hb
      show (BitArray.backward _ _ _ _).length = _
      rw [backward_length hlen']
      show (BitArray.forward _ _ _).length = _
      rw [forward_length hlen]
      exact h.data _ (List.getElem_mem _)
  | «begin» p o =>
    cases hst : m.state with
    | true => exact Or.inr ⟨rfl, by simp [MemCall.run, Memory.readStatefull, hne, hst]⟩
    | false =>
      refine Or.inl ⟨rfl, ?_⟩
      have : ∃ r, m.readStatefull threads p o
          = some ({ m with bits := (m.bits.map fun b => { b with data := b.forward p o }), state := true },
              B.pack r) := by
        unfold Memory.readStatefull
        rw [hne, hst, parallel_eq _ _ _ ht (by simp [Memory.withTmp, h.width])]
        obtain ⟨r, hr⟩ := collect_isSome
          ((m.withTmp.mapIdx fun _ q => q.1.retrieveStatefull p o).map Prod.snd) (by
            intro x hx
            obtain ⟨y, hy, rfl⟩ := List.mem_map.mp hx
            obtain ⟨i, hi, rfl⟩ := List.mem_mapIdx.mp hy
            have hb : (m.withTmp[i]).1 ∈ m.bits := by
              simp [Memory.withTmp]
            show ((BitArray.forward _ _ _)[0]?).isSome = true
            rw [List.getElem?_eq_getElem (by
              rw [forward_length hlen, h.data _ hb]
              exact hcpos)]
            rfl)
        refine ⟨r, ?_⟩
        have e2 : (m.withTmp.mapIdx fun _ q => q.1.retrieveStatefull p o).map Prod.fst
            = m.bits.map fun b => { b with data := b.forward p o } := by
          apply List.ext_getElem?
          intro i
          simp [Memory.withTmp, Function.comp_def, BitArray.retrieveStatefull]
        simp [hr, e2]
      obtain ⟨r, hr⟩ := this
      refine ⟨_, _, congrArg (Option.map _) hr,
        ⟨by simp [h.width], h.words, ?_⟩, rfl⟩
      intro b hb
      obtain ⟨b0, hb0, rfl⟩ := List.mem_map.mp hb
      show (BitArray.forward _ _ _).length = _
      rw [forward_length hlen]
      exact h.data _ hb0
  | finish u p o =>
    cases hst : m.state with
    | false => exact Or.inr ⟨rfl, by simp [MemCall.run, Memory.readStatefullRev, hst]⟩
    | true =>
      refine Or.inl ⟨rfl, ?_⟩
      have hr : m.readStatefullRev threads u p o = some { m with bits := (m.bits.mapIdx fun i b => b.retrieveStatefullRev (B.getBit u i) p o), state := false } := by
        unfold Memory.readStatefullRev
        rw [hst, parallel_eq _ _ _ ht (by simp [h.width])]
        simp
      refine ⟨_, none, congrArg (Option.map _) hr,
        ⟨by simp [h.width], h.words, ?_⟩, rfl⟩
      intro b hb
      obtain ⟨i, hi, rfl⟩ := List.mem_mapIdx.mp hb
      show (BitArray.backward _ _ _ _).length = _
      rw [backward_length hlen']
      exact h.data _ (List.getElem_mem _)
  | clear a =>
    have ha := hc a rfl
    refine Or.inl ⟨by cases m.state <;> rfl, ?_⟩
    have hr : m.zero threads a = some { m with bits := (m.bits.mapIdx fun _ b => b.zeroAt (a / 2 ^ B.logN) (a / 2 ^ B.logN % 2 ^ B.logN)) } := by
      unfold Memory.zero
      have hany : (m.bits.any fun b => decide (b.data.length ≤ a / 2 ^ B.logN)) = false := by
        rw [List.any_eq_false]
        intro b hb
        simp only [decide_eq_true_eq, Nat.not_le]
        rw [h.data b hb]
        exact div_lt_chunks _ _ _ (Nat.two_pow_pos _) ha
      simp only [hany, Bool.false_eq_true, if_false]
      rw [parallel_eq _ _ _ ht (by simp [h.width])]
      rfl
    refine ⟨_, none, congrArg (Option.map _) hr,
      ⟨by simp [h.width], h.words, ?_⟩, by cases m.state <;> rfl⟩
    intro b hb
    obtain ⟨i, hi, rfl⟩ := List.mem_mapIdx.mp hb
    simp only [BitArray.zeroAt, List.length_modify]
    exact h.data _ (List.getElem_mem _)

omit hlen in
theorem protocolOk_cons (b : Bool) (c : MemCall B) (cs : List (MemCall B)) :
    protocolOk b (c :: cs) = (protocolOk b [c] && protocolOk (pendingAfter b [c]) cs) := by
  cases b <;> cases c <;> simp [protocolOk, pendingAfter]

omit hlen in
theorem pendingAfter_cons (b : Bool) (c : MemCall B) (cs : List (MemCall B)) :
    pendingAfter b (c :: cs) = pendingAfter (pendingAfter b [c]) cs := by
  cases b <;> cases c <;> simp [pendingAfter]

include hlen' in
/-- On a freshly encrypted memory, a sequence of calls with arbitrary ciphertexts (and `zero` within
the memory) succeeds exactly when it respects the protocol: phase two only when an access is
pending, reads, writes and phase one only when none is.  (`zero` does not check.)  Whenever no
access is pending at the end, the memory is directly readable.  Holds for any library that keeps
the number of ciphertexts in its retrieval functions; correctness is not needed. -/
theorem C25_protocol (C : Cipher B) (rand : Nat → Nat → C.Rand) (size : Nat)
    (data : List (BitVec 32)) (m0 m : Memory B) (h0 : Memory.alloc B 32 size = some m0)
    (hm : m0.encrypt C rand data = some m) (threads : Nat) (ht : 0 < threads)
    (calls : List (MemCall B)) (hc : ∀ a, MemCall.clear a ∈ calls → a < size) :
    (protocolOk false calls = true ↔ (runCalls threads m calls).isSome = true) ∧
    ∀ m' us, runCalls threads m calls = some (m', us) →
      m'.state = pendingAfter false calls ∧
      (pendingAfter false calls = false → ∀ p o, (m'.readStateless threads p o).isSome = true) := by
  have gen : ∀ (size : Nat) (hs : 0 < size) (calls : List (MemCall B)) (m : Memory B), Sound m size →
      (∀ a, MemCall.clear a ∈ calls → a < size) →
      (protocolOk m.state calls = true ↔ (runCalls threads m calls).isSome = true) ∧
      ∀ m' us, runCalls threads m calls = some (m', us) →
        m'.state = pendingAfter m.state calls ∧ Sound m' size := by
    intro size hs calls
    induction calls with
    | nil =>
      intro m h _
      refine ⟨by simp [protocolOk, runCalls], ?_⟩
      intro m' us e
      simp only [runCalls, Option.some.injEq, Prod.mk.injEq] at e
      obtain ⟨rfl, rfl⟩ := e
      exact ⟨rfl, h⟩
    | cons c cs ih =>
      intro m h hc
      have h1 := call_protocol hlen hlen' threads ht size hs m h c (fun a ha => hc a (by simp [ha]))
      rw [protocolOk_cons, pendingAfter_cons m.state c cs]
      rcases h1 with ⟨hok, m1, o, e1, hs1, hst1⟩ | ⟨hok, e1⟩
      · obtain ⟨ih1, ih2⟩ := ih m1 hs1 (fun a ha => hc a (by simp [ha]))
        rw [hst1] at ih1 ih2
        refine ⟨?_, ?_⟩
        · rw [hok, Bool.true_and, ih1]
          simp [runCalls, e1]
        · intro m' us e
          simp only [runCalls, e1, Option.bind_some, Option.map_eq_some_iff] at e
          obtain ⟨y, hy, e⟩ := e
          obtain ⟨m2, us2⟩ := y
          cases e
          exact ih2 m2 us2 hy
      · refine ⟨by simp [hok, runCalls, e1], ?_⟩
        intro m' us e
        simp [runCalls, e1] at e
  have hsound : 0 < size ∧ m.state = false ∧ Sound m size := by
    unfold Memory.alloc at h0
    by_cases hs : size = 0
    · rw [if_pos hs] at h0
      cases h0
    rw [if_neg hs] at h0
    have e0 := (Option.some.inj h0).symm
    have hw : m0.bits.length = 32 := by rw [e0]; exact List.length_replicate
    have hd : ∀ b ∈ m0.bits, b.data.length = divCeil size (2 ^ B.logN) := by
      rw [e0]
      intro b hb
      rw [List.eq_of_mem_replicate hb]
      exact List.length_replicate
    have hsz : m0.size = size := by rw [e0]
    have hst : m0.state = false := by rw [e0]
    unfold Memory.encrypt at hm
    rw [hw, if_neg (by omega)] at hm
    split at hm
    · have e1 := (Option.some.inj hm).symm
      subst e1
      refine ⟨by omega, hst, by simp [hw], hsz, ?_⟩
      intro b hb
      obtain ⟨i, hi, rfl⟩ := List.mem_mapIdx.mp hb
      simp only [BitArray.encrypt, List.length_mapIdx]
      exact hd _ (List.getElem_mem _)
    · cases hm
  obtain ⟨hs, hst, hsound⟩ := hsound
  have key := gen size hs calls m hsound hc
  rw [hst] at key
  refine ⟨key.1, fun m' us e => ?_⟩
  obtain ⟨k1, k2⟩ := key.2 m' us e
  refine ⟨k1, fun hp p o => ?_⟩
  rcases call_protocol hlen hlen' threads ht size hs m' k2 (.read p o) (by simp) with
    ⟨_, m2, o2, e2, _⟩ | ⟨hbad, _⟩
  · simp only [MemCall.run, Option.map_eq_some_iff] at e2
    obtain ⟨u, hu, _⟩ := e2
    rw [hu]
    rfl
  · rw [k1, hp] at hbad
    cases hbad

end protocol

example : ∀ (l : List (Coeffs (2 ^ 2))) p o b, ((plain 2 (sampleLib _)).retrieval l p o b).length = l.length :=
  fun l p o b => (sampleLib _).net.length_fwd b _ l

example (p : sampleFhe.B.Prep) (u : sampleFhe.B.Uint) :
    protocolOk false [.read p 0, .begin p 0, .finish u p 0, .write u p 0] = true ∧
    protocolOk false [.begin p 0, MemCall.read p 0] = false ∧
    protocolOk false [MemCall.finish u p 0] = false := ⟨rfl, rfl, rfl⟩

/-! ### C26: zeroing -/

/-- What `zero(addr)` really does: it clears the word at `poly * n + poly % n` with
`poly = addr / n`, and nothing else.  Partial: this is word `addr` only for some addresses, see
`C26_correct_iff` and `C26_wrong_word`. -/
theorem C26_zero_partial (F : Fhe) (rand : Nat → Nat → F.C.Rand) (data : List (BitVec 32))
    (m : Memory F.B) (hm : encrypted F rand data.length data = some m) (threads : Nat)
    (ht : 0 < threads) (addr : Nat) (ha : addr < data.length) (out : List (BitVec 32))
    (ho : out.length = data.length) :
    ∃ m', m.zero threads addr = some m' ∧ m'.decrypt F.C out
      = some (data.set (addr / 2 ^ F.B.logN * 2 ^ F.B.logN + addr / 2 ^ F.B.logN % 2 ^ F.B.logN) 0#32) := by
  have h := encrypted_self hm
  have hl := h.length
  obtain ⟨m', e1, es, h'⟩ := h.zero threads ht addr (by omega)
  exact ⟨m', e1, h'.decrypt out (by omega)⟩

/-- Word 0, the only one the VM clears (interpreter.rs:1198), is cleared correctly. -/
theorem C26_word_zero (F : Fhe) (rand : Nat → Nat → F.C.Rand) (data : List (BitVec 32))
    (m : Memory F.B) (hm : encrypted F rand data.length data = some m) (threads : Nat)
    (ht : 0 < threads) (ha : 0 < data.length) (out : List (BitVec 32))
    (ho : out.length = data.length) :
    ∃ m', m.zero threads 0 = some m' ∧ m'.decrypt F.C out = some (data.set 0 0#32) := by
  obtain ⟨m', e, h⟩ := C26_zero_partial F rand data m hm threads ht 0 ha out ho
  exact ⟨m', e, by simpa using h⟩

/-- The index computed is the right one exactly when `addr % n = (addr / n) % n`. -/
theorem C26_correct_iff (n addr : Nat) :
    addr / n * n + addr / n % n = addr ↔ addr % n = addr / n % n := by
  have := Nat.div_add_mod addr n
  rw [Nat.mul_comm] at this
  omega

/-- Negation of the property: for any ring degree above 1, `zero(1)` clears word 0 instead of
word 1. -/
theorem C26_wrong_word (F : Fhe) (hn : 1 ≤ F.B.logN) (rand : Nat → Nat → F.C.Rand)
    (m : Memory F.B) (hm : encrypted F rand 2 [7#32, 7#32] = some m) (threads : Nat)
    (ht : 0 < threads) :
    ∃ m', m.zero threads 1 = some m' ∧ m'.decrypt F.C [0#32, 0#32] = some [0#32, 7#32] := by
  obtain ⟨m', e, h⟩ :=
    C26_zero_partial F rand [7#32, 7#32] m hm threads ht 1 (by simp) [0#32, 0#32] (by simp)
  have h1 : 1 < 2 ^ F.B.logN := Nat.one_lt_two_pow (by omega)
  refine ⟨m', e, ?_⟩
  rw [h, Nat.div_eq_of_lt h1]
  simp

example : ∃ m, encrypted sampleFhe (fun _ _ => ()) 2 [7#32, 7#32] = some m ∧ 1 ≤ sampleFhe.B.logN :=
  ⟨_, rfl, by decide⟩

/-! ### C28: out-of-range addresses -/

theorem prepareCustom_toNat (logN : Nat) (L : Lib (2 ^ logN)) (u : BitVec 32) (count : Nat) :
    ((plain logN L).prepareCustom u 0 count : BitVec 32).toNat = u.toNat % 2 ^ count := by
  have e : ((plain logN L).prepareCustom u 0 count : BitVec 32)
      = BitVec.ofNat 32 (u.toNat % 2 ^ count) := by
    apply BitVec.eq_of_getLsbD_eq
    intro i hi
    show (wordOf _ 32).getLsbD i = _
    rw [getLsbD_wordOf _ _ (by omega), BitVec.getLsbD_ofNat, Nat.testBit_mod_two_pow]
    by_cases h : i < count
    · simp [hi, h, BitVec.getLsbD]
    · simp [hi, h]
  rw [e, BitVec.toNat_ofNat]
  apply Nat.mod_eq_of_lt
  exact Nat.lt_of_le_of_lt (Nat.mod_le _ _) u.isLt

theorem prepares_custom (F : Fhe) (u : F.B.Uint) (x : BitVec 32) (hu : F.Encrypts u x) (count : Nat) :
    ∃ y, F.Prepares (F.B.prepareCustom u 0 count) y ∧ y.toNat = x.toNat % 2 ^ count :=
  ⟨_, F.sim.prepareCustom 0 count hu, prepareCustom_toNat _ _ x count⟩

theorem wrapped_index (x k offset : Nat) : x % 2 ^ (k + offset) / 2 ^ offset = x / 2 ^ offset % 2 ^ k := by
  rw [Nat.add_comm k offset, Nat.pow_add, Nat.mod_mul_right_div_self]

/-- A memory of `2^k` words accessed, as the VM does, at an encrypted address prepared on
`k + offset` bits: whatever the address, every access is made at word `(x / 2^offset) mod 2^k`. -/
theorem C28_wraps (F : Fhe) (rand : Nat → Nat → F.C.Rand) (data : List (BitVec 32)) (k : Nat)
    (hk : data.length = 2 ^ k) (m : Memory F.B) (hm : encrypted F rand data.length data = some m)
    (threads : Nat) (ht : 0 < threads) (a : F.B.Uint) (x : BitVec 32) (hx : F.Encrypts a x)
    (offset : Nat) (new : F.B.Uint) (w : BitVec 32) (hw : F.Encrypts new w) (out : List (BitVec 32))
    (ho : out.length = data.length) :
    ∃ old u u' m1 m2 m3, data[x.toNat / 2 ^ offset % 2 ^ k]? = some old ∧
      m.readStateless threads (F.B.prepareCustom a 0 (k + offset)) offset = some u ∧
      F.decU u = old ∧
      m.readStatefull threads (F.B.prepareCustom a 0 (k + offset)) offset = some (m1, u') ∧
      F.decU u' = old ∧
      m1.readStatefullRev threads new (F.B.prepareCustom a 0 (k + offset)) offset = some m2 ∧
      m2.decrypt F.C out = some (data.set (x.toNat / 2 ^ offset % 2 ^ k) w) ∧
      m.write threads new (F.B.prepareCustom a 0 (k + offset)) offset = some m3 ∧
      m3.decrypt F.C out = some (data.set (x.toNat / 2 ^ offset % 2 ^ k) w) := by
  obtain ⟨y, hy, ey⟩ := prepares_custom F a x hx (k + offset)
  have ei : y.toNat / 2 ^ offset = x.toNat / 2 ^ offset % 2 ^ k := by rw [ey, wrapped_index]
  have hlt : y.toNat / 2 ^ offset < data.length := by
    rw [ei, hk]
    exact Nat.mod_lt _ (Nat.two_pow_pos _)
  obtain ⟨old, hold⟩ : ∃ old, data[y.toNat / 2 ^ offset]? = some old :=
    ⟨_, List.getElem?_eq_getElem hlt⟩
  obtain ⟨u, e1, hu⟩ := C22_read F rand data m hm threads ht _ y hy offset _ hold
  obtain ⟨m1, u', m2, m3, e2, hu', e3, e4, d1, d2⟩ :=
    C24_two_phase F rand data m hm threads ht _ y hy offset _ hold new w hw out ho
  rw [ei] at hold d2
  exact ⟨_, u, u', m1, m2, m3, hold, e1, hu, e2, hu', e3, d2, e4, by rw [← d1, d2]⟩

example : ∃ m, encrypted sampleFhe (fun _ _ => ()) 4 [1#32, 2#32, 3#32, 4#32] = some m ∧
    (m.readStateless 2 (sampleFhe.B.prepareCustom (0xFFFFFFFA#32 : BitVec 32) 0 4) 2).map sampleFhe.decU
      = some 3#32 := by
  refine ⟨_, rfl, ?_⟩
  decide +kernel

end Verif.Props
