import Verif.Props.GenTests
import Verif.Props.Host
import Verif.Props.Poly

/-!
C88 with C74 and C77: the host programs of template and uniswap, run on the assembled guests, and the generated test cases
of guest-test1.
-/

namespace Verif.Props

open Model Spec

theorem sub_checked {a b c : Word} (h : Guest.sub true a b = some c) : Guest.sub false a b = some c := by
  unfold Guest.sub at h ⊢
  split at h
  · cases h
  · rw [if_neg (by simp)]; exact h

theorem add_checked {a b c : Word} (h : Guest.add true a b = some c) : Guest.add false a b = some c := by
  unfold Guest.add at h ⊢
  split at h
  · cases h
  · rw [if_neg (by simp)]; exact h

theorem mul_checked {a b c : Word} (h : Guest.mul true a b = some c) : Guest.mul false a b = some c := by
  unfold Guest.mul at h ⊢
  split at h
  · cases h
  · rw [if_neg (by simp)]; exact h

theorem polyLoop_checked (x : Word) : ∀ (cs : List Word) (acc pw v : Word),
    Guest.polyLoop true x cs acc pw = some v → Guest.polyLoop false x cs acc pw = some v
  | [], _, _, _, h => h
  | c :: cs, acc, pw, v, h => by
    unfold Guest.polyLoop at h ⊢
    simp only [Option.bind_eq_bind, Option.bind_eq_some_iff] at h ⊢
    obtain ⟨t, h1, e, h2, p, h3, h4⟩ := h
    exact ⟨t, mul_checked h1, e, add_checked h2, p, mul_checked h3, polyLoop_checked x cs _ _ _ h4⟩

theorem wantSwap_checked {p : Guest.Pool} {t : Guest.Trade} {a : Guest.Account} {o : Guest.Pool × Guest.Account}
    (h : Host.wantSwap true p t a = some o) : Host.wantSwap false p t a = some o := by
  unfold Host.wantSwap at h ⊢
  dsimp only at h ⊢
  split at h
  · next hd =>
    rw [if_pos hd]
    simp only [Option.bind_eq_bind, Option.bind_eq_some_iff] at h ⊢
    obtain ⟨q, h1, t1, h2, p1, h3, p0, h4, a0, h5, a1, h6, h7⟩ := h
    exact ⟨q, h1, t1, sub_checked h2, p1, sub_checked h3, p0, add_checked h4, a0, sub_checked h5, a1, add_checked h6, h7⟩
  · next hd =>
    rw [if_neg hd]
    simp only [Option.bind_eq_bind, Option.bind_eq_some_iff] at h ⊢
    obtain ⟨q, h1, t1, h2, p1, h3, p0, h4, a0, h5, a1, h6, h7⟩ := h
    exact ⟨q, h1, t1, sub_checked h2, p1, sub_checked h3, p0, add_checked h4, a0, sub_checked h5, a1, add_checked h6, h7⟩

/-- The host of template, on any image whose tape is that of the source without overflow checks. -/
theorem polyHost_of (F : Fhe) (rand : Nat → Nat → Nat → F.C.Rand) (utf8 : List Byte → Bool) (env : Host.Env) (cpus : Nat)
    (chk dbg : Bool) (img : Phantom) (x : Word)
    (hr : Host.runGuest F.C rand F.decU F.decP utf8 env cpus chk dbg img (Guest.putWord x) 700 = Guest.polyMain false (Guest.putWord x)) :
    Host.polyHost F.C rand F.decU F.decP utf8 env cpus chk dbg img x = Guest.polyLoop chk x Guest.coefficients 0#32 1#32 := by
  have hx : Guest.getWord (Guest.putWord x) 0 = x := getWord_at [] [] rfl rfl
  unfold Guest.polyMain at hr
  rw [hx] at hr
  unfold Host.polyHost
  cases hv : Guest.polyLoop chk x Guest.coefficients 0#32 1#32 with
  | none =>
    cases Host.runGuest F.C rand F.decU F.decP utf8 env cpus chk dbg img (Guest.putWord x) 700 <;> rfl
  | some v =>
    have hf : Guest.polyLoop false x Guest.coefficients 0#32 1#32 = some v := by
      cases chk
      · exact hv
      · exact polyLoop_checked _ _ _ _ _ hv
    rw [hf] at hr
    rw [hr, Option.map_some, Option.bind_some, Option.bind_some]
    exact if_pos (getWord_at [] [] rfl rfl)

/-- The host of template, on the assembled polynomial guest: with cycles enough it gets through for every point, unless
its own loop overflows where overflow is checked. -/
theorem C88_template_host (F : Fhe) (rand : Nat → Nat → Nat → F.C.Rand) (utf8 : List Byte → Bool) (env : Host.Env) (cpus : Nat)
    (chk dbg : Bool) (hn : 3277 ≤ Host.maxCycles utf8 env 700) (hn' : Host.maxCycles utf8 env 700 < 2 ^ 32)
    (ht : 0 < Host.threads utf8 env cpus) (x : Word) :
    Host.polyHost F.C rand F.decU F.decP utf8 env cpus chk dbg polyImage x =
      Guest.polyLoop chk x Guest.coefficients 0#32 1#32 := by
  obtain ⟨⟨vm0, vm1, vm2, a1, a2, a3, a4⟩, ev, ev2, b1, b2, b3⟩ := C88_poly F rand chk dbg (Host.flag utf8 env "PHANTOM_DEBUG")
    (Host.threads utf8 env cpus) _ ht hn hn' (Guest.putWord x) rfl
  obtain ⟨v, hv⟩ := poly_total (Guest.getWord (Guest.putWord x) 0) Guest.coefficients 0#32 1#32
  have hm : Guest.polyMain false (Guest.putWord x) = some (Guest.putWord v) := by unfold Guest.polyMain; rw [hv]; rfl
  refine polyHost_of F rand utf8 env cpus chk dbg polyImage x ?_
  rw [hm] at a4 b3 ⊢
  exact (C74_equal _ _ _ _ _ _ _ _ _ _ _ _).mpr ⟨⟨ev, ev2, b1, b2, b3⟩, vm0, vm1, vm2, a1, a2, a3, a4⟩

/-- `MAX_CYCLES=4000`; the point of the source, and one where the checked loop overflows. -/
example (dbg : Bool) := C88_template_host sampleFhe (fun _ _ _ => ()) (fun _ => true)
  (fun s => if s = "MAX_CYCLES" then some [0x34#8, 0x30#8, 0x30#8, 0x30#8] else none) 4 false dbg (by decide) (by decide) (by decide) 123#32
example : (Guest.polyLoop false 123#32 Guest.coefficients 0#32 1#32).isSome ∧
    Guest.polyLoop true 123#32 Guest.coefficients 0#32 1#32 = none ∧
    Guest.polyLoop true 2#32 Guest.coefficients 0#32 1#32 = some 65503#32 := by decide +kernel

/-- The host of uniswap, on any image whose tape is that of the source without overflow checks, zeros where it panics. -/
theorem swapHost_of (F : Fhe) (rand : Nat → Nat → Nat → F.C.Rand) (utf8 : List Byte → Bool) (env : Host.Env) (cpus : Nat)
    (chk dbg : Bool) (pad : List Byte) (hpad : pad.length = 3) (img : Phantom) (p : Guest.Pool) (t : Guest.Trade) (a : Guest.Account)
    (hr : Host.runGuest F.C rand F.decU F.decP utf8 env cpus chk dbg img (Guest.swapInput p t a pad) 300 =
      some ((Guest.swapMain false (Guest.swapInput p t a pad)).getD (List.replicate 16 0#8))) :
    Host.swapHost F.C rand F.decU F.decP utf8 env cpus chk dbg pad img p t a = Guest.swap chk p t a := by
  rw [C46_tape false p t a pad hpad] at hr
  have pass : ∀ o, Host.wantSwap chk p t a = some o → Guest.swap false p t a = some o →
      Host.swapHost F.C rand F.decU F.decP utf8 env cpus chk dbg pad img p t a = some o := by
    rintro ⟨⟨x0, x1⟩, ⟨y0, y1⟩⟩ h1 h2
    unfold Host.swapHost
    rw [hr, h1, h2, Option.bind_some, Option.bind_some]
    refine if_pos ⟨?_, ?_⟩
    · exact congr (congrArg _ (getWord_at (Guest.putWord x0 ++ Guest.putWord x1) _ rfl rfl))
        (getWord_at (Guest.putWord x0 ++ Guest.putWord x1 ++ Guest.putWord y0) [] rfl rfl)
    · exact congr (congrArg _ (getWord_at [] _ rfl rfl)) (getWord_at (Guest.putWord x0) _ rfl rfl)
  have stop : Host.wantSwap chk p t a = none →
      Host.swapHost F.C rand F.decU F.decP utf8 env cpus chk dbg pad img p t a = none := by
    intro h
    unfold Host.swapHost
    rw [hr, h]; rfl
  obtain ⟨w1, w2⟩ := C74_swap_want p t a
  cases chk with
  | true =>
    rw [w1]
    cases hw : Host.wantSwap true p t a with
    | none => exact stop hw
    | some o =>
      refine pass o hw ?_
      have hs := w1.trans hw
      rw [w2, if_neg, wantSwap_checked hw]
      intro hlt
      obtain ⟨am, d⟩ := t
      unfold Guest.swap at hs
      cases d
      · simp only [holdings, Bool.false_eq_true, if_false] at hlt hs
        rw [if_pos (by rw [BitVec.lt_def]; exact hlt)] at hs
        cases hs
      · simp only [holdings, if_true] at hlt hs
        rw [if_pos (by rw [BitVec.lt_def]; exact hlt)] at hs
        cases hs
  | false =>
    by_cases hlt : (holdings t.direction p a).traderSold < t.amount.toNat
    · rw [if_pos hlt] at w2
      rw [w2]
      cases hw : Host.wantSwap false p t a with
      | none => exact stop hw
      | some o =>
        unfold Host.swapHost
        rw [hr, hw, w2, Option.bind_some, Option.bind_some, if_neg]
        rintro ⟨he, -⟩
        obtain ⟨am, d⟩ := t
        have hne : ∀ b : Word, b.toNat < am.toNat → b - am ≠ 0#32 := by
          intro b hb h0
          have : b = am := by
            have := congrArg (· + am) h0
            simpa [BitVec.sub_add_cancel] using this
          rw [this] at hb; omega
        unfold Host.wantSwap at hw
        cases d
        · simp only [holdings, Bool.false_eq_true, if_false] at hlt hw
          simp only [Option.bind_eq_bind, Option.bind_eq_some_iff, sub_false, add_false] at hw
          obtain ⟨q, -, t1, -, p1, -, p0, -, a0, h5, a1, -, h7⟩ := hw
          cases h7
          exact hne _ hlt ((Option.some.inj h5).trans (congrArg Guest.Account.t1Balance he).symm)
        · simp only [holdings, if_true] at hlt hw
          simp only [Option.bind_eq_bind, Option.bind_eq_some_iff, sub_false, add_false] at hw
          obtain ⟨q, -, t1, -, p1, -, p0, -, a0, h5, a1, -, h7⟩ := hw
          cases h7
          exact hne _ hlt ((Option.some.inj h5).trans (congrArg Guest.Account.t0Balance he).symm)
    · rw [if_neg hlt] at w2
      rw [w2]
      cases hw : Host.wantSwap false p t a with
      | none => exact stop hw
      | some o => exact pass o hw (w2.trans hw)

/-- The host of uniswap, on the assembled market maker: with cycles enough it gets through exactly for the trades that
the guest accepts, and then reports the pool and the account after the trade. -/
theorem C88_uniswap_host (F : Fhe) (rand : Nat → Nat → Nat → F.C.Rand) (utf8 : List Byte → Bool) (env : Host.Env) (cpus : Nat)
    (chk dbg : Bool) (hn : 648 ≤ Host.maxCycles utf8 env 300) (hn' : Host.maxCycles utf8 env 300 < 2 ^ 32)
    (ht : 0 < Host.threads utf8 env cpus) (pad : List Byte) (hpad : pad.length = 3)
    (p : Guest.Pool) (t : Guest.Trade) (a : Guest.Account) :
    Host.swapHost F.C rand F.decU F.decP utf8 env cpus chk dbg pad ammImage p t a = Guest.swap chk p t a := by
  have hl : (Guest.swapInput p t a pad).length = 24 := by
    unfold Guest.swapInput
    simp [hpad, Guest.putWord]
  obtain ⟨⟨vm0, vm1, vm2, a1, a2, a3, a4⟩, ev, ev2, b1, b2, b3⟩ := C88_amm F rand chk dbg (Host.flag utf8 env "PHANTOM_DEBUG")
    (Host.threads utf8 env cpus) _ ht hn hn' _ hl
  exact swapHost_of F rand utf8 env cpus chk dbg pad hpad ammImage p t a
    ((C74_equal _ _ _ _ _ _ _ _ _ _ _ _).mpr ⟨⟨ev, ev2, b1, b2, b3⟩, vm0, vm1, vm2, a1, a2, a3, a4⟩)

/-- `MAX_CYCLES=700`, the numbers of the source. -/
example (chk dbg : Bool) : Host.swapHost sampleFhe.C (fun _ _ _ => ()) sampleFhe.decU sampleFhe.decP (fun _ => true)
    (fun s => if s = "MAX_CYCLES" then some [0x37#8, 0x30#8, 0x30#8] else none) 4 chk dbg [1#8, 2#8, 3#8] ammImage
    Host.swapPool Host.swapTrade Host.swapAccount = some (⟨150#32, 333#32⟩, ⟨10#32, 167#32⟩) :=
  (C88_uniswap_host sampleFhe _ _ _ _ _ _ (by decide) (by decide) (by decide) _ rfl _ _ _).trans
    (by cases chk <;> decide +kernel)
/-- A trader who lacks the amount. -/
example : Guest.swap false ⟨100, 500⟩ ⟨70, true⟩ ⟨60, 0⟩ = none ∧
    (Host.wantSwap false ⟨100, 500⟩ ⟨70, true⟩ ⟨60, 0⟩).isSome := by decide +kernel

/-- The six generated test cases of guest-test1 (C77), on the assembled guest: both VMs return the expected tape. -/
theorem C88_generated (F : Fhe) (rand : Nat → Nat → Nat → F.C.Rand) (chk dbg phantomDebug hostChk : Bool) (threads n : Nat)
    (ht : 0 < threads) (hn : 956 ≤ n) (hn' : n < 2 ^ 32) (pad : BitVec 32 → Bool → List (BitVec 8))
    (hpad : ∀ a b, (pad a b).length = 3) :
    ∃ cs, Gen.testCases hostChk pad = some cs ∧ cs.length = 6 ∧
      ∀ c ∈ cs, Host.bothTapes F.C rand F.decU F.decP chk dbg phantomDebug threads sumsImage c.1 n = some c.2 := by
  obtain ⟨cs, h1, h2, h3, -⟩ := C77_cases hostChk false pad
  refine ⟨cs, h1, h2, fun c hc => ?_⟩
  have hl : c.1.length = 8 := by
    rw [testCases_eq] at h1
    rw [← Option.some.inj h1] at hc
    simp only [List.mem_cons, List.not_mem_nil, or_false] at hc
    rcases hc with rfl | rfl | rfl | rfl | rfl | rfl <;> simp [Gen.inputBytes, Guest.putWord, hpad]
  obtain ⟨⟨vm0, vm1, vm2, a1, a2, a3, a4⟩, ev, ev2, b1, b2, b3⟩ := C88_test1 F rand chk dbg phantomDebug threads n ht hn hn' c.1 hl
  rw [h3 c hc] at a4 b3
  exact (C74_equal _ _ _ _ _ _ _ _ _ _ _ _).mpr ⟨⟨ev, ev2, b1, b2, b3⟩, vm0, vm1, vm2, a1, a2, a3, a4⟩

example := C88_generated sampleFhe (fun _ _ _ => ()) true true true true 3 1000 (by decide) (by decide) (by decide)
  (fun _ _ => [1, 2, 3]) (fun _ _ => rfl)

end Verif.Props
