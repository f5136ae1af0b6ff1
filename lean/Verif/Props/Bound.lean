import Verif.Props.Static
import Verif.Spec.Bound
/-
  Property C108: a number of cycles that is enough for all inputs.
-/
namespace Verif.Props
open Model Spec

/-- What a node knows is right in a state. -/
def BNode.has (x : BNode) (s : Arch) : Prop := ∀ p ∈ x.regs, p.2.has (s.x p.1) = true

theorem over_has {A : AbsRegs} {s : Arch} (x : BNode) (hA : A.has s) (hx : BNode.has x s) : (x.over A).has s := by
  obtain ⟨regs, b⟩ := x
  unfold BNode.over
  unfold BNode.has at hx
  dsimp only at hx ⊢
  clear b
  induction regs generalizing A with
  | nil => exact hA
  | cons p ps ih =>
    refine ih (has_of_x (s := s.setX p.1 (s.x p.1)) (AbsRegs.set_has hA (hx p (.head _))) fun r => ?_) fun q hq => hx q (.tail _ hq)
    rw [Arch.x_setX]
    by_cases h0 : r = 0#5
    · rw [if_pos h0, h0]; rfl
    · rw [if_neg h0]
      by_cases h : r = p.1
      · rw [if_pos h, h]
      · rw [if_neg h]

theorem reaches_node {G : BGraph} {A : AbsRegs} {b : Nat} {s : Arch} (h : G.reaches A b s.pc = true) (hA : A.has s) :
    ∃ ys y, G[s.pc.toNat / 4]? = some ys ∧ y ∈ ys ∧ y.bound < b ∧ BNode.has y s := by
  unfold BGraph.reaches at h
  cases e : G[s.pc.toNat / 4]? with
  | none => rw [e] at h; cases h
  | some ys =>
    rw [e] at h
    simp only [List.any_eq_true, Bool.and_eq_true, decide_eq_true_eq, List.all_eq_true] at h
    obtain ⟨y, hy, hb, hr⟩ := h
    exact ⟨ys, y, rfl, hy, hb, fun p hp => Abs.le_has (hr p hp) (hA p.1)⟩

/-- A node is at the final loop, or after the step there is a node with a smaller bound. -/
theorem node_step {code : List Instr} {T : Table} {G : BGraph} {b : Nat} (hg : checkBound code T G b = true)
    {s : Arch} {xs : List BNode} {x : BNode} {i : Instr} (hs : InTable T s) (hi : code[s.pc.toNat / 4]? = some i)
    (hxs : G[s.pc.toNat / 4]? = some xs) (hx : x ∈ xs) (hh : BNode.has x s) :
    i = .jal 0#5 0#20 ∨ ∃ ys y, G[(execTest ramBase 4096 i s).pc.toNat / 4]? = some ys ∧ y ∈ ys ∧ y.bound < x.bound ∧
      BNode.has y (execTest ramBase 4096 i s) := by
  obtain ⟨h4, A, hA, hs⟩ := hs
  unfold checkBound at hg
  simp only [Bool.and_eq_true, List.all_eq_true, List.mem_range] at hg
  have hk := hg.2 _ (List.getElem?_eq_some_iff.mp hi).1
  have epc : BitVec.ofNat 32 (4 * (s.pc.toNat / 4)) = s.pc := by
    rw [show 4 * (s.pc.toNat / 4) = s.pc.toNat by omega, BitVec.ofNat_toNat, BitVec.setWidth_eq]
  rw [hi, hA, hxs, epc] at hk
  have hk := List.all_eq_true.mp hk x hx
  unfold BNode.ok at hk
  simp only [Bool.or_eq_true, beq_iff_eq, Bool.and_eq_true, List.all_eq_true] at hk
  rcases hk with hk | ⟨hck, hnx⟩
  · exact Or.inl hk
  · have ho := over_has x hs hh
    exact Or.inr (reaches_node (hnx _ (nexts_pc ramBase 4096 false i ho hck)) (after_has ramBase 4096 i ho))

/-- From a node, at most as many steps as its bound lead to the final loop. -/
theorem bound_runs {code : List Instr} {words : List Word} {T : Table} {G : BGraph} {b : Nat} {win : Bool} {rom : List Byte}
    {fetch : Word → Option Instr}
    (hc : checkProgram win code T = true) (hg : checkBound code T G b = true) (hlen : code.length < 2 ^ 30)
    (hrom : rom = wordBytes words) (htx : T.text code words = true) (hf : FetchTest rom fetch) (k : Nat) :
    ∀ (s : Arch) (xs : List BNode) (x : BNode), InTable T s → G[s.pc.toNat / 4]? = some xs → x ∈ xs → BNode.has x s → x.bound ≤ k →
      ∃ m s1, m ≤ k ∧ fetch s1.pc = some (.jal 0#5 0#20) ∧ s1.pc.toNat % 4 = 0 ∧ s1.pc.toNat < rom.length ∧
        ∀ chk, (chk = true → win = true) → RunsIf fetch (bothOk chk rom.length) (execTest ramBase 4096) m s s1 := by
  have hl : T.length = code.length := by
    unfold checkProgram at hc
    simp only [Bool.and_eq_true, beq_iff_eq] at hc
    exact hc.1.1
  induction k with
  | zero =>
    intro s xs x hs hxs hx hh hb
    obtain ⟨i, h1, h2, -⟩ := table_step hc hlen hrom htx hf hs
    obtain ⟨j, hj⟩ : ∃ j, code[s.pc.toNat / 4]? = some j := by
      obtain ⟨-, A, hA, -⟩ := hs
      exact ⟨_, List.getElem?_eq_getElem (by rw [← hl]; exact (List.getElem?_eq_some_iff.mp hA).1)⟩
    rcases node_step hg hs hj hxs hx hh with e | ⟨_, y, -, -, hlt, -⟩
    · exact ⟨0, s, Nat.le_refl _, by rw [code_fetch hrom htx hf hs hj, e], hs.1, h2, fun _ _ => .zero s⟩
    · exact absurd hlt (by omega)
  | succ k ih =>
    intro s xs x hs hxs hx hh hb
    obtain ⟨i, h1, h2, h3, h4, h5, h6, h7, h8, h9⟩ := table_step hc hlen hrom htx hf hs
    obtain ⟨j, hj⟩ : ∃ j, code[s.pc.toNat / 4]? = some j := by
      obtain ⟨-, A, hA, -⟩ := hs
      exact ⟨_, List.getElem?_eq_getElem (by rw [← hl]; exact (List.getElem?_eq_some_iff.mp hA).1)⟩
    have hfj := code_fetch hrom htx hf hs hj
    cases Option.some.inj (h1.symm.trans hfj)
    rcases node_step hg hs hj hxs hx hh with e | ⟨ys, y, hys, hy, hlt, hhy⟩
    · exact ⟨0, s, Nat.zero_le _, by rw [hfj, e], hs.1, h2, fun _ _ => .zero s⟩
    · obtain ⟨m, s1, hm, g1, g2, g3, g4⟩ := ih _ ys y h9 hys hy hhy (by omega)
      refine ⟨m + 1, s1, by omega, g1, g2, g3, fun chk hw => .succ h1 ⟨⟨?_, h2⟩, h7⟩ (g4 chk hw)⟩
      rintro (h | h | h | ⟨h, h' | h'⟩)
      · exact h3 h
      · exact h4 h
      · exact h5 h
      · exact h8 (hw h) h'
      · exact h6 h'

/-! ### The property -/

/-- A program that passes both checks, on any input: with any number of cycles from the bound on, in every build (a debug build if the first check
was with `win`), with any library, randomness and number of threads, both VMs return one and the same output. -/
theorem C108_enough (win : Bool) (b : Nat) (e : Elf) (p : Phantom)
    (code : List Instr) (T : Table) (G : BGraph) (tape : List Byte) (hfile : e.bytes.length < 2 ^ 63) (hp : Phantom.fromElf e = some p)
    (words : List Word) (hrom : p.bootRom.data = wordBytes words) (htx : T.text code words = true) (hne : code ≠ []) (hsize : code.length < 2 ^ 30)
    (hpa : ∀ dbg, (Parser.new.addAll dbg words).isSome = true) (hbase : p.bootRam.offset = ramBase) (hlen : tape.length = p.input.size)
    (hlo : ramBase ≤ p.input.startAddr) (hhi : p.input.startAddr + p.input.size ≤ ramBase + 4096)
    (hb : ramBase ≤ p.output.startAddr) (he : p.output.startAddr + p.output.size ≤ ramBase + 4096)
    (hc : checkProgram win code T = true) (hg : checkBound code T G b = true) :
    ∃ out, ∀ (F : Fhe) (rand : Nat → Nat → Nat → F.C.Rand) (chk dbg : Bool) (threads n : Nat), 0 < threads → (chk = true → win = true) →
      b ≤ n → n < 2 ^ 32 → Host.bothTapes F.C rand F.decU F.decP chk dbg false threads p tape n = some out := by
  have hl : p.bootRom.data.length = 4 * code.length := by rw [hrom, wordBytes_length, text_length htx]
  obtain ⟨ft, bytes, _, _, hft, hin, -⟩ := C97_testvm false b e p tape hfile hp hbase hlen hlo hhi hb he
  have hr : G.reaches (List.replicate 32 (.oneOf [0#32])) (b + 1) (startState bytes).pc = true := by
    unfold checkBound at hg
    exact (Bool.and_eq_true _ _ ▸ hg).1
  obtain ⟨xs, x, hxs, hx, hxb, hh⟩ := reaches_node hr (has_start bytes)
  obtain ⟨m, s1, hm, g1, g2, g3, g4⟩ := bound_runs hc hg hsize hrom htx hft b _ xs x (start_in hc bytes) hxs hx hh (by omega)
  refine ⟨ramBytes s1 (p.output.startAddr - ramBase) p.output.size, fun F rand chk dbg threads n ht hw hbn hn => ?_⟩
  obtain ⟨q, hq⟩ := Option.isSome_iff_exists.mp (hpa dbg)
  obtain ⟨ev, hev⟩ := C42_setup F rand dbg false threads n e p tape q hp (by omega)
    (fun h => by rw [h] at hl; rw [List.length_nil] at hl; exact hne (List.length_eq_zero_iff.mp (by omega)))
    (by rw [hrom, packWords_wordBytes]; exact hq) hlen (by rw [hbase]; exact hlo) (by rw [hbase]; exact hhi)
  obtain ⟨fetch, bytes', hf, hin', hall⟩ := C99_output F rand chk dbg threads n e p tape ev hfile hp ht hn hev hbase hlen hlo hhi hb he
  cases placed_unique hin' hin
  have hsame : ft = fetch := by
    funext pc
    exact Option.ext fun i => (hft pc i).trans (hf pc i).symm
  cases hsame
  have hrun := runsIf_append (g4 chk hw) (loop_runs (chk := chk) g1 g2 g3 (n - m))
  rw [show m + (n - m) = n by omega] at hrun
  obtain ⟨vm0, vm1, vm2, ev2, h1, h2, h3, h4, h5, h6⟩ := hall s1 hrun
  exact (C74_equal _ _ _ _ _ _ _ _ _ _ _ _).mpr ⟨⟨ev, ev2, hev, h4, h6⟩, vm0, vm1, vm2, h1, h2, h3, h5⟩

/-- For a file of a program and its data as in C88. -/
theorem C108_assembled (win : Bool) (b : Nat) (code : List Instr) (data tape : List Byte) (inSize outOff outSize : Nat) (T : Table) (G : BGraph)
    (hne : code ≠ []) (hsize : code.length ≤ 2 ^ 16) (hpa : ∀ dbg, (Parser.new.addAll dbg (code.map encode)).isSome = true)
    (hd0 : 0 < data.length) (hd : data.length ≤ 4096) (hlen : tape.length = inSize) (hin : inSize ≤ 4096) (ho : outOff + outSize ≤ 4096)
    (hc : checkProgram win code T = true) (hg : checkBound code T G b = true) :
    ∃ out, ∀ (F : Fhe) (rand : Nat → Nat → Nat → F.C.Rand) (chk dbg : Bool) (threads n : Nat), 0 < threads → (chk = true → win = true) →
      b ≤ n → n < 2 ^ 32 →
      Host.bothTapes F.C rand F.decU F.decP chk dbg false threads (asmImage code data inSize outOff outSize) tape n = some out :=
  C108_enough win b (asmElf code data inSize outOff outSize) (asmImage code data inSize outOff outSize) code T G tape
    (by
      show (wordBytes (code.map encode) ++ data).length < _
      rw [List.length_append, wordBytes_length, List.length_map]
      omega)
    (asm_elf code data inSize outOff outSize hd0 hd) _ rfl (text_self _ _) hne (by omega) hpa rfl hlen (Nat.le_refl _) (Nat.add_le_add_left hin _)
    (Nat.le_add_right _ _) (by show 0x40000 + outOff + outSize ≤ 0x40000 + 4096; omega) hc hg

/-- No table, graph and bound pass for the program of C100 that counts down from its input. -/
theorem C108_none (win : Bool) (T : Table) (G : BGraph) (b : Nat) (hb : b < 2 ^ 32 - 4) (hc : checkProgram win downCode T = true) :
    checkBound downCode T G b = false := by
  rw [← Bool.not_eq_true]
  intro hg
  obtain ⟨out, hall⟩ := C108_enough win b downElf downGuest downCode T G (fourBytes (BitVec.ofNat 32 (2 ^ 30 - 2))) (by decide +kernel) down_elf
    (downCode.map encode) (by decide +kernel) (text_self _ _) (by decide) (by decide) (fun dbg => by cases dbg <;> decide +kernel) (by decide +kernel)
    (Eq.trans (b := 4) rfl (by decide +kernel)) (by decide +kernel) (by decide +kernel) (by decide +kernel) (by decide +kernel) hc hg
  have run := fun n (hbn : b ≤ n) (hn : n < 2 ^ 32) =>
    hall sampleFhe (fun _ _ _ => ()) false false 1 n (by decide) (fun h => by cases h) hbn hn
  have gives : ∀ n, b ≤ n → n < 2 ^ 32 → out = fourBytes (BitVec.ofNat 32 (if 4 * (2 ^ 30 - 2) + 4 ≤ n then 2 ^ 30 - 2 else 0)) := by
    intro n hbn hn
    obtain ⟨-, vm0, vm1, vm2, h1, h2, h3, h5⟩ := (C74_equal _ _ _ _ _ _ _ _ _ _ _ _).mp (run n hbn hn)
    obtain ⟨um0, um1, um2, _, _, k1, k2, k3, -, -, k5, -⟩ :=
      C100_countdown sampleFhe (fun _ _ _ => ()) false false 1 n (2 ^ 30 - 2) (by decide) hn (by decide)
    cases Option.some.inj (k1.symm.trans h1)
    cases Option.some.inj (k2.symm.trans h2)
    cases Option.some.inj (k3.symm.trans h3)
    exact Option.some.inj (h5.symm.trans k5)
  have e := (gives b (Nat.le_refl _) (by omega)).symm.trans (gives (2 ^ 32 - 4) (by omega) (by decide))
  rw [if_neg (by omega), if_pos (by decide)] at e
  exact absurd e (by decide)

example (G : BGraph) : checkBound downCode (tableOf downCode 4) G 1000000 = false := C108_none true _ G _ (by decide) down_checked

/-! ### Programs with their bounds -/

/-- The registers to follow: the counters of the loops. -/
def ammTrack (k : Nat) : List Reg := if 20 ≤ k ∧ k ≤ 26 then [13] else if 30 ≤ k ∧ k ≤ 41 then [19] else []
def matchTrack (k : Nat) : List Reg := if 3 ≤ k ∧ k ≤ 9 then [5] else []

-- uniswap with 648 cycles (the number of C88), string-match with a word for each character with 42
theorem amm_bound : checkBound amm (tableOf amm 4) (graphOf amm (tableOf amm 4) ammTrack 1000) 648 = true := by decide +kernel
theorem match_bound :
    checkBound (matcher .lw 4) (tableOf (matcher .lw 4) 6) (graphOf (matcher .lw 4) (tableOf (matcher .lw 4) 6) matchTrack 100) 42 = true := by
  decide +kernel
-- the linked file of uniswap with 657, the number of C89
theorem linked_bound :
    checkBound ammLinked (tableOf ammLinked 4) (graphOf ammLinked (tableOf ammLinked 4) (fun k => ammTrack (k - 11)) 1000) 657 = true := by
  decide +kernel
-- one less is not passed; nor is a loop with a counter that is not followed
example : checkBound amm (tableOf amm 4) (graphOf amm (tableOf amm 4) ammTrack 1000) 647 = false := by decide +kernel
example : checkBound (matcher .lw 4) (tableOf (matcher .lw 4) 6) (graphOf (matcher .lw 4) (tableOf (matcher .lw 4) 6) (fun _ => []) 100) 1000 = false := by
  decide +kernel

-- the theorem applies: to every tape there is one output, for every build and every number of cycles from 648 on
example (tape : List Byte) (h : tape.length = 24) :
    ∃ out, ∀ (F : Fhe) (rand : Nat → Nat → Nat → F.C.Rand) (chk dbg : Bool) (threads n : Nat), 0 < threads → (chk = true → true = true) →
      648 ≤ n → n < 2 ^ 32 → Host.bothTapes F.C rand F.decU F.decP chk dbg false threads ammImage tape n = some out :=
  C108_assembled true 648 amm _ tape 24 24 16 _ _ (by decide) (by decide) (fun dbg => by cases dbg <;> decide +kernel)
    (by decide) (by decide) h (by decide) (by decide) amm_checked amm_bound
-- to the linked file
example (e : Elf) (p : Phantom) (hfile : e.bytes.length < 2 ^ 63) (hp : Phantom.fromElf e = some p) (hl : AmmLoaded p) (tape : List Byte)
    (h : tape.length = 24) :
    ∃ out, ∀ (F : Fhe) (rand : Nat → Nat → Nat → F.C.Rand) (chk dbg : Bool) (threads n : Nat), 0 < threads → (chk = true → true = true) →
      657 ≤ n → n < 2 ^ 32 → Host.bothTapes F.C rand F.decU F.decP chk dbg false threads p tape n = some out :=
  C108_enough true 657 e p ammLinked _ _ tape hfile hp ammText hl.rom linked_text (by decide +kernel) (by decide +kernel)
    (fun dbg => by cases dbg <;> decide +kernel) hl.base (by rw [hl.input]; exact h) (by rw [hl.input]; decide) (by rw [hl.input]; decide)
    (by rw [hl.output]; decide) (by rw [hl.output]; decide) linked_checked linked_bound

end Verif.Props
