import Verif.Props.EndToEnd
import Verif.Model.Boot
import Verif.Spec.Boot
/-
  C56: the start-up code reaches the guest's entry point with its registers set up.
  C57: a guest that has reached its final loop stays there, whatever the number of cycles.
-/
namespace Verif.Props
open Model Spec Model.Boot

/-- The two parts of a distance add up to it. -/
theorem hi_lo (d : Word) : immU (hi20 d) + immI (lo12 d) = d := by
  apply BitVec.eq_of_toNat_eq
  have hd := d.isLt
  have e1 : (immU (hi20 d)).toNat = ((d.toNat + 2048) % 2 ^ 32) / 4096 % 2 ^ 20 * 4096 % 2 ^ 32 := by
    unfold immU hi20
    simp [BitVec.toNat_shiftLeft, BitVec.toNat_ushiftRight, Nat.shiftRight_eq_div_pow, Nat.shiftLeft_eq]
  have e2 : (immI (lo12 d)).toNat = if d.toNat % 4096 < 2048 then d.toNat % 4096 else d.toNat % 4096 + (2 ^ 32 - 4096) := by
    unfold immI lo12
    rw [BitVec.toNat_signExtend]
    have hm : (BitVec.setWidth 12 d).msb = decide (2048 ≤ d.toNat % 4096) := by
      rw [BitVec.msb_eq_decide]; simp
    rw [hm]
    by_cases h : d.toNat % 4096 < 2048
    · rw [if_pos h, if_neg (by simp; omega)]; simp; omega
    · rw [if_neg h, if_pos (by simp; omega)]; simp; omega
  rw [BitVec.toNat_add, e1, e2]
  split <;> omega

/-- A field of the right size encodes the distance exactly. -/
theorem jump_field (d : Word) (h2 : d.toNat % 2 = 0) (hr : -2 ^ 20 ≤ d.toInt ∧ d.toInt < 2 ^ 20) :
    immJ (jumpField d) = d := by
  have hd := d.isLt
  have hi : d.toInt = if d.toNat < 2 ^ 31 then (d.toNat : Int) else (d.toNat : Int) - 2 ^ 32 := by
    rw [BitVec.toInt_eq_toNat_cond]
    split <;> split <;> omega
  apply BitVec.eq_of_toNat_eq
  unfold immJ jumpField
  rw [BitVec.toNat_shiftLeft, BitVec.toNat_signExtend]
  have hm : (BitVec.setWidth 20 (d >>> 1)).msb = decide (2 ^ 19 ≤ d.toNat / 2 % 2 ^ 20) := by
    rw [BitVec.msb_eq_decide]; simp [Nat.shiftRight_eq_div_pow]
  have hs : (BitVec.setWidth 32 (BitVec.setWidth 20 (d >>> 1))).toNat = d.toNat / 2 % 2 ^ 20 := by
    simp [Nat.shiftRight_eq_div_pow]; omega
  rw [hm, hs, Nat.shiftLeft_eq]
  split at hi
  · rw [if_neg (by simp; omega)]; omega
  · rw [if_pos (by simp; omega)]; omega

/-- The program memory starts with the start-up code. -/
def BootAt (fetch : Word → Option Instr) (gp sp entry : Word) : Prop :=
  ∀ (k : Nat) (i : Instr), (bootWords gp sp entry)[k]? = some (encode i) → fetch (BitVec.ofNat 32 (4 * k)) = some i

theorem setX_x (s : Arch) (r k : Reg) (v : Word) (hr : r ≠ 0#5) :
    (s.setX r v).x k = if k = r then v else s.x k := by
  unfold Arch.setX Arch.x
  by_cases h : k = 0#5
  · subst h
    rw [if_pos rfl, if_pos rfl, if_neg (fun e => hr e.symm)]
  · simp only [h, if_false]
    by_cases h2 : k = r
    · rw [if_pos ⟨h2, hr⟩, if_pos h2]
    · rw [if_neg (fun c => h2 c.1), if_neg h2]

/-- On the manual's machine: seven instructions lead from address 0 to the entry point. -/
theorem C56_isa (fetch : Word → Option Instr) (s : Arch) (gp sp entry : Word) (hpc : s.pc = 0#32)
    (hx : (s.x 10#5).toInt ≤ 0) (hb : BootAt fetch gp sp entry) (h4 : entry.toNat % 4 = 0)
    (hr : entry.toNat < 2 ^ 18) :
    ∃ s', Runs fetch (fun i s => i.harmless s ∧ i.encSupported s) 7 s s' ∧ s'.pc = entry ∧ s'.mem = s.mem ∧
      ∀ r, s'.x r = bootRegs 32#32 gp sp s.x r := by
  have f0 := hb 0 (.auipc 3#5 (hi20 (gp - 0#32))) rfl
  have f1 := hb 1 (.opImm .addi 3#5 3#5 (lo12 (gp - 0#32))) rfl
  have f2 := hb 2 (.auipc 2#5 (hi20 (sp - 8#32))) rfl
  have f3 := hb 3 (.opImm .addi 2#5 2#5 (lo12 (sp - 8#32))) rfl
  have f4 := hb 4 (.opImm .addi 8#5 2#5 0#12) rfl
  have f5 := hb 5 (.branch .bge 0#5 10#5 4#12) rfl
  have f7 := hb 7 (.jal 1#5 (jumpField (entry - 28#32))) rfl
  have mk (i : Instr) (a : Arch) (rd : Reg) (v : Word) (hrd : rd ≠ 0#5) (he : exec i a = (a.setX rd v).next) :
      ∃ b, exec i a = b ∧ b.pc = a.pc + 4#32 ∧ b.mem = a.mem ∧ ∀ k, b.x k = if k = rd then v else a.x k :=
    ⟨_, he, rfl, rfl, fun k => setX_x a rd k v hrd⟩
  have add0 (x y : Word) : ImmOp.addi.eval x y = x + y := by
    apply BitVec.eq_of_toNat_eq
    simp [ImmOp.eval]
  obtain ⟨s1, q1, p1, m1, x1⟩ := mk (.auipc 3#5 (hi20 (gp - 0#32))) s 3#5 _ (by decide) rfl
  obtain ⟨s2, q2, p2, m2, x2⟩ := mk (.opImm .addi 3#5 3#5 (lo12 (gp - 0#32))) s1 3#5 _ (by decide) rfl
  obtain ⟨s3, q3, p3, m3, x3⟩ := mk (.auipc 2#5 (hi20 (sp - 8#32))) s2 2#5 _ (by decide) rfl
  obtain ⟨s4, q4, p4, m4, x4⟩ := mk (.opImm .addi 2#5 2#5 (lo12 (sp - 8#32))) s3 2#5 _ (by decide) rfl
  obtain ⟨s5, q5, p5, m5, x5⟩ := mk (.opImm .addi 8#5 2#5 0#12) s4 8#5 _ (by decide) rfl
  rw [hpc] at p1 x1
  rw [show (0#32 + 4#32 : Word) = BitVec.ofNat 32 (4 * 1) from rfl] at p1
  rw [p1, show (BitVec.ofNat 32 (4 * 1) + 4#32 : Word) = BitVec.ofNat 32 (4 * 2) from rfl] at p2
  rw [p2, show (BitVec.ofNat 32 (4 * 2) + 4#32 : Word) = BitVec.ofNat 32 (4 * 3) from rfl] at p3
  rw [p3, show (BitVec.ofNat 32 (4 * 3) + 4#32 : Word) = BitVec.ofNat 32 (4 * 4) from rfl] at p4
  rw [p4, show (BitVec.ofNat 32 (4 * 4) + 4#32 : Word) = BitVec.ofNat 32 (4 * 5) from rfl] at p5
  have vgp : s2.x 3#5 = gp := by
    rw [x2, if_pos rfl, add0, x1, if_pos rfl]
    have := hi_lo (gp - 0#32)
    simpa using this
  have vsp : s4.x 2#5 = sp := by
    rw [x4, if_pos rfl, add0, x3, if_pos rfl, p2, BitVec.add_assoc, hi_lo]
    show 8#32 + (sp - 8#32) = sp
    rw [BitVec.add_comm, BitVec.sub_add_cancel]
  have v5 (k : Reg) : s5.x k = if k = 2#5 ∨ k = 8#5 then sp else if k = 3#5 then gp else s.x k := by
    rw [x5]
    by_cases h8 : k = 8#5
    · rw [if_pos h8, if_pos (Or.inr h8), add0, vsp]
      show sp + 0#32 = sp
      simp
    · rw [if_neg h8]
      by_cases h2 : k = 2#5
      · rw [if_pos (Or.inl h2), h2, vsp]
      · rw [if_neg (by simp [h2, h8]), x4, if_neg h2, x3, if_neg h2]
        by_cases h3 : k = 3#5
        · rw [if_pos h3, h3, vgp]
        · rw [if_neg h3, x2, if_neg h3, x1, if_neg h3]
  have taken : BranchOp.bge.taken (s5.x 0#5) (s5.x 10#5) := by
    show (s5.x 10#5).toInt ≤ (s5.x 0#5).toInt
    have : s5.x 0#5 = 0#32 := rfl
    rw [this, v5, if_neg (by decide), if_neg (by decide)]
    exact hx
  have e6 : exec (.branch .bge 0#5 10#5 4#12) s5 = { s5 with pc := s5.pc + immB 4#12 } := by
    show (if _ then _ else _) = _
    rw [if_pos taken]
  have p6 : s5.pc + immB 4#12 = BitVec.ofNat 32 (4 * 7) := by rw [p5]; decide
  have hd : (entry - 28#32).toNat = (entry.toNat + (2 ^ 32 - 28)) % 2 ^ 32 := by
    rw [BitVec.toNat_sub]; simp; omega
  have enc20 : -2 ^ 18 ≤ (jumpField (entry - 28#32)).toInt ∧ (jumpField (entry - 28#32)).toInt < 2 ^ 18 := by
    rw [BitVec.toInt_eq_toNat_cond]
    have : (jumpField (entry - 28#32)).toNat = (entry - 28#32).toNat / 2 % 2 ^ 20 := by
      unfold jumpField
      simp [Nat.shiftRight_eq_div_pow]
    rw [this, hd]
    split <;> omega
  have e7 : immJ (jumpField (entry - 28#32)) = entry - 28#32 := by
    apply jump_field
    · omega
    · rw [BitVec.toInt_eq_toNat_cond, hd]
      split <;> omega
  have hj : BitVec.ofNat 32 (4 * 7) + immJ (jumpField (entry - 28#32)) = entry := by
    rw [e7]
    show 28#32 + (entry - 28#32) = entry
    rw [BitVec.add_comm, BitVec.sub_add_cancel]
  have next {n : Nat} {i : Instr} {a b s' : Arch} {p : Nat} (hp : a.pc = BitVec.ofNat 32 (4 * p))
      (hf : fetch (BitVec.ofNat 32 (4 * p)) = some i) (hlt : p < 256) (h1 : i.access a = none)
      (h2 : ∀ t, i.jumpsTo a = some t → t.toNat % 4 = 0) (h3 : ∀ o rd rs1 rs2, i ≠ .mul o rd rs1 rs2)
      (h4 : i.encSupported a) (he : exec i a = b)
      (hr : Runs fetch (fun i s => i.harmless s ∧ i.encSupported s) n b s') :
      Runs fetch (fun i s => i.harmless s ∧ i.encSupported s) (n + 1) a s' := by
    refine .succ (by rw [hp]; exact hf) ⟨⟨h1, h2, ?_, h3⟩, h4⟩ (by rw [he]; exact hr)
    rw [hp, BitVec.toNat_ofNat]
    omega
  have nm : ∀ {o rd rs1 imm} o' rd' rs1' rs2', Instr.opImm o rd rs1 imm ≠ .mul o' rd' rs1' rs2' := by
    intros; intro h; cases h
  have nu : ∀ {rd imm} o' rd' rs1' rs2', Instr.auipc rd imm ≠ .mul o' rd' rs1' rs2' := by
    intros; intro h; cases h
  have no {i : Instr} {a : Arch} (h : i.jumpsTo a = none) : ∀ t, i.jumpsTo a = some t → t.toNat % 4 = 0 := by
    intro t ht; rw [h] at ht; cases ht
  refine ⟨{ ({ s5 with pc := s5.pc + immB 4#12 } : Arch).setX 1#5 (BitVec.ofNat 32 (4 * 7) + 4#32) with
    pc := BitVec.ofNat 32 (4 * 7) + immJ (jumpField (entry - 28#32)) }, ?_, hj, ?_, ?_⟩
  · refine next (p := 0) hpc f0 (by decide) rfl (no rfl) nu trivial q1 ?_
    refine next p1 f1 (by decide) rfl (no rfl) nm trivial q2 ?_
    refine next p2 f2 (by decide) rfl (no rfl) nu trivial q3 ?_
    refine next p3 f3 (by decide) rfl (no rfl) nm trivial q4 ?_
    refine next p4 f4 (by decide) rfl (no rfl) nm trivial q5 ?_
    refine next p5 f5 (by decide) rfl ?_ (by intros; intro h; cases h) trivial e6 ?_
    · intro t ht
      simp only [Instr.jumpsTo, if_pos taken] at ht
      have := Option.some.inj ht
      rw [p6] at this
      rw [← this]; decide
    refine next p6 f7 (by decide) rfl ?_ (by intros; intro h; cases h) ?_ (by simp only [exec, p6]) (.zero _)
    · intro t ht
      have := Option.some.inj ht
      simp only [p6, hj] at this
      rw [← this]; exact h4
    · exact enc20
  · show s5.mem = s.mem
    rw [m5, m4, m3, m2, m1]
  · intro r
    have : ({ ({ s5 with pc := s5.pc + immB 4#12 } : Arch).setX 1#5 (BitVec.ofNat 32 (4 * 7) + 4#32) with
        pc := BitVec.ofNat 32 (4 * 7) + immJ (jumpField (entry - 28#32)) } : Arch).x r
        = (s5.setX 1#5 32#32).x r := rfl
    rw [this, setX_x _ _ _ _ (by decide), v5]
    rfl

/-! ### On the three VMs -/

open Classical in
/-- The instructions among the words of the start-up code. -/
noncomputable def bootFetch (gp sp entry : Word) (pc : Word) : Option Instr :=
  if pc.toNat % 4 = 0 then
    ((bootWords gp sp entry)[pc.toNat / 4]?).bind fun w =>
      if h : ∃ i, w = encode i then some h.choose else none
  else none

theorem bootFetch_at (gp sp entry : Word) : BootAt (bootFetch gp sp entry) gp sp entry := by
  intro k i h
  have hk : k < 9 := (List.getElem?_eq_some_iff.mp h).1
  have hp : (BitVec.ofNat 32 (4 * k)).toNat = 4 * k := by rw [BitVec.toNat_ofNat]; omega
  unfold bootFetch
  rw [hp, if_pos (by omega), show 4 * k / 4 = k by omega, h, Option.bind_some]
  have he : ∃ j, encode i = encode j := ⟨i, rfl⟩
  rw [dif_pos he]
  exact congrArg some (encode_injective _ _ he.choose_spec.symm)

theorem bootFetch_word {gp sp entry pc : Word} {i : Instr} (h : bootFetch gp sp entry pc = some i) :
    pc.toNat = 4 * (pc.toNat / 4) ∧ (bootWords gp sp entry)[pc.toNat / 4]? = some (encode i) := by
  unfold bootFetch at h
  split at h
  · next h4 =>
    obtain ⟨w, hw, h⟩ := Option.bind_eq_some_iff.mp h
    split at h
    · next he =>
      have hc := he.choose_spec
      have := Option.some.inj h
      rw [this] at hc
      rw [hw, hc]
      exact ⟨by omega, rfl⟩
    · cases h
  · cases h

/-- Registers after the start-up code, as a list. -/
def bootList (gp sp : Word) (regs : List Word) : List Word :=
  (((regs.set 1 32#32).set 2 sp).set 3 gp).set 8 sp

theorem bootList_get {gp sp : Word} {regs regs' : List Word} {s : Arch} (hl : regs.length = 32)
    (hl' : regs'.length = 32) (h : ∀ r : Reg, regs[r.toNat]? = some (s.x r))
    (h' : ∀ r : Reg, regs'[r.toNat]? = some (bootRegs 32#32 gp sp s.x r)) : regs' = bootList gp sp regs := by
  apply List.ext_getElem?
  intro k
  by_cases hk : k < 32
  · have e : (BitVec.ofNat 5 k).toNat = k := by rw [BitVec.toNat_ofNat]; omega
    have g := h (BitVec.ofNat 5 k)
    have g' := h' (BitVec.ofNat 5 k)
    rw [e] at g g'
    rw [g']
    have c (m : Nat) (hm : m < 32) : (BitVec.ofNat 5 k = BitVec.ofNat 5 m) ↔ m = k := by
      constructor
      · intro h
        have := congrArg BitVec.toNat h
        rw [e, BitVec.toNat_ofNat] at this
        omega
      · intro h; rw [h]
    unfold bootList bootRegs
    simp only [List.getElem?_set, List.length_set, hl, hk, g, c 1 (by decide), c 2 (by decide), c 3 (by decide),
      c 8 (by decide)]
    by_cases h8 : 8 = k
    · subst h8; simp
    · by_cases h3 : 3 = k
      · subst h3; simp
      · by_cases h2 : 2 = k
        · subst h2; simp
        · by_cases h1 : 1 = k
          · subst h1; simp
          · simp [h1, h2, h3, h8]
  · rw [List.getElem?_eq_none (by omega), List.getElem?_eq_none (by simp [bootList]; omega)]

theorem harmless_window {i : Instr} {s : Arch} (h : i.harmless s) (base size : Nat) : i.inWindow s base size := by
  intro a n ha
  rw [h.1] at ha; cases ha

theorem harmless_supported {i : Instr} {s : Arch} (h : i.harmless s) : i.supported s := by
  cases i with
  | load o rd rs1 imm => cases h.1
  | store o rs1 rs2 imm => cases h.1
  | mul o rd rs1 rs2 => exact absurd rfl (h.2.2.2 _ _ _ _)
  | _ => trivial

theorem harmless_not_stuck {i : Instr} {s : Arch} (h : i.harmless s) (chk : Bool) (base : Nat) :
    ¬ stuck i s chk base := by
  rintro (⟨t, ht, hm⟩ | ha | hd | ⟨-, ⟨a, n, hb, -⟩ | hf⟩)
  · exact hm (h.2.1 t ht)
  · cases i with
    | load o rd rs1 imm => cases h.1
    | store o rs1 rs2 imm => cases h.1
    | _ => exact ha
  · cases i with
    | mul o rd rs1 rs2 => exact absurd rfl (h.2.2.2 _ _ _ _)
    | _ => exact hd
  · rw [h.1] at hb; cases hb
  · have := hf.2
    have := h.2.2.1
    omega

/-- The test VM: from address 0, with a register x10 that is not positive, seven steps lead to the entry
point with the registers set up; the RAM is not touched. -/
theorem C56_testvm (chk : Bool) (vm : TestVM) (gp sp entry : Word) (hw : vm.WF) (hpc : vm.pc = 0#32)
    (h0 : vm.registers[0]? = some 0#32) (hx : ∀ a, vm.registers[10]? = some a → a.toInt ≤ 0)
    (hrom : ∀ k w, (bootWords gp sp entry)[k]? = some w → vm.rom.readWord chk (4 * k) = some w)
    (h4 : entry.toNat % 4 = 0) (hr : entry.toNat < 2 ^ 18) :
    ∃ vm', vm.steps chk 7 = some vm' ∧ vm'.pc = entry ∧ vm'.registers = bootList gp sp vm.registers ∧
      vm'.ram = vm.ram ∧ vm'.rom = vm.rom := by
  obtain ⟨s, hs⟩ := C36_shows vm hw h0
  obtain ⟨s', hrun, e1, e2, e3⟩ := C56_isa (bootFetch gp sp entry) s gp sp entry (hs.pcEq.symm.trans hpc)
    (hx _ (hs.reg 10#5)) (bootFetch_at gp sp entry) h4 hr
  obtain ⟨vm', g1, g2, g3, g4⟩ := C36_runs chk vm 7 s s' (bootFetch gp sp entry) hw hs
    (fun pc i h => by
      obtain ⟨q1, q2⟩ := bootFetch_word h
      rw [q1]; exact hrom _ _ q2)
    (hrun.mono (fun _ _ h => h) (fun i s h => ⟨harmless_not_stuck h.1 _ _, harmless_window h.1 _ _⟩))
  have hro : vm'.rom = vm.rom := congrArg (·.1) g3
  have ho : vm'.ram.offset = vm.ram.offset := congrArg (·.2.2.2.2.1) g3
  have hsz : vm'.ram.size = vm.ram.size := congrArg (·.2.2.2.2.2) g3
  refine ⟨vm', g1, g4.pcEq.trans e1, ?_, ?_, hro⟩
  · exact bootList_get hw.regs g2.regs hs.reg (fun r => by rw [g4.reg, e3])
  · have hdata : vm'.ram.data = vm.ram.data := by
      apply List.ext_getElem?
      intro k
      by_cases hk : k < vm.ram.size
      · rw [hs.mem k hk, g4.mem k (by rw [hsz]; exact hk), ho, e2]
      · rw [List.getElem?_eq_none (by rw [g2.len, hsz]; omega), List.getElem?_eq_none (by rw [hw.len]; omega)]
    cases hv : vm'.ram with
    | mk a b c =>
      cases hv' : vm.ram with
      | mk a' b' c' =>
        rw [hv, hv'] at ho hsz hdata
        simp only at ho hsz hdata
        rw [ho, hsz, hdata]

/-- The state of the manual's machine that a mirror at power-on shows. -/
theorem debug_shows (d : Debug) (hw : d.WF) (h0 : d.registers[0]? = some 0#32) : ∃ s, d.Shows s := by
  refine ⟨⟨d.pc, fun r => (d.registers[r.toNat]?).getD 0#32, fun a =>
    ((d.ram[(a.toNat - ramBase) / 4]?).getD 0#32).extractLsb' (8 * ((a.toNat - ramBase) % 4)) 8⟩, rfl, fun r => ?_, ?_⟩
  · have hlt : r.toNat < d.registers.length := by rw [hw.regs]; omega
    unfold Arch.x
    by_cases h : r = 0#5
    · subst h; rw [if_pos rfl]; exact h0
    · rw [if_neg h, List.getElem?_eq_getElem hlt]; simp [hlt]
  · intro k w hk j hj
    have hlt := (List.getElem?_eq_some_iff.mp hk).1
    have ht := hw.top
    have e : (BitVec.ofNat 32 (ramBase + 4 * k + j)).toNat = ramBase + 4 * k + j := by
      rw [BitVec.toNat_ofNat]; omega
    show ((d.ram[_]?).getD 0#32).extractLsb' _ 8 = _
    rw [e, show (ramBase + 4 * k + j - ramBase) / 4 = k by omega,
      show (ramBase + 4 * k + j - ramBase) % 4 = j by omega, hk]
    rfl

/-- RAM words shown by two states with the same memory are equal. -/
theorem debug_ram_eq {d d' : Debug} {s s' : Arch} (hs : d.Shows s) (hs' : d'.Shows s') (hm : s'.mem = s.mem)
    (hl : d'.ram.length = d.ram.length) : d'.ram = d.ram := by
  apply List.ext_getElem?
  intro k
  by_cases hk : k < d.ram.length
  · have e := List.getElem?_eq_getElem hk
    have e' := List.getElem?_eq_getElem (hl ▸ hk : k < d'.ram.length)
    rw [e, e']
    refine congrArg some (BitVec.eq_of_getLsbD_eq fun i hi => ?_)
    have h1 := hs.mem _ _ e (i / 8) (by omega)
    have h2 := hs'.mem _ _ e' (i / 8) (by omega)
    rw [hm, h1] at h2
    have h3 := congrArg (fun x => x.getLsbD (i % 8)) h2
    simp only [BitVec.getLsbD_extractLsb', show i % 8 < 8 by omega, decide_true, Bool.true_and,
      show 8 * (i / 8) + i % 8 = i by omega] at h3
    exact h3.symm
  · rw [List.getElem?_eq_none (by omega), List.getElem?_eq_none (by omega)]

theorem debug_boot (dbg : Bool) (d : Debug) (m : Nat) (gp sp entry : Word) (hw : d.WF) (hm : d.ram.length = 2 ^ m)
    (hpc : d.pc = 0#32) (h0 : d.registers[0]? = some 0#32) (hx : ∀ a, d.registers[10]? = some a → a.toInt ≤ 0)
    (hrom : ∀ (k : Nat) (w : Word), (bootWords gp sp entry)[k]? = some w → d.rom[k]? = decodeWord dbg w)
    (h4 : entry.toNat % 4 = 0) (hr : entry.toNat < 2 ^ 18) :
    ∃ d', Spec.cycles 7 d = some d' ∧ d'.pc = entry ∧ d'.registers = bootList gp sp d.registers ∧
      d'.ram = d.ram ∧ d'.rom = d.rom := by
  obtain ⟨s, hs⟩ := debug_shows d hw h0
  obtain ⟨s', hrun, e1, e2, e3⟩ := C56_isa (bootFetch gp sp entry) s gp sp entry (hs.pcEq.symm.trans hpc)
    (hx _ (hs.reg 10#5)) (bootFetch_at gp sp entry) h4 hr
  obtain ⟨d', g1, g2, g3, g4, g5⟩ := C35_encrypted_runs_partial d 7 m s s' (bootFetch gp sp entry) dbg hw hs hm
    (fun pc i h => by
      obtain ⟨q1, q2⟩ := bootFetch_word h
      exact hrom _ _ q2)
    (hrun.mono (fun _ _ h => h) (fun i s h => ⟨⟨harmless_supported h.1, harmless_window h.1 _ _⟩, h.2⟩))
  exact ⟨d', g1, g5.pcEq.trans e1, bootList_get hw.regs g2.regs hs.reg (fun r => by rw [g5.reg, e3]),
    debug_ram_eq hs g5 e2 g4, g3⟩

/-- The encrypted VM, under any correct library: after set-up with a program that starts with the start-up
code, seven cycles lead to the entry point with the registers set up; the RAM still decrypts to the image. -/
theorem C56_encrypted (F : Fhe) (rand : Nat → Nat → Nat → F.C.Rand) (dbg : Bool) (romSize m threads : Nat)
    (ws : List Word) (p : Parser) (data : List Word) (enc : Interp F.B) (gp sp entry : Word) (ht : 0 < threads)
    (hp : Parser.new.addAll dbg ws = some p) (hb : bootWords gp sp entry <+: ws)
    (hl : Interp.load F.C rand dbg romSize (2 ^ m) threads p data = some enc) (hlen : data.length ≤ 2 ^ m)
    (hm : ramBase + 4 * 2 ^ m ≤ 2 ^ 32) (h4 : entry.toNat % 4 = 0) (hr : entry.toNat < 2 ^ 18) :
    ∃ enc', Interp.run 7 enc = some enc' ∧ F.decU enc'.pc = entry ∧
      enc'.registers.decrypt F.C (List.replicate 32 0#32) = some (bootList gp sp (List.replicate 32 0#32)) ∧
      enc'.decryptRam F.C (List.replicate (2 ^ m) 0#32)
        = some (data ++ List.replicate (2 ^ m - data.length) 0#32) := by
  obtain ⟨ds, hd, hds⟩ := decodeProgram_words dbg ws p hp
  have hram : (Debug.image romSize (2 ^ m) ds data).ram.length = 2 ^ m := by
    simp [Debug.image]; omega
  obtain ⟨d', c1, c2, c3, c4, -⟩ := debug_boot dbg (Debug.image romSize (2 ^ m) ds data) m gp sp entry
    ⟨rfl, by rw [hram]; exact Nat.two_pow_pos m, by rw [hram]; exact hm⟩ hram rfl rfl
    (fun a ha => by
      have : a = 0#32 := (Option.some.inj ha).symm
      rw [this]; decide)
    (fun k w hk => by
      have hw : ws[k]? = some w := by
        obtain ⟨t, rfl⟩ := hb
        rw [List.getElem?_append_left (List.getElem?_eq_some_iff.mp hk).1, hk]
      have := congrArg (·[k]?) hds
      simp only [List.getElem?_map, hw, Option.map_some] at this
      obtain ⟨x, hx, hx2⟩ := Option.map_eq_some_iff.mp this.symm
      show (ds ++ _)[k]? = _
      rw [List.getElem?_append_left (List.getElem?_eq_some_iff.mp hx).1, hx, hx2]) h4 hr
  obtain ⟨enc', e1, -, e2, e3, e4⟩ := C30_exact F rand dbg romSize (2 ^ m) threads p data enc ds ht hd hl 7
    (by decide) d' c1
  rw [c4] at e3
  rw [hram] at e3
  exact ⟨enc', e1, (e4 (by decide)).trans c2, by rw [e2, c3]; rfl, e3⟩

/-- Addresses as the linker script gives them: a global pointer in the RAM, the stack at the top of the RAM,
the entry point just after the start-up code.  The registers are x1 = 32, x2 = x8 = 0x41000, x3 = 0x40810. -/
example : ∃ p enc enc' regs, Parser.new.addAll true (bootWords 0x40810#32 stackStart 36#32 ++ [spin]) = some p ∧
    Interp.load sampleFhe.C (fun _ _ _ => ()) true 10 (2 ^ 2) 3 p [7#32] = some enc ∧
    Interp.run 7 enc = some enc' ∧ sampleFhe.decU enc'.pc = 36#32 ∧
    enc'.registers.decrypt sampleFhe.C (List.replicate 32 0#32) = some regs ∧
    regs[1]? = some 32#32 ∧ regs[2]? = some 0x41000#32 ∧ regs[8]? = some 0x41000#32 ∧ regs[3]? = some 0x40810#32 := by
  have h1 : (Parser.new.addAll true (bootWords 0x40810#32 stackStart 36#32 ++ [spin])).isSome = true := by
    decide +kernel
  obtain ⟨p, hp⟩ := Option.isSome_iff_exists.mp h1
  obtain ⟨ds, hd, hds⟩ := decodeProgram_words true _ p hp
  obtain ⟨enc, he⟩ := load_total (C := sampleFhe.C) (rand := fun _ _ _ => ()) true 10 (2 ^ 2) 3 p ds [7#32] hd
    (by decide) (by decide) (by
      have := congrArg List.length hds
      simp [bootWords, la] at this
      omega) (by decide)
  obtain ⟨enc', e1, e2, e3, -⟩ := C56_encrypted sampleFhe _ true 10 2 3 _ p [7#32] enc 0x40810#32 stackStart 36#32
    (by decide) hp (List.prefix_append _ _) he (by decide) (by decide) (by decide) (by decide)
  exact ⟨p, enc, enc', _, hp, he, e1, e2, e3, rfl, rfl, rfl, rfl⟩

/-! ### C57 -/

theorem exec_spin (s : Arch) : exec (.jal 0#5 0#20) s = s := by
  have h1 : s.pc + immJ 0#20 = s.pc := by
    have : immJ 0#20 = 0#32 := by decide
    rw [this]; simp
  have h2 : s.setX 0#5 (s.pc + 4#32) = s := by
    unfold Arch.setX
    have : (fun k => if k = 0#5 ∧ 0#5 ≠ 0#5 then s.pc + 4#32 else s.reg k) = s.reg := by
      funext k
      rw [if_neg (fun h => h.2 rfl)]
    rw [this]
  show { s.setX 0#5 (s.pc + 4#32) with pc := s.pc + immJ 0#20 } = s
  rw [h1, h2]

/-- Two states of the test VM that show the same machine state and share the frame are equal. -/
theorem shows_eq {vm vm' : TestVM} {s : Arch} (hw : vm.WF) (hw' : vm'.WF) (hs : vm.Shows s) (hs' : vm'.Shows s)
    (hf : vm'.frame = vm.frame) : vm' = vm := by
  have ho : vm'.ram.offset = vm.ram.offset := congrArg (·.2.2.2.2.1) hf
  have hsz : vm'.ram.size = vm.ram.size := congrArg (·.2.2.2.2.2) hf
  have hreg : vm'.registers = vm.registers := by
    apply List.ext_getElem?
    intro k
    by_cases hk : k < 32
    · have e : (BitVec.ofNat 5 k).toNat = k := by rw [BitVec.toNat_ofNat]; omega
      have a := hs.reg (BitVec.ofNat 5 k)
      have b := hs'.reg (BitVec.ofNat 5 k)
      rw [e] at a b
      rw [a, b]
    · rw [List.getElem?_eq_none (by rw [hw'.regs]; omega), List.getElem?_eq_none (by rw [hw.regs]; omega)]
  have hdata : vm'.ram.data = vm.ram.data := by
    apply List.ext_getElem?
    intro k
    by_cases hk : k < vm.ram.size
    · rw [hs.mem k hk, hs'.mem k (by rw [hsz]; exact hk), ho]
    · rw [List.getElem?_eq_none (by rw [hw'.len, hsz]; omega), List.getElem?_eq_none (by rw [hw.len]; omega)]
  have hram : vm'.ram = vm.ram := by
    cases hv : vm'.ram with
    | mk a b c =>
      cases hv' : vm.ram with
      | mk a' b' c' =>
        rw [hv, hv'] at ho hsz hdata
        simp only at ho hsz hdata
        rw [ho, hsz, hdata]
  have hpc : vm'.pc = vm.pc := hs'.pcEq.trans hs.pcEq.symm
  unfold TestVM.frame at hf
  cases vm; cases vm'
  simp_all

/-- The test VM in `loop {}` does not change at all. -/
theorem C57_testvm (chk : Bool) (vm : TestVM) (n : Nat) (hw : vm.WF) (h0 : vm.registers[0]? = some 0#32)
    (hf : vm.rom.readWord chk vm.pc.toNat = some spin) (h4 : vm.pc.toNat % 4 = 0) : vm.steps chk n = some vm := by
  have h1 : vm.run chk = some vm := by
    obtain ⟨s, hs⟩ := C36_shows vm hw h0
    have hj : ∀ t, (Instr.jal 0#5 0#20).jumpsTo s = some t → t.toNat % 4 = 0 := by
      intro t ht
      have := Option.some.inj ht
      rw [← this]
      have e : immJ 0#20 = 0#32 := by decide
      rw [e, ← hs.pcEq]; simpa using h4
    have hns : ¬ stuck (.jal 0#5 0#20) s chk vm.ram.offset := by
      rintro (⟨t, ht, hm⟩ | ha | hd | ⟨-, ⟨a, n, hb, -⟩ | hf⟩)
      · exact hm (hj t ht)
      · exact ha
      · exact hd
      · cases hb
      · cases hf.1
    obtain ⟨vm', e1, e2, e3, e4⟩ := (C36_step chk vm s (.jal 0#5 0#20) hw hs hf).2 hns
    have e5 := e4 (fun a n h => by cases h)
    rw [exec_spin] at e5
    rw [e1, shows_eq hw e2 hs e5 e3]
  induction n with
  | zero => rfl
  | succ n ih => show (vm.run chk).bind _ = _; rw [h1, Option.bind_some, ih]

theorem decode_spin (dbg : Bool) : decodeWord dbg spin = some ⟨0#32, 0#32, 0#32, 0#32, RdUpdate.JAL.id,
    RamUpdate.NONE.id, PcUpdate.JAL.id⟩ := by cases dbg <;> decide +kernel

/-- One cycle in `loop {}` (exact plaintext meaning, C29_exact). -/
theorem spin_cycle (dbg : Bool) (d : Debug) (m : Nat) (hx0 : d.registers[0]? = some 0#32)
    (hm : d.ram.length = 2 ^ m) (hpc : d.pc.toNat < 2 ^ (bitsFor d.rom.length + 2))
    (hz : d.rom[d.pc.toNat / 4]? = decodeWord dbg spin) :
    ∃ d2, Spec.cycle d = some d2 ∧ d2.registers = d.registers ∧ d2.ram = d.ram ∧ d2.pc = d.pc ∧ d2.rom = d.rom := by
  rw [decode_spin] at hz
  have hlen := (List.getElem?_eq_some_iff.mp hx0).1
  obtain ⟨v, hv⟩ : ∃ v, d.ram[(0#32 + 0#32 - 0x40000#32).toNat / 4 % 2 ^ bitsFor d.ram.length]? = some v := by
    refine ⟨_, List.getElem?_eq_getElem ?_⟩
    rw [hm, bitsFor_pow]
    exact Nat.mod_lt _ (Nat.two_pow_pos m)
  have hp : BitVec.ofNat 32 (d.pc.toNat % 2 ^ (bitsFor d.rom.length + 2)) = d.pc := by
    rw [Nat.mod_eq_of_lt hpc]; simp
  have f1 : (rdUpdateRv32iOpList.find? fun o => o.id == RdUpdate.JAL.id) = some .JAL := by decide
  have f2 : (ramUpdateOpList.find? fun o => o.id == RamUpdate.NONE.id) = some .NONE := by decide
  have f3 : (pcUpdateOpList.find? fun o => o.id == PcUpdate.JAL.id) = some .JAL := by decide
  refine ⟨{ pc := PcUpdate.JAL.evalPlain (cycleImm 0#32) 0#32 0#32 d.pc, rom := d.rom
            registers := (d.registers.set 0 (d.pc + 4#32)).set 0 0#32
            ram := d.ram.set ((0#32 + 0#32 - 0x40000#32).toNat / 4 % 2 ^ bitsFor d.ram.length)
              (RamUpdate.NONE.evalPlain 0#32 v ((0#32 + 0#32 - 0x40000#32) &&& 3#32))
            ramAddr := 0#32 + 0#32 - 0x40000#32
            ins := ⟨0#32, 0#32, 0#32, 0#32, RdUpdate.JAL.id, RamUpdate.NONE.id, PcUpdate.JAL.id⟩
            rs1Val := 0#32, rs2Val := 0#32
            ramVal := RamUpdate.NONE.evalPlain 0#32 v ((0#32 + 0#32 - 0x40000#32) &&& 3#32)
            rdVal := d.pc + 4#32 }, ?_, ?_, ?_, ?_, rfl⟩
  · unfold Spec.cycle
    simp only [hp, hz, Option.bind_some, show (0#32 : Word).toNat = 0 from rfl, hx0, hv, f1, f2, f3]
    rw [show cycleRd .JAL 0#32 0#32 0#32 d.pc v = some (d.pc + 4#32) from rfl, Option.bind_some, if_pos hlen]
  · show (d.registers.set 0 _).set 0 0#32 = _
    rw [List.set_set, set_self _ _ _ hx0]
  · exact set_self _ _ _ hv
  · show d.pc + cycleImm 0#32 = d.pc
    have : cycleImm (0#32) = 0#32 := by decide
    rw [this]; simp

/-- Any number of cycles. -/
theorem spin_cycles (dbg : Bool) (d : Debug) (m n : Nat) (hx0 : d.registers[0]? = some 0#32)
    (hm : d.ram.length = 2 ^ m) (hpc : d.pc.toNat < 2 ^ (bitsFor d.rom.length + 2))
    (hz : d.rom[d.pc.toNat / 4]? = decodeWord dbg spin) :
    ∃ d2, Spec.cycles n d = some d2 ∧ d2.registers = d.registers ∧ d2.ram = d.ram ∧ d2.pc = d.pc := by
  induction n generalizing d with
  | zero => exact ⟨d, rfl, rfl, rfl, rfl⟩
  | succ n ih =>
    obtain ⟨d1, e, r1, r2, r3, r4⟩ := spin_cycle dbg d m hx0 hm hpc hz
    obtain ⟨d2, e2, q1, q2, q3⟩ := ih d1 (by rw [r1]; exact hx0) (by rw [r2]; exact hm)
      (by rw [r3, r4]; exact hpc) (by rw [r3, r4]; exact hz)
    exact ⟨d2, by show (Spec.cycle d).bind _ = _; rw [e, Option.bind_some, e2], q1.trans r1, q2.trans r2, q3.trans r3⟩

/-- The encrypted VM in `loop {}`, under any correct library: it never panics, and the registers, the RAM and
the program counter it decrypts to stay the same (until the cycle counter overflows). -/
theorem C57_encrypted (F : Fhe) (vm : Interp F.B) (d : Debug) (dbg : Bool) (m n : Nat) (h : F.Runs vm d)
    (hx0 : d.registers[0]? = some 0#32) (hm : d.ram.length = 2 ^ m)
    (hpc : d.pc.toNat < 2 ^ (bitsFor d.rom.length + 2)) (hz : d.rom[d.pc.toNat / 4]? = decodeWord dbg spin)
    (hc : vm.cycle.toNat + n < 2 ^ 32) :
    ∃ vm', Interp.run n vm = some vm' ∧
      vm'.registers.decrypt F.C (List.replicate 32 0#32) = vm.registers.decrypt F.C (List.replicate 32 0#32) ∧
      vm'.decryptRam F.C (List.replicate (2 ^ m) 0#32) = vm.decryptRam F.C (List.replicate (2 ^ m) 0#32) ∧
      (n ≠ 0 → F.decU vm'.pc = d.pc) := by
  obtain ⟨d2, e, q1, q2, q3⟩ := spin_cycles dbg d m n hx0 hm hpc hz
  obtain ⟨vm', e1, r, cy⟩ := h.run n e hc
  obtain ⟨o1, o2, -, -⟩ := C29_observe F vm d h
  obtain ⟨p1, p2, p3, -⟩ := C29_observe F vm' d2 r
  refine ⟨vm', e1, by rw [o1, p1, q1], ?_, fun hn => ?_⟩
  · rw [o2 _ (by rw [hm, List.length_replicate]), p2 _ (by rw [q2, hm, List.length_replicate]), q2]
  · rw [p3 ?_, q3]
    intro h0
    have := congrArg BitVec.toNat h0
    rw [cy, BitVec.toNat_add, BitVec.toNat_ofNat, Nat.mod_eq_of_lt (by omega : n < 2 ^ 32),
      Nat.mod_eq_of_lt hc] at this
    simp at this
    omega

theorem steps_add (chk : Bool) (n m : Nat) (vm : TestVM) :
    vm.steps chk (n + m) = (vm.steps chk n).bind (TestVM.steps chk m) := by
  induction n generalizing vm with
  | zero => rw [Nat.zero_add]; rfl
  | succ n ih =>
    rw [show n + 1 + m = (n + m) + 1 by omega]
    show (vm.run chk).bind _ = ((vm.run chk).bind _).bind _
    cases vm.run chk with
    | none => rfl
    | some v => exact ih v

/-- Hence the result of a guest does not depend on the number of cycles it is given, once that is enough for
the guest to reach its final loop: if after `n` cycles the test VM is in `loop {}`, then with any larger
number of cycles both VMs give the output tape the test VM shows after `n`.  Hypotheses as in C42. -/
theorem C57_output (F : Fhe) (rand : Nat → Nat → Nat → F.C.Rand) (chk dbg phantomDebug : Bool)
    (threads n m : Nat) (e : Elf) (p : Phantom) (tape : List Byte) (ev : EncVM F.B) (vm0 vm1 vm2 : TestVM)
    (hfile : e.bytes.length < 2 ^ 63) (hp : Phantom.fromElf e = some p) (hbase : p.bootRam.offset = ramBase)
    (ht : 0 < threads) (hn : n + m < 2 ^ 32)
    (hev : p.encryptedVm F.C rand dbg phantomDebug threads tape (n + m) = some ev)
    (hvm : p.testVm chk (n + m) = some vm0) (hin : vm0.readInputTape chk tape = some vm1)
    (hex : ∀ k v, k < n → vm1.steps chk k = some v → v.Executes chk (encOk 4096))
    (hrun : vm1.steps chk n = some vm2)
    (hrom : vm2.pc.toNat + 4 ≤ vm2.rom.size) (h4 : vm2.pc.toNat % 4 = 0)
    (hspin : vm2.rom.readWord chk vm2.pc.toNat = some spin) :
    vm1.execute chk = some vm2 ∧
    ∃ ev2, ev.execute F.C F.decU F.decP = some ev2 ∧ ev2.outputTape F.C chk = vm2.outputTape chk := by
  obtain ⟨h4', hl, parser, ds, bytes, hpa, hd, hds, hb, hv, ho, hro, hmc, hmir⟩ := encryptedVm_inv hev
  have hvm1 := testVm_ready hfile hp hbase hl hb hvm hin
  obtain ⟨hw, ha, hsp, hrl⟩ := setup_agree (chk := chk) (dbg := dbg) hfile hp hbase hl h4' hds hb hvm hin
  have h0 : vm1.registers[0]? = some 0#32 := by rw [hvm1]; rfl
  obtain ⟨-, -, -, w2, -, -⟩ := C38_cycles chk dbg n 10 vm1 vm2 _ hw h0 ha hsp hrl hex hrun
  have h02 : vm2.registers[0]? = some 0#32 := C31_testvm chk n vm1 vm2 h0 hrun
  have hst : ∀ j, vm1.steps chk (n + j) = some vm2 := by
    intro j
    rw [steps_add, hrun, Option.bind_some, C57_testvm chk vm2 j w2 h02 hspin h4]
  have hexec : vm1.execute chk = some vm2 := by
    have : vm1.maxCycles = n + m := by rw [hvm1]
    unfold TestVM.execute
    rw [this, hst]
  refine ⟨hexec, C42_output F rand chk dbg phantomDebug threads (n + m) e p tape ev vm0 vm1 vm2 hfile hp hbase ht hn
    hev hvm hin ?_ hexec⟩
  intro k v hk hv
  by_cases hkn : k < n
  · exact hex k v hkn hv
  · obtain ⟨j, rfl⟩ : ∃ j, k = n + j := ⟨k - n, by omega⟩
    rw [hst] at hv
    have := Option.some.inj hv
    subst this
    refine ⟨hrom, fun s hs => ⟨.jal 0#5 0#20, hspin, ⟨trivial, ?_⟩⟩⟩
    show -2 ^ 18 ≤ (0#20).toInt ∧ (0#20).toInt < 2 ^ 18
    decide

/-! ### Returning from `main` -/

/-- A guest that returns from its entry point comes back to the `unimp` after the call.  The test VM stops
there with a panic. -/
theorem C58_testvm_partial (chk : Bool) (vm : TestVM) (hf : vm.rom.readWord chk vm.pc.toNat = some unimp) :
    vm.run chk = none := by
  unfold TestVM.run
  rw [hf, Option.bind_some]
  have : decodeInst unimp = none := by decide
  rw [this]; rfl

/-- The encrypted VM does not: `unimp` is executed like a no-operation. -/
theorem C58_encrypted (dbg : Bool) (d d2 : Debug) (hx0 : d.registers[0]? = some 0#32)
    (hpc : d.pc.toNat < 2 ^ (bitsFor d.rom.length + 2)) (hf : d.rom[d.pc.toNat / 4]? = decodeWord dbg unimp)
    (hs : Spec.cycle d = some d2) : d2.registers = d.registers ∧ d2.ram = d.ram ∧ d2.pc = d.pc + 4#32 := by
  obtain ⟨r1, r2, r3⟩ := C48_cycle d d2 unimp dbg (by decide) hx0 hs (fun i hi => by
    rw [Nat.mod_eq_of_lt hpc, hf] at hi; exact hi)
  refine ⟨r1, r2, ?_⟩
  rw [r3, Nat.mod_eq_of_lt hpc]; simp

/-- A guest whose `main`, directly after the start-up code, returns at once. -/
def returning : List Word := bootWords 0x40810#32 stackStart 36#32 ++ [encode (.jalr 0#5 1#5 0#12)]

def returningProgram : List Decoded := (returning.map fun w => (decodeWord true w).getD Decoded.zero)

theorem returning_decoded : returning.map (decodeWord true) = returningProgram.map some := by decide +kernel

theorem cycles_add (n m : Nat) (d : Debug) : Spec.cycles (n + m) d = (Spec.cycles n d).bind (Spec.cycles m) := by
  induction n generalizing d with
  | zero => rw [Nat.zero_add]; rfl
  | succ n ih =>
    rw [show n + 1 + m = (n + m) + 1 by omega]
    show (Spec.cycle d).bind _ = ((Spec.cycle d).bind _).bind _
    cases Spec.cycle d with
    | none => rfl
    | some v => exact ih v

/-- A state in which cycles do not change anything any more after two of them. -/
theorem cycles_period (d : Debug) (h : Spec.cycles 2 d = some d) (k : Nat) : Spec.cycles (2 * k) d = some d := by
  induction k with
  | zero => rfl
  | succ k ih => rw [show 2 * (k + 1) = 2 * k + 2 by omega, cycles_add, ih, Option.bind_some, h]

/-- The guest entered at `main` for the second time. -/
def enteredMain : Debug := (Spec.cycles 9 (Debug.image 10 1024 returningProgram [])).getD (Debug.image 10 1024 [] [])

/-- So the claim that a guest which has returned from `main` stops is false of the encrypted VM: this guest is
entered at `main` by the call, and then again after every second cycle, for ever. -/
theorem C58_restarts (k : Nat) :
    ∃ d, Spec.cycles (7 + 2 * k) (Debug.image 10 1024 returningProgram []) = some d ∧ d.pc = 36#32 := by
  have h0 : (Spec.cycles 7 (Debug.image 10 1024 returningProgram [])).map (·.pc) = some 36#32 := by decide +kernel
  have h1 : Spec.cycles 9 (Debug.image 10 1024 returningProgram []) = some enteredMain := by decide +kernel
  have h2 : Spec.cycles 2 enteredMain = some enteredMain := by decide +kernel
  have h3 : enteredMain.pc = 36#32 := by decide +kernel
  cases k with
  | zero =>
    obtain ⟨d, e, p⟩ := Option.map_eq_some_iff.mp h0
    exact ⟨d, e, p⟩
  | succ k =>
    refine ⟨enteredMain, ?_, h3⟩
    rw [show 7 + 2 * (k + 1) = 9 + 2 * k by omega, cycles_add, h1, Option.bind_some, cycles_period _ h2]

/-- The test VM panics on the same guest. -/
theorem C58_testvm_witness :
    ((TestVM.steps true 9 ⟨List.replicate 32 0#32, ⟨wordBytes returning, 0, 40⟩,
      ⟨List.replicate 4096 0#8, 0x40000, 4096⟩, 0#32, ⟨0, 0⟩, ⟨0, 0⟩, 9⟩).isNone) = true := by decide +kernel

end Verif.Props
