import Verif.Props.SameStep
/-
  Property C100: the documented way of choosing the number of cycles with the test VM (compiler-tests/template/README.md, "Choosing the
  maximum number of cycles").
-/
namespace Verif.Props
open Model Spec

/-! ### A run that has come to the final loop -/

/-- `loop {}` is a jump to itself. -/
theorem loop_step (s : Arch) : execTest ramBase 4096 (.jal 0#5 0#20) s = s := by
  show ({ s.setX 0#5 (s.pc + 4#32) with pc := s.pc + 0#32 } : Arch) = s
  rw [BitVec.add_zero]
  simp [Arch.setX]

theorem loop_runs {fetch : Word → Option Instr} {L : Nat} {chk : Bool} {s : Arch} (hf : fetch s.pc = some (.jal 0#5 0#20))
    (h4 : s.pc.toNat % 4 = 0) (hL : s.pc.toNat < L) (n : Nat) :
    RunsIf fetch (fun i s => (¬ stuck i s chk ramBase ∧ s.pc.toNat < L) ∧ sameStep i s) (execTest ramBase 4096) n s s := by
  induction n with
  | zero => exact .zero s
  | succ n ih =>
    refine .succ hf ⟨⟨?_, hL⟩, (by decide : -2 ^ 18 ≤ (0#20).toInt ∧ (0#20).toInt < 2 ^ 18)⟩ (by rw [loop_step]; exact ih)
    rintro (⟨t, h, h'⟩ | h | h | ⟨-, ⟨a, k, h, -⟩ | ⟨h, -⟩⟩)
    · have h : some (s.pc + 0#32) = some t := h
      rw [BitVec.add_zero] at h
      cases h
      exact h' h4
    · exact h
    · exact h
    · cases h
    · cases h

/-- The procedure of the documentation: the test VM is run for `m` cycles.  If it has come to the final loop, its steps being inside the
program and the same on both VMs, then for every number of cycles from `m` on both VMs return what it returned, under any correct
library. -/
theorem C100_settled (F : Fhe) (rand : Nat → Nat → Nat → F.C.Rand) (chk dbg : Bool) (threads m n : Nat) (e : Elf)
    (p : Phantom) (tape : List Byte) (ev : EncVM F.B) (hfile : e.bytes.length < 2 ^ 63) (hp : Phantom.fromElf e = some p) (ht : 0 < threads)
    (hm : m ≤ n) (hn : n < 2 ^ 32) (hev : p.encryptedVm F.C rand dbg false threads tape n = some ev) (hbase : p.bootRam.offset = ramBase)
    (hlen : tape.length = p.input.size) (hlo : ramBase ≤ p.input.startAddr) (hhi : p.input.startAddr + p.input.size ≤ ramBase + 4096)
    (hb : ramBase ≤ p.output.startAddr) (he : p.output.startAddr + p.output.size ≤ ramBase + 4096) :
    ∃ fetch bytes, FetchTest p.bootRom.data fetch ∧ Placed p.bootRam.data (p.input.startAddr - ramBase) tape bytes ∧
      ∀ s', RunsIf fetch (fun i s => (¬ stuck i s chk ramBase ∧ s.pc.toNat < p.bootRom.data.length) ∧ sameStep i s)
          (execTest ramBase 4096) m (startState bytes) s' →
        fetch s'.pc = some (.jal 0#5 0#20) → s'.pc.toNat < p.bootRom.data.length →
        ∃ out vm0 vm1 vm2 tm0 tm1 tm2 ev2,
          p.testVm chk m = some tm0 ∧ tm0.readInputTape chk tape = some tm1 ∧ tm1.execute chk = some tm2 ∧ tm2.outputTape chk = some out ∧
          p.testVm chk n = some vm0 ∧ vm0.readInputTape chk tape = some vm1 ∧ vm1.execute chk = some vm2 ∧ vm2.outputTape chk = some out ∧
          ev.execute F.C F.decU F.decP = some ev2 ∧ ev2.outputTape F.C chk = some out := by
  obtain ⟨fetch, bytes, hf, hin, hall⟩ := C99_output F rand chk dbg threads n e p tape ev hfile hp ht hn hev hbase hlen hlo hhi hb he
  refine ⟨fetch, bytes, hf, hin, fun s' hr hl hL => ?_⟩
  obtain ⟨ft, bytes', tm0, tm1, hft, hin', t0, t1, tx, hto⟩ := C97_testvm chk m e p tape hfile hp hbase hlen hlo hhi hb he
  cases placed_unique hin' hin
  obtain ⟨f0, -, hu⟩ := C97_fetch p.bootRom.data
  cases (hu ft hft).trans (hu fetch hf).symm
  have hmr := runsIf_mono (fun _ _ h => h.1.1) hr
  obtain ⟨tm2, t2⟩ := tx.mpr ⟨s', hmr⟩
  obtain ⟨u, hr2, o2⟩ := hto tm2 t2
  cases runsIf_unique hmr hr2
  have hrn := runsIf_append hr (loop_runs (chk := chk) hl ((hf _ _).mp hl).1 hL (n - m))
  rw [Nat.add_sub_cancel' hm] at hrn
  obtain ⟨vm0, vm1, vm2, ev2, e0, e1, e2, e3, o3, o4⟩ := hall s' hrn
  exact ⟨_, vm0, vm1, vm2, tm0, tm1, tm2, ev2, t0, t1, t2, o2, e0, e1, e2, o3, e3, o4⟩

/-! ### A program whose number of cycles depends on the input -/

/-- `lui x2,0x40; lw x1,0(x2); beq x1,x0,+16; addi x1,x1,-1; addi x3,x3,1; j -12; sw x3,4(x2); j .` -/
def downCode : List Instr :=
  [.lui 2 0x40, .load .lw 1 2 0, .branch .beq 1 0 8, .opImm .addi 1 1 0xFFF, .opImm .addi 3 3 1, .jal 0 0xFFFFA, .store .sw 2 3 4, .jal 0 0]

def downElf : Elf :=
  { bytes := wordBytes [0x00040137#32, 0x00012083#32, 0x00008863#32, 0xFFF08093#32, 0x00118193#32, 0xFF5FF06F#32, 0x00312223#32,
      0x0000006F#32] ++ List.replicate 8 0#8
    segments := [⟨1, 5, 0, 0, 32, 32⟩, ⟨1, 6, 32, 0x40000, 8, 8⟩]
    sections := [(".inpdata", ⟨0x40000, 4⟩), (".outdata", ⟨0x40004, 4⟩)] }

def downGuest : Phantom := (Phantom.fromElf downElf).getD ⟨⟨[], 0, 0⟩, ⟨[], 0, 0⟩, ⟨0, 0⟩, ⟨0, 0⟩⟩

theorem down_elf : Phantom.fromElf downElf = some downGuest := by
  obtain ⟨x, hx⟩ := Option.isSome_iff_exists.mp (show (Phantom.fromElf downElf).isSome = true by decide +kernel)
  unfold downGuest
  rw [hx]; rfl

/-- After `n` cycles on input `x`: at word `k` of the program, `j` times around the loop. -/
structure DownAt (x n k j : Nat) (s : Arch) : Prop where
  pc : s.pc = BitVec.ofNat 32 (4 * k)
  time : k = 0 ∧ n = 0 ∧ j = 0 ∨ k = 1 ∧ n = 1 ∧ j = 0 ∨ k = 2 ∧ n = 2 + 4 * j ∧ j ≤ x ∨ k = 3 ∧ n = 3 + 4 * j ∧ j < x ∨
    k = 4 ∧ n = 4 + 4 * j ∧ j < x ∨ k = 5 ∧ n = 5 + 4 * j ∧ j < x ∨ k = 6 ∧ n = 3 + 4 * x ∧ j = x ∨ k = 7 ∧ 4 + 4 * x ≤ n
  inp : k ≤ 1 → LoadOp.lw.eval s.mem 0x40000#32 = BitVec.ofNat 32 x
  base : 1 ≤ k → s.x 2 = 0x40000#32
  left : k = 2 ∨ k = 3 → s.x 1 = BitVec.ofNat 32 (x - j)
  less : k = 4 ∨ k = 5 → s.x 1 = BitVec.ofNat 32 (x - (j + 1))
  done : k ≤ 4 ∨ k = 6 → s.x 3 = BitVec.ofNat 32 j
  more : k = 5 → s.x 3 = BitVec.ofNat 32 (j + 1)
  out : ∀ i, i < 4 → s.mem (BitVec.ofNat 32 (0x40004 + i)) = (BitVec.ofNat 32 (if k = 7 then x else 0)).extractLsb' (8 * i) 8

theorem jump_only (s : Arch) (imm : BitVec 20) : exec (.jal 0 imm) s = { s with pc := s.pc + immJ imm } := by
  simp [exec, Arch.setX]

theorem x_pc (s : Arch) (p : Word) (r : Reg) : ({ s with pc := p } : Arch).x r = s.x r := rfl

theorem down_step {x n k j : Nat} {s : Arch} (hx : x < 2 ^ 32) (h : DownAt x n k j s) {i : Instr} (hi : downCode[k]? = some i) :
    i.inWindow s ramBase 4096 ∧ ¬ i.badAlign s ∧ ¬ i.badDivision s ∧ (∀ t, i.jumpsTo s = some t → t.toNat % 4 = 0) ∧
      ∃ k' j', DownAt x (n + 1) k' j' (exec i s) := by
  obtain ⟨pc, time, inp, base, left, less, done, more, out⟩ := h
  rcases time with ⟨rfl, rfl, rfl⟩ | ⟨rfl, rfl, rfl⟩ | ⟨rfl, rfl, hj⟩ | ⟨rfl, rfl, hj⟩ | ⟨rfl, rfl, hj⟩ | ⟨rfl, rfl, hj⟩ | ⟨rfl, rfl, rfl⟩ |
    ⟨rfl, hn⟩ <;> cases hi
  · refine ⟨(by intro _ _ h; cases h), id, id, (by intro _ h; cases h), 1, 0, ?_, by omega, fun _ => inp (by omega), fun _ => rfl,
      by omega, by omega, fun _ => done (by omega), by omega, out⟩
    show s.pc + 4#32 = _
    rw [pc]; rfl
  · have b := base (by omega)
    refine ⟨?_, ?_, id, (by intro _ h; cases h), 2, 0, ?_, by omega, by omega, fun _ => b, fun _ => ?_, by omega, fun _ => done (by omega),
      by omega, out⟩
    · intro a k h
      cases h
      rw [b]; decide
    · show ¬ (s.x 2 + immI 0).toNat % 4 ≠ 0
      rw [b]; decide
    · show s.pc + 4#32 = _
      rw [pc]; rfl
    · show LoadOp.lw.eval s.mem (s.x 2 + immI 0) = _
      rw [b]
      exact inp (by omega)
  · have l := left (by omega)
    have x0 : s.x 0 = 0#32 := rfl
    have hz : BranchOp.beq.taken (s.x 1) (s.x 0) ↔ j = x := by
      show s.x 1 = s.x 0 ↔ _
      rw [l, x0]
      constructor
      · intro h
        have := congrArg BitVec.toNat h
        simp only [BitVec.toNat_ofNat] at this
        omega
      · rintro rfl
        rw [Nat.sub_self]
    refine ⟨(by intro _ _ h; cases h), id, id, ?_, ?_⟩
    · intro t h
      have h : (if BranchOp.beq.taken (s.x 1) (s.x 0) then some (s.pc + immB 8) else none) = some t := h
      split at h
      · cases h
        rw [pc]; decide
      · cases h
    · show ∃ k' j', DownAt x _ k' j' (if BranchOp.beq.taken (s.x 1) (s.x 0) then { s with pc := s.pc + immB 8 } else s.next)
      by_cases e : j = x
      · rw [if_pos (hz.mpr e)]
        exact ⟨6, j, by show s.pc + immB 8 = _; rw [pc]; rfl, by omega, by omega, fun _ => base (by omega), by omega, by omega,
          fun _ => done (by omega), by omega, out⟩
      · rw [if_neg (fun h => e (hz.mp h))]
        exact ⟨3, j, by show s.pc + 4#32 = _; rw [pc]; rfl, by omega, by omega, fun _ => base (by omega), fun _ => l, by omega,
          fun _ => done (by omega), by omega, out⟩
  · refine ⟨(by intro _ _ h; cases h), id, id, (by intro _ h; cases h), 4, j, by show s.pc + 4#32 = _; rw [pc]; rfl, by omega, by omega,
      fun _ => base (by omega), by omega, fun _ => ?_, fun _ => done (by omega), by omega, out⟩
    show s.x 1 + immI 0xFFF = _
    rw [left (by omega)]
    apply BitVec.eq_of_toNat_eq
    rw [BitVec.toNat_add, BitVec.toNat_ofNat, BitVec.toNat_ofNat, show (immI 0xFFF).toNat = 2 ^ 32 - 1 by decide]
    omega
  · refine ⟨(by intro _ _ h; cases h), id, id, (by intro _ h; cases h), 5, j, by show s.pc + 4#32 = _; rw [pc]; rfl, by omega, by omega,
      fun _ => base (by omega), by omega, fun _ => less (by omega), by omega, fun _ => ?_, out⟩
    show s.x 3 + immI 1 = _
    rw [done (by omega), show immI 1 = BitVec.ofNat 32 1 by decide, ← BitVec.ofNat_add]
  · rw [jump_only]
    have b := base (by omega)
    have l := less (by omega)
    have m := more rfl
    refine ⟨(by intro _ _ h; cases h), id, id, ?_, 2, j + 1, ?_, by omega, by omega, fun _ => (x_pc _ _ _).trans b,
      fun _ => (x_pc _ _ _).trans l, by omega, fun _ => (x_pc _ _ _).trans m, by omega, out⟩
    rotate_left
    · show s.pc + immJ 0xFFFFA = _
      rw [pc]; rfl
    intro t h
    have h : some (s.pc + immJ 0xFFFFA) = some t := h
    rw [← Option.some.inj h, pc]; decide
  · have b := base (by omega)
    refine ⟨?_, ?_, id, (by intro _ h; cases h), 7, j, by show s.pc + 4#32 = _; rw [pc]; rfl, by omega, by omega, fun _ => b, by omega,
      by omega, by omega, by omega, ?_⟩
    · intro a k h
      cases h
      rw [b]; decide
    · show ¬ (s.x 2 + immI 4).toNat % 4 ≠ 0
      rw [b]; decide
    · intro q hq
      show storeBytes s.mem (s.x 2 + immI 4) (s.x 3) 4 _ = _
      rw [b, show 0x40000#32 + immI 4 = 0x40004#32 by decide, done (by omega), if_pos rfl]
      exact out_store _ _ q hq
  · refine ⟨(by intro _ _ h; cases h), id, id, ?_, 7, j, by show s.pc + immJ 0 = _; rw [pc]; rfl, by omega, by omega, fun _ => base (by omega),
      by omega, by omega, by omega, by omega, out⟩
    intro t h
    have h : some (s.pc + immJ 0) = some t := h
    cases h
    rw [pc]; decide

theorem down_words (k : Nat) (hk : k < 8) : ∃ i w, downCode[k]? = some i ∧ TestReads w i ∧ TestWord downGuest.bootRom.data (4 * k) w ∧
    alwaysSame i := by
  have : k = 0 ∨ k = 1 ∨ k = 2 ∨ k = 3 ∨ k = 4 ∨ k = 5 ∨ k = 6 ∨ k = 7 := by omega
  rcases this with rfl | rfl | rfl | rfl | rfl | rfl | rfl | rfl <;>
    exact ⟨_, _, rfl, .own _, testWord_of _ (by decide +kernel), by simp [alwaysSame]⟩

theorem down_start {bytes : List Byte} {x : Nat} (hin : Placed downGuest.bootRam.data (downGuest.input.startAddr - ramBase)
    (fourBytes (BitVec.ofNat 32 x)) bytes) : DownAt x 0 0 0 (startState bytes) := by
  have h0 : downGuest.input.startAddr - ramBase = 0 := by decide +kernel
  rw [h0] at hin
  refine ⟨rfl, Or.inl ⟨rfl, rfl, rfl⟩, fun _ => ?_, by omega, by omega, by omega, fun _ => rfl, by omega, fun j hj => ?_⟩
  · refine word_load fun i b hb => ?_
    have hi : i < 4 := (List.getElem?_eq_some_iff.mp hb).1
    rw [show (0x40000 + i) = ramBase + i from rfl, startState_mem _ _ (by unfold ramBase; omega), List.getD_eq_getElem?_getD]
    have := hin.2.2.1 i hi
    rw [Nat.zero_add] at this
    rw [this, hb]; rfl
  · rw [show 0x40004 + j = ramBase + (4 + j) by unfold ramBase; omega, startState_mem _ _ (by unfold ramBase; omega),
      List.getD_eq_getElem?_getD, hin.2.2.2 (4 + j) (Or.inr (Nat.le_add_right 4 j))]
    have : j = 0 ∨ j = 1 ∨ j = 2 ∨ j = 3 := by omega
    rw [if_neg (by decide)]
    rcases this with rfl | rfl | rfl | rfl <;> decide +kernel

theorem down_runs {fetch : Word → Option Instr} {bytes : List Byte} {x : Nat} (chk : Bool) (hx : x < 2 ^ 32)
    (hf : FetchTest downGuest.bootRom.data fetch)
    (hin : Placed downGuest.bootRam.data (downGuest.input.startAddr - ramBase) (fourBytes (BitVec.ofNat 32 x)) bytes) (n : Nat) :
    ∃ s k j, RunsIf fetch (fun i s => (¬ stuck i s chk ramBase ∧ s.pc.toNat < downGuest.bootRom.data.length) ∧ sameStep i s)
      (execTest ramBase 4096) n (startState bytes) s ∧ DownAt x n k j s := by
  have hrl : downGuest.bootRom.data.length = 32 := by decide +kernel
  induction n with
  | zero => exact ⟨_, 0, 0, .zero _, down_start hin⟩
  | succ n ih =>
    obtain ⟨s, k, j, hr, hd⟩ := ih
    have hk : k < 8 := by have := hd.time; omega
    obtain ⟨i, w, hi, h2, h3, h4⟩ := down_words k hk
    obtain ⟨w1, w2, w3, w4, k', j', w5⟩ := down_step hx hd hi
    have ht : (s.pc).toNat = 4 * k := by rw [hd.pc, BitVec.toNat_ofNat, Nat.mod_eq_of_lt (by omega)]
    have hok : ¬ stuck i s chk ramBase := by
      rintro (⟨t, h, h'⟩ | h | h | ⟨-, ⟨a, k, h, h'⟩ | ⟨-, h⟩⟩)
      · exact h' (w4 t h)
      · exact w2 h
      · exact w3 h
      · have := (w1 a k h).1
        omega
      · omega
    refine ⟨_, k', j', runsIf_append hr (.succ ((hf _ _).mpr ⟨by omega, w, by rw [ht]; exact h3, h2⟩)
      ⟨⟨hok, by rw [hrl]; omega⟩, always_same h4 hok⟩ (.zero _)), ?_⟩
    rw [C97_window _ _ _ _ (by decide) w1]
    exact w5

/-- Both VMs return the input if there are at least `4 x + 4` cycles, and zero otherwise, for every input `x` and every number of cycles.
So what suffices for one input does not for the next, and no number of cycles suffices for all; as both VMs return the same in any case,
comparing them does not show it. -/
theorem C100_countdown (F : Fhe) (rand : Nat → Nat → Nat → F.C.Rand) (chk dbg : Bool) (threads n x : Nat) (ht : 0 < threads)
    (hn : n < 2 ^ 32) (hx : x < 2 ^ 32) :
    ∃ vm0 vm1 vm2 ev ev2, downGuest.testVm chk n = some vm0 ∧ vm0.readInputTape chk (fourBytes (BitVec.ofNat 32 x)) = some vm1 ∧
      vm1.execute chk = some vm2 ∧
      downGuest.encryptedVm F.C rand dbg false threads (fourBytes (BitVec.ofNat 32 x)) n = some ev ∧
      ev.execute F.C F.decU F.decP = some ev2 ∧
      vm2.outputTape chk = some (fourBytes (BitVec.ofNat 32 (if 4 * x + 4 ≤ n then x else 0))) ∧
      ev2.outputTape F.C chk = some (fourBytes (BitVec.ofNat 32 (if 4 * x + 4 ≤ n then x else 0))) := by
  have hl : (fourBytes (BitVec.ofNat 32 x)).length = 4 := rfl
  obtain ⟨q, hq⟩ : ∃ q, Parser.new.addAll dbg (packWords downGuest.bootRom.data) = some q := by
    rw [← Option.isSome_iff_exists]; cases dbg <;> decide +kernel
  obtain ⟨ev, hev⟩ := C42_setup F rand dbg false threads n downElf downGuest (fourBytes (BitVec.ofNat 32 x)) q down_elf
    (by decide +kernel) (by decide +kernel) hq (hl.trans (by decide +kernel)) (by decide +kernel) (by decide +kernel)
  obtain ⟨fetch, bytes, hf, hin, hall⟩ := C99_output F rand chk dbg threads n downElf downGuest (fourBytes (BitVec.ofNat 32 x)) ev
    (by decide +kernel) down_elf ht hn hev (by decide +kernel) (hl.trans (by decide +kernel)) (by decide +kernel) (by decide +kernel)
    (by decide +kernel) (by decide +kernel)
  obtain ⟨s, k, j, hr, hd⟩ := down_runs chk hx hf hin n
  obtain ⟨vm0, vm1, vm2, ev2, e0, e1, e2, e3, o1, o2⟩ := hall s hr
  have ho : ramBytes s (downGuest.output.startAddr - ramBase) downGuest.output.size =
      fourBytes (BitVec.ofNat 32 (if 4 * x + 4 ≤ n then x else 0)) := by
    rw [show downGuest.output.startAddr - ramBase = 4 by decide +kernel, show downGuest.output.size = 4 by decide +kernel]
    refine List.map_congr_left fun q hq => ?_
    have hk : k = 7 ↔ 4 * x + 4 ≤ n := by have := hd.time; omega
    have := hd.out q (List.mem_range.mp hq)
    rw [show 0x40004 + q = ramBase + (4 + q) by unfold ramBase; omega] at this
    rw [this]
    by_cases h7 : k = 7
    · rw [if_pos h7, if_pos (hk.mp h7)]
    · rw [if_neg h7, if_neg (fun h => h7 (hk.mpr h))]
  rw [ho] at o1 o2
  exact ⟨vm0, vm1, vm2, ev, ev2, e0, e1, e2, hev, e3, o1, o2⟩

/-- For every number of cycles there is an input on which both VMs complete and return the same wrong answer. -/
theorem C100_none (F : Fhe) (rand : Nat → Nat → Nat → F.C.Rand) (chk dbg : Bool) (threads n : Nat) (ht : 0 < threads) (hn : n < 2 ^ 32) :
    ∃ x : Word, ∃ vm0 vm1 vm2 ev ev2 out, downGuest.testVm chk n = some vm0 ∧ vm0.readInputTape chk (fourBytes x) = some vm1 ∧
      vm1.execute chk = some vm2 ∧ downGuest.encryptedVm F.C rand dbg false threads (fourBytes x) n = some ev ∧
      ev.execute F.C F.decU F.decP = some ev2 ∧ vm2.outputTape chk = some out ∧ ev2.outputTape F.C chk = some out ∧
      out ≠ fourBytes x := by
  obtain ⟨vm0, vm1, vm2, ev, ev2, h1, h2, h3, h4, h5, h6, h7⟩ := C100_countdown F rand chk dbg threads n (2 ^ 30) ht hn (by decide)
  refine ⟨_, vm0, vm1, vm2, ev, ev2, _, h1, h2, h3, h4, h5, h6, h7, ?_⟩
  rw [if_neg (by omega)]
  decide

/-- The procedure on a sample: on input 1 the test VM has come to the final loop after 8 cycles, and from there on both VMs return 1. -/
example (F : Fhe) (rand : Nat → Nat → Nat → F.C.Rand) (chk dbg : Bool) (n : Nat) (h8 : 8 ≤ n) (hn : n < 2 ^ 32) (ev : EncVM F.B)
    (hev : downGuest.encryptedVm F.C rand dbg false 1 (fourBytes 1#32) n = some ev) :
    ∃ ev2 out tm0 tm1 tm2, ev.execute F.C F.decU F.decP = some ev2 ∧ ev2.outputTape F.C chk = some out ∧
      downGuest.testVm chk 8 = some tm0 ∧ tm0.readInputTape chk (fourBytes 1#32) = some tm1 ∧ tm1.execute chk = some tm2 ∧
      tm2.outputTape chk = some out := by
  obtain ⟨fetch, bytes, hf, hin, hall⟩ := C100_settled F rand chk dbg 1 8 n downElf downGuest (fourBytes 1#32) ev
    (by decide +kernel) down_elf (by decide) h8 hn hev (by decide +kernel) (by decide +kernel) (by decide +kernel) (by decide +kernel)
    (by decide +kernel) (by decide +kernel)
  obtain ⟨s, k, j, hr, hd⟩ := down_runs (x := 1) chk (by decide) hf hin 8
  have hk : k = 7 := by have := hd.time; omega
  subst hk
  obtain ⟨i, w, hi, h2, h3, -⟩ := down_words 7 (by decide)
  cases Option.some.inj hi
  have hpc : s.pc = 28#32 := hd.pc
  obtain ⟨out, vm0, vm1, vm2, tm0, tm1, tm2, ev2, t0, t1, t2, t3, -, -, -, -, e1, e2⟩ := hall s hr
    ((hf _ _).mpr ⟨by rw [hpc]; rfl, w, by rw [hpc]; exact h3, h2⟩) (by rw [hpc]; decide +kernel)
  exact ⟨ev2, out, tm0, tm1, tm2, e1, e2, t0, t1, t2, t3⟩

end Verif.Props
