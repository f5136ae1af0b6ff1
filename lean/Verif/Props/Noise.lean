import Verif.Lemmas.Drift
import Verif.Props.EndToEnd
/-
  C63: the noise budget of the encrypted VM.

  `Fhe` (Model/Library) takes for granted that ciphertexts can be operated on for ever.  Here the library is
  one whose ciphertexts carry noise (Model/Noise).
-/
namespace Verif.Props
open Model Spec

/-- Every run whose last cycle fits in the budget succeeds with the state prescribed, whatever the program,
the input, the randomness and the errors made by the library.  The registers can be decrypted if `n` times
their growth is within the limit, and likewise the RAM. -/
theorem C63_budget (N : Noisy) (rand : Nat → Nat → Nat → N.C.Rand) (dbg : Bool)
    (romSize ramSize threads n : Nat) (p : Parser) (data : List (BitVec 32)) (vm : Interp N.B)
    (ds : List Decoded) (d2 : Debug) (ht : 0 < threads) (hd : decodeProgram dbg p = some ds)
    (h : Interp.load N.C rand dbg romSize ramSize threads p data = some vm) (hn : n < 2 ^ 32)
    (hf : FitsRun N.c N.limit n) (hs : Spec.cycles n (Debug.image romSize ramSize ds data) = some d2) :
    ∃ vm2, Interp.run n vm = some vm2 ∧
      (n * regGrowth N.c ≤ N.limit →
        vm2.registers.decrypt N.C (List.replicate 32 0#32) = some d2.registers) ∧
      (N.c.fresh + n * ramGrowth N.c ≤ N.limit →
        ∀ out, out.length = d2.ram.length → vm2.decryptRam N.C out = some d2.ram) ∧
      (n ≠ 0 → N.decU vm2.pc = d2.pc) := by
  obtain ⟨vm2, vm2', e, m, hc, r⟩ := N.run_of_load ht hd h n hn hf hs
  refine ⟨vm2, e, fun hl => ?_, fun hl out ho => ?_, fun h0 => ?_⟩
  · rw [r.registers.decrypt hl]
    exact m.registers.decrypt _ (by rw [List.length_replicate, ← m.registers.length, m.regs])
  · unfold Interp.decryptRam
    have hsz : vm2.ram.size = d2.ram.length := by rw [r.ram.size, m.ram.length]
    rw [if_pos (by rw [hsz, ho]), r.ram.decrypt hl]
    exact m.ram.decrypt _ (by rw [ho, m.ram.length])
  · have hw : wordNoise N.c ≤ N.limit := by
      cases n with
      | zero => exact (h0 rfl).elim
      | succ n => exact hf.word
    rw [N.decU_ok hw r.pc]
    apply m.pc
    intro hz
    rw [hz] at hc
    exact h0 hc.symm

/-- The budget bounds the number of cycles: noise grows by at most a constant per cycle, so a library whose
limit is large enough for one cycle with fresh data and `k` times the growth on top lasts `k + 1` cycles. -/
theorem C63_enough (c : Costs) (limit k : Nat)
    (h : Fits c limit 0 c.fresh) :
    FitsRun c (limit + k * regGrowth c + k * ramGrowth c) (k + 1) := by
  obtain ⟨h1, h2, h3, h4, h5⟩ := h
  simp only [Verif.Spec.readNoise, Verif.Spec.loadNoise] at h1 h3 h4 h5
  refine ⟨?_, ?_, ?_, ?_, ?_⟩ <;> (try simp only [Verif.Spec.readNoise, Verif.Spec.loadNoise]) <;> omega

/-- Shorter runs fit as well. -/
theorem C63_shorter (c : Costs) (limit n k : Nat) (hk : k ≤ n) (h : FitsRun c limit n) :
    FitsRun c limit k := by
  cases k with
  | zero => trivial
  | succ k =>
    have := FitsRun.cycle h k (by omega)
    rwa [Nat.zero_add] at this

/-- Values written are refreshed: the new value of the destination register, the new RAM word, the address
and the program counter have constant noise, however noisy registers (`r`) and RAM (`m`) are. -/
theorem C63_refreshed (N : Noisy) (r m : Nat) (vm : Interp N.B) (vm' : Interp (plain N.B.logN N.lib))
    (h : Interp.NRel N r m vm vm') (hl : Fits N.c N.limit r m) (t : Trace N.B) (ht : vm.trace = some t) :
    ∃ rd mem addr pc : BitVec 32, N.U N.c.identity t.rdVal rd ∧ N.U N.c.identity t.ramVal mem ∧
      N.U (wordNoise N.c) t.q.addr addr ∧ N.U (wordNoise N.c) t.pc pc := by
  have tr := h.trace hl
  rw [ht] at tr
  obtain ⟨t', -, rt⟩ := tr.of_some_left
  exact ⟨_, _, _, _, rt.rdVal, rt.ramVal, rt.addr, rt.pc⟩

/-- Words that are not written are never refreshed, so the accumulation is real and the budget for the RAM
cannot be improved: there is a library (`drift (2 * n - 1)`: degree 1, growth 2 per cycle, no other noise)
with which `n` cycles fit and run, and at the end every word that no cycle addressed decrypts to its
complement.  One unit more in the limit and `C63_budget` has everything right. -/
theorem C63_tight (rand : Nat → Nat → Nat → Unit) (dbg : Bool) (romSize ramSize threads n : Nat)
    (p : Parser) (data : List (BitVec 32)) (vm : Interp (drift (2 * n - 1)).B) (ds : List Decoded)
    (d2 : Debug) (ht : 0 < threads) (hd : decodeProgram dbg p = some ds)
    (h : Interp.load (drift (2 * n - 1)).C rand dbg romSize ramSize threads p data = some vm)
    (h0 : 0 < n) (hn : n < 2 ^ 32)
    (hs : Spec.cycles n (Debug.image romSize ramSize ds data) = some d2)
    (hsize : 1 < (Debug.image romSize ramSize ds data).ram.length)
    (j : Nat) (w : BitVec 32) (hw : (Debug.image romSize ramSize ds data).ram[j]? = some w)
    (hj : ∀ k d1, k < n → Spec.cycles (k + 1) (Debug.image romSize ramSize ds data) = some d1 →
      d1.ramAddr.toNat / 4 % 2 ^ bitsFor d1.ram.length ≠ j) :
    FitsRun (drift (2 * n - 1)).c (drift (2 * n - 1)).limit n ∧
    (drift (2 * n - 1)).c.fresh + n * ramGrowth (drift (2 * n - 1)).c
      = (drift (2 * n - 1)).limit + 1 ∧
    ∃ vm2, Interp.run n vm = some vm2 ∧ ∀ out, out.length = d2.ram.length →
      ∃ ws, vm2.decryptRam (drift (2 * n - 1)).C out = some ws ∧ ws[j]? = some (~~~w) := by
  have hg : regGrowth Drift.costs = 2 ∧ ramGrowth Drift.costs = 2 := by decide
  have hf : FitsRun Drift.costs (2 * n - 1) n := by
    cases n with
    | zero => omega
    | succ n =>
      refine ⟨?_, ?_, ?_, ?_, ?_⟩ <;>
        simp only [regGrowth, ramGrowth, Verif.Spec.readNoise, Verif.Spec.loadNoise, wordNoise, Drift.costs] <;> omega
  refine ⟨hf, ?_, ?_⟩
  · show Drift.costs.fresh + n * ramGrowth Drift.costs = 2 * n - 1 + 1
    rw [hg.2]
    show 0 + n * 2 = _
    omega
  have r := Interp.load_nrel (N := drift (2 * n - 1)) rand dbg romSize ramSize threads p data
  rw [h] at r
  obtain ⟨vm', e, r⟩ := r.of_some_left
  obtain ⟨m, hc⟩ := load_mirrors ht hd e
  obtain ⟨vm2, e2, x⟩ := Drift.run_exact (2 * n - 1) n r m hs (by rw [hc]; simpa using hn)
    (fun k hk => FitsRun.cycle hf k hk) hsize j hj w 0 (Drift.exact_of_nrel r m j w hw)
  obtain ⟨vm3, vm3', e3, m3, -, r3⟩ := (drift (2 * n - 1)).run_of_load ht hd h n hn hf hs
  rw [e2] at e3
  cases e3
  refine ⟨vm2, e2, fun out ho => ?_⟩
  have hsz : vm2.ram.size = d2.ram.length := by rw [r3.ram.size, m3.ram.length]
  have hlen : d2.ram.length = (Debug.image romSize ramSize ds data).ram.length :=
    Drift.cycles_ram hs
  unfold Interp.decryptRam
  rw [if_pos (by rw [hsz, ho])]
  refine Drift.decrypt_wrong _ vm2.ram (by rw [r3.ram.bits.length]; exact m3.ram.width) out
    (by rw [hsz, ho]) j ?_ w ?_
  · rw [hsz, hlen]
    exact (List.getElem?_eq_some_iff.mp hw).1
  · intro i b hb
    obtain ⟨z, hz⟩ := x i b hb
    refine ⟨z, ?_⟩
    rw [hz]
    have : (0 : Int) + 2 * n = ((2 * n - 1 : Nat) : Int) + 1 := by omega
    rw [this]

/-- End to end (`C42_output`) for a library with noise: if `n` cycles and the decryption of the RAM fit in the
budget, the encrypted VM gives the output tape of the test VM. -/
theorem C63_output (N : Noisy) (rand : Nat → Nat → Nat → N.C.Rand) (chk dbg : Bool)
    (threads n : Nat) (e : Elf) (p : Phantom) (tape : List Byte) (ev : EncVM N.B) (vm0 vm1 vm2 : TestVM)
    (decP : N.B.Prep → BitVec 32)
    (hfile : e.bytes.length < 2 ^ 63) (hp : Phantom.fromElf e = some p) (hbase : p.bootRam.offset = ramBase)
    (ht : 0 < threads) (hn : n < 2 ^ 32) (hfit : FitsRun N.c N.limit n)
    (hlast : N.c.fresh + n * ramGrowth N.c ≤ N.limit)
    (hev : p.encryptedVm N.C rand dbg false threads tape n = some ev)
    (hvm : p.testVm chk n = some vm0) (hin : vm0.readInputTape chk tape = some vm1)
    (hex : ∀ k v, k < n → vm1.steps chk k = some v → v.Executes chk (encOk 4096))
    (hrun : vm1.execute chk = some vm2) :
    ∃ ev2, ev.execute N.C N.decU decP = some ev2 ∧ ev2.outputTape N.C chk = vm2.outputTape chk := by
  obtain ⟨h4, hl, parser, ds, bytes, hpa, hd, hds, hb, hv, ho, hro, hmc, hmir⟩ := encryptedVm_inv hev
  have hvm1 := testVm_ready hfile hp hbase hl hb hvm hin
  obtain ⟨hw, ha, hsp, hrl⟩ := setup_agree (chk := chk) (dbg := dbg) hfile hp hbase hl h4 hds hb hvm hin
  have hsteps : vm1.steps chk n = some vm2 := by
    have : vm1.maxCycles = n := by rw [hvm1]
    rw [← this]; exact hrun
  obtain ⟨d', hch, a', w', f', l'⟩ := agree_both chk dbg n 10 vm1 vm2 _ hw (by rw [hvm1]; rfl) ha hsp hrl hex hsteps
  obtain ⟨i, e1, -, hram, -⟩ := C63_budget N rand dbg _ _ threads n parser _ ev.interp ds d' ht hd hv hn hfit
    hch.cycles
  refine ⟨{ ev with interp := i }, ?_, ?_⟩
  · show EncVM.cycles N.C N.decU decP ev.maxCycles ev = _
    exact cycles_none ev.maxCycles ev i hmir (by rw [hmc]; exact e1)
  have hdec : i.decryptRam N.C (List.replicate (RAM_SIZE / 4) 0#32) = some d'.ram :=
    hram hlast _ (by rw [List.length_replicate, l']; rfl)
  have fout : vm2.output = p.output := by
    have := congrArg (·.2.2.1) f'
    rw [hvm1] at this; exact this
  have foff : vm2.ram.offset = p.bootRam.offset := by
    have := congrArg (·.2.2.2.2.1) f'
    rw [hvm1] at this; exact this.trans hbase.symm
  have fsz : vm2.ram.size = 4096 := by
    have := congrArg (·.2.2.2.2.2) f'
    rw [hvm1] at this; exact this
  unfold EncVM.outputTape TestVM.outputTape
  show (i.decryptRam N.C _).bind _ = _
  rw [hdec, Option.bind_some]
  show collect ((List.range ev.output.size).map _) = _
  rw [ho, fout]
  apply collect_congr
  intro k _
  refine congrArg _ (funext fun a => ?_)
  unfold TMem.readByte
  show (usizeSub chk a ev.ramOffset).bind _ = _
  rw [hro, foff]
  refine congrArg _ (funext fun k => ?_)
  unfold TMem.get
  rw [fsz, if_neg (by decide), a'.ram, unpackWords_eq]
  rfl

/-! ### The hypotheses can be met -/

theorem noisy_load (limit : Nat) : ∃ vm, Interp.load (drift limit).C (fun _ _ _ => ()) true 4 4 3 demoParser
    [9#32, 8#32, 7#32, 6#32] = some vm :=
  load_total true 4 4 3 demoParser demoDecoded _ demo_decoded (by decide) (by decide) (by decide +kernel)
    (by decide)

/-- Three cycles of the demo program; RAM word 3 is not addressed by any of them. -/
theorem noisy_demo : ∃ d2, Spec.cycles 3 (Debug.image 4 4 demoDecoded [9#32, 8#32, 7#32, 6#32]) = some d2 ∧
    d2.registers[3]? = some 5#32 ∧ d2.ram = [9#32, 5#32, 7#32, 6#32] := by
  refine ⟨(Spec.cycles 3 (Debug.image 4 4 demoDecoded [9#32, 8#32, 7#32, 6#32])).getD (Debug.new 1 1), ?_⟩
  decide +kernel

/-- Limit 6: three cycles and the decryption fit. -/
example : ∃ vm vm2, Interp.load (drift 6).C (fun _ _ _ => ()) true 4 4 3 demoParser
      [9#32, 8#32, 7#32, 6#32] = some vm ∧ Interp.run 3 vm = some vm2 ∧
    vm2.decryptRam (drift 6).C (List.replicate 4 0#32) = some [9#32, 5#32, 7#32, 6#32] := by
  obtain ⟨vm, h⟩ := noisy_load 6
  obtain ⟨d2, hs, -, hr⟩ := noisy_demo
  obtain ⟨vm2, e, -, e2, -⟩ := C63_budget (drift 6) _ true 4 4 3 3 demoParser _ vm demoDecoded d2 (by decide)
    demo_decoded h (by decide) (by constructor <;> decide) hs
  rw [hr] at e2
  exact ⟨vm, vm2, h, e, e2 (by decide) _ rfl⟩

/-- Limit 5: the three cycles still fit, but the untouched 6 comes out as its complement. -/
example : ∃ vm vm2 ws, Interp.load (drift 5).C (fun _ _ _ => ()) true 4 4 3 demoParser
      [9#32, 8#32, 7#32, 6#32] = some vm ∧ Interp.run 3 vm = some vm2 ∧
    vm2.decryptRam (drift 5).C (List.replicate 4 0#32) = some ws ∧ ws[3]? = some 0xFFFFFFF9#32 := by
  obtain ⟨vm, h⟩ := noisy_load 5
  obtain ⟨d2, hs, -, hr⟩ := noisy_demo
  have hj : ∀ k, k < 3 → ((Spec.cycles (k + 1) (Debug.image 4 4 demoDecoded [9#32, 8#32, 7#32, 6#32])).elim true
      fun d1 => decide (d1.ramAddr.toNat / 4 % 2 ^ bitsFor d1.ram.length ≠ 3)) = true := by
    decide +kernel
  obtain ⟨-, -, vm2, e, f⟩ := C63_tight (fun _ _ _ => ()) true 4 4 3 3 demoParser _ vm demoDecoded d2
    (by decide) demo_decoded h (by decide) (by decide) hs (by decide +kernel) 3 6#32 (by decide +kernel)
    (fun k d1 hk h1 => by
      have := hj k hk
      rw [h1] at this
      exact of_decide_eq_true this)
  obtain ⟨ws, e1, e2⟩ := f (List.replicate 4 0#32) (by rw [hr]; rfl)
  exact ⟨vm, vm2, ws, h, e, e1, e2⟩

/-- A budget that is met and one that is exceeded: with growth 2 per cycle, limit 5 lasts three cycles. -/
example : FitsRun Drift.costs 5 3 ∧ ¬ FitsRun Drift.costs 5 4 ∧ FitsRun Drift.costs 5 1 :=
  ⟨by constructor <;> decide, fun h => absurd h.rd (by decide), by constructor <;> decide⟩

example : Fits Drift.costs 1 0 0 ∧ FitsRun Drift.costs (1 + 7 * 2 + 7 * 2) 8 :=
  ⟨by constructor <;> decide, C63_enough Drift.costs 1 7 (by constructor <;> decide)⟩

/-- The first cycle of the demo program satisfies the hypotheses of `C63_refreshed`. -/
example : ∃ vm vm' t, Interp.NRel (drift 5) 0 0 vm vm' ∧ Fits (drift 5).c (drift 5).limit 0 0 ∧
    vm.trace = some t := by
  obtain ⟨vm, h⟩ := noisy_load 5
  have r := Interp.load_nrel (N := drift 5) (fun _ _ _ => ()) true 4 4 3 demoParser
    [9#32, 8#32, 7#32, 6#32]
  rw [h] at r
  obtain ⟨vm', -, r⟩ := r.of_some_left
  obtain ⟨d2, hs, -⟩ := noisy_demo
  obtain ⟨vm2, e, -⟩ := C63_budget (drift 5) _ true 4 4 3 3 demoParser _ vm demoDecoded d2 (by decide)
    demo_decoded h (by decide) (by constructor <;> decide) hs
  obtain ⟨v1, e1, -⟩ := Option.bind_eq_some_iff.mp e
  obtain ⟨t, et, -⟩ := Option.map_eq_some_iff.mp e1
  exact ⟨vm, vm', t, r, by constructor <;> decide, et⟩

/-- The program of `C42_output`'s example, run with noise for six cycles. -/
example : ∃ ev ev2, exPhantom.encryptedVm (drift 12).C (fun _ _ _ => ()) true false 3 exTape 6 = some ev ∧
    ev.execute (drift 12).C (drift 12).decU (fun x => x) = some ev2 ∧
    ev2.outputTape (drift 12).C true = some [0xFF, 0xFF, 0, 0] := by
  have hpa : ∃ q, Parser.new.addAll true (packWords exPhantom.bootRom.data) = some q := by
    rw [← Option.isSome_iff_exists]; decide +kernel
  obtain ⟨q, hq⟩ := hpa
  obtain ⟨ev, hev⟩ := setup_total (drift 12).C (fun _ _ _ => ()) true false 3 6 exElf3 exPhantom exTape q ex_elf
    (by decide +kernel) (by decide +kernel) hq (by decide +kernel) (by decide +kernel) (by decide +kernel)
  have h0 : ∃ vm0, exPhantom.testVm true 6 = some vm0 ∧ vm0.readInputTape true exTape = some exStart := by
    have : ((exPhantom.testVm true 6).bind fun vm => vm.readInputTape true exTape).isSome = true := by decide +kernel
    obtain ⟨x, hx⟩ := Option.isSome_iff_exists.mp this
    have hs : exStart = x := by unfold exStart; rw [hx]; rfl
    obtain ⟨vm0, h1, h2⟩ := Option.bind_eq_some_iff.mp hx
    exact ⟨vm0, h1, by rw [hs]; exact h2⟩
  obtain ⟨vm0, h1, h2⟩ := h0
  have h3 : ((exStart.execute true).bind fun vm => vm.outputTape true) = some [0xFF, 0xFF, 0, 0] := by decide +kernel
  obtain ⟨vm2, h4, h5⟩ := Option.bind_eq_some_iff.mp h3
  obtain ⟨ev2, e1, e2⟩ := C63_output (drift 12) (fun _ _ _ => ()) true true 3 6 exElf3 exPhantom exTape ev
    vm0 exStart vm2 (fun x => x) (by decide +kernel) ex_elf (by decide +kernel) (by decide) (by decide)
    (by constructor <;> decide) (by decide) hev h1 h2 (fun k v hk hv => ex_executes k v hk hv) h4
  exact ⟨ev, ev2, hev, e1, e2.trans h5⟩

end Verif.Props
