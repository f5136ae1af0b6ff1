import Verif.Lemmas.NoiseMem
import Verif.Lemmas.InterpSim
import Verif.Spec.Noise
/-
  Noise of one cycle of the interpreter.
-/
namespace Verif.Model
open Spec (Fits readNoise loadNoise wordNoise regGrowth ramGrowth)

variable {N : Noisy}

theorem evalCircuits_nrel (hl : wordNoise N.c ≤ N.limit) (cs : List BitCircuit) (hcs : ∀ c ∈ cs, c ∈ generatedCircuits)
    {f : Nat → N.B.GBit} {f' : Nat → Bool} (hf : ∀ i, N.Bt (f i) (f' i)) :
    ORel (N.U (wordNoise N.c)) (evalCircuits N.B cs f) (evalCircuits (plain N.B.logN N.lib) cs f') := by
  unfold evalCircuits
  refine ORel.map (fun _ _ h => N.pack (by unfold wordNoise at hl; omega) h) (LRel.collect ?_)
  intro i
  rw [List.getElem?_map, List.getElem?_map]
  cases h : cs[i]? with
  | none => trivial
  | some c => exact N.bdd c (hcs c (List.mem_of_getElem? h)) hf

theorem helperGBit_nrel (os : List Nat) {ds : List N.B.Prep} {ds' : List (BitVec 32)}
    (h : LRel N.P ds ds') (bit : Nat) :
    N.Bt (helperGBit N.B os ds bit) (helperGBit (plain N.B.logN N.lib) os ds' bit) := by
  induction os generalizing ds ds' with
  | nil => exact N.gzero
  | cons o os ih =>
    cases ds with
    | nil =>
      cases ds' with
      | nil => exact N.gzero
      | cons => have := h.length; simp at this
    | cons d ds =>
      cases ds' with
      | nil => have := h.length; simp at this
      | cons d' ds' =>
        obtain ⟨h1, h2⟩ := h.uncons
        cases os with
        | nil => exact N.gbit _ h1
        | cons o' os =>
          simp only [helperGBit]
          split
          · exact ih h2
          · exact N.gbit _ h1

theorem twoPreps_nrel {a b : N.B.Prep} {a' b' : BitVec 32} (ha : N.P a a') (hb : N.P b b') (bit : Nat) :
    N.Bt (twoPreps N.B a b bit) (twoPreps (plain N.B.logN N.lib) a' b' bit) := by
  unfold twoPreps
  split
  · exact N.gbit _ ha
  · exact N.gbit _ hb

/-- The candidates for the destination register. -/
theorem evalEnc_nrel (o : RdUpdate) {ν : Nat} {rs1 rs2 imm pc : N.B.Prep} {rs1' rs2' imm' pc' : BitVec 32}
    {ram : N.B.Uint} {ram' : BitVec 32} (hl : wordNoise N.c ≤ N.limit) (h1 : N.P rs1 rs1') (h2 : N.P rs2 rs2') (hi : N.P imm imm')
    (hp : N.P pc pc') (hr : N.U ν ram ram') :
    ORel (N.U (max (max N.c.bin (wordNoise N.c)) (ν + 3 * N.c.byte)))
      (RdUpdate.evalEnc N.B o rs1 rs2 imm pc ram)
      (RdUpdate.evalEnc (plain N.B.logN N.lib) o rs1' rs2' imm' pc' ram') := by
  have up : ∀ {x x'}, N.U N.c.bin x x' →
      N.U (max (max N.c.bin (wordNoise N.c)) (ν + 3 * N.c.byte)) x x' :=
    fun h => N.U_mono (by omega) h
  have uc : ∀ {x : Option N.B.Uint} {x' : Option (BitVec 32)}, ORel (N.U (wordNoise N.c)) x x' →
      ORel (N.U (max (max N.c.bin (wordNoise N.c)) (ν + 3 * N.c.byte))) x x' := by
    intro x x' h
    have := ORel.map (f := id) (g := id) (fun a b h' =>
      N.U_mono (show wordNoise N.c ≤ max (max N.c.bin (wordNoise N.c)) (ν + 3 * N.c.byte) by omega) h') h
    simpa using this
  cases o
  case NONE => exact N.U_mono (Nat.zero_le _) N.uzero
  case LUI => exact uc (evalCircuits_nrel hl _ mem_generated_lui (twoPreps_nrel hi hi))
  case AUIPC => exact uc (evalCircuits_nrel hl _ mem_generated_auipc (twoPreps_nrel hp hi))
  case JAL => exact uc (evalCircuits_nrel hl _ mem_generated_jalr (twoPreps_nrel hp hp))
  case JALR => exact uc (evalCircuits_nrel hl _ mem_generated_jalr (twoPreps_nrel hp hp))
  case LB => exact N.U_mono (by omega) (N.zeroByte _ (N.zeroByte _ (N.zeroByte _ hr)))
  case LBU => exact N.U_mono (by omega) (N.zeroByte _ (N.zeroByte _ (N.zeroByte _ hr)))
  case LH => exact N.U_mono (by omega) (N.sextByte _ (N.zeroByte _ (N.zeroByte _ hr)))
  case LHU => exact N.U_mono (by omega) (N.zeroByte _ (N.zeroByte _ hr))
  case LW => exact N.U_mono (by omega) hr
  all_goals first
    | exact up (N.bin _ h1 h2)
    | exact up (N.bin _ h1 hi)
    | trivial

theorem select_range_nrel {ν : Nat} {f : Nat → N.B.Uint} {f' : Nat → BitVec 32} (k : Nat → Nat) (n : Nat)
    (hf : ∀ i, N.U ν (f i) (f' i)) {p : N.B.Prep} {p' : BitVec 32} (hp : N.P p p') (s b : Nat) :
    N.U (ν + N.c.select) (N.B.select ((List.range n).map fun i => (k i, f i)) p s b)
      ((plain N.B.logN N.lib).select ((List.range n).map fun i => (k i, f' i)) p' s b) :=
  N.select _ _ (LRel.map_range n fun i _ => ⟨rfl, hf i⟩) hp

/-- The candidates for the RAM word. -/
theorem ramEvalEnc_nrel (o : RamUpdate) {ν : Nat} {rs2 ram : N.B.Uint} {rs2' ram' : BitVec 32}
    {p : N.B.Prep} {p' : BitVec 32} (h2 : N.U ν rs2 rs2') (hr : N.U ν ram ram') (hp : N.P p p') :
    N.U (ν + N.c.byte + N.c.select) (RamUpdate.evalEnc N.B o rs2 ram p)
      (RamUpdate.evalEnc (plain N.B.logN N.lib) o rs2' ram' p') := by
  cases o
  case NONE => exact N.U_mono (by omega) hr
  case SW => exact N.U_mono (by omega) h2
  case SB => exact select_range_nrel (fun i => i) 4 (fun i => N.spliceU8 _ _ hr h2) hp 0 2
  case SH => exact select_range_nrel (fun i => i <<< 1) 2 (fun i => N.spliceU16 _ _ hr h2) hp 0 2

variable (N)

/-- Interpreter whose registers have noise at most `r` and whose RAM has noise at most `m`. -/
structure Interp.NRel (r m : Nat) (vm : Interp N.B) (vm' : Interp (plain N.B.logN N.lib)) : Prop where
  cycle : vm.cycle = vm'.cycle
  threads : vm.threads = vm'.threads
  romSize : vm.romSize = vm'.romSize
  ramSize : vm.ramSize = vm'.ramSize
  romBits : vm.romBits = vm'.romBits
  ramBits : vm.ramBits = vm'.ramBits
  immRom : Memory.NRel N N.c.fresh vm.immRom vm'.immRom
  rs1Rom : Memory.NRel N N.c.fresh vm.rs1Rom vm'.rs1Rom
  rs2Rom : Memory.NRel N N.c.fresh vm.rs2Rom vm'.rs2Rom
  rdRom : Memory.NRel N N.c.fresh vm.rdRom vm'.rdRom
  rduRom : Memory.NRel N N.c.fresh vm.rduRom vm'.rduRom
  muRom : Memory.NRel N N.c.fresh vm.muRom vm'.muRom
  pcuRom : Memory.NRel N N.c.fresh vm.pcuRom vm'.pcuRom
  registers : Memory.NRel N r vm.registers vm'.registers
  ram : Memory.NRel N m vm.ram vm'.ram
  pc : N.U (wordNoise N.c) vm.pc vm'.pc
  pcP : N.P vm.pcP vm'.pcP

structure Fetch.NRel (f : Fetch N.B) (f' : Fetch (plain N.B.logN N.lib)) : Prop where
  pcP : N.P f.pcP f'.pcP
  rduP : N.P f.rduP f'.rduP
  muP : N.P f.muP f'.muP
  pcuP : N.P f.pcuP f'.pcuP
  immP : N.P f.immP f'.immP
  rs1P : N.P f.rs1P f'.rs1P
  rs2P : N.P f.rs2P f'.rs2P
  rdP : N.P f.rdP f'.rdP

structure Sources.NRel (r : Nat) (s : Sources N.B) (s' : Sources (plain N.B.logN N.lib)) : Prop where
  rs1 : N.U (readNoise N.c r) s.rs1 s'.rs1
  rs2 : N.U (readNoise N.c r) s.rs2 s'.rs2
  rs1P : N.P s.rs1P s'.rs1P
  rs2P : N.P s.rs2P s'.rs2P

structure RamRead.NRel (m : Nat) (q : RamRead N.B) (q' : RamRead (plain N.B.logN N.lib)) : Prop where
  addr : N.U (wordNoise N.c) q.addr q'.addr
  addrP : N.P q.addrP q'.addrP
  val : N.U (loadNoise N.c m) q.val q'.val
  ram : Memory.NRel N (m + N.front) q.ram q'.ram

structure Trace.NRel (r m : Nat) (t : Trace N.B) (t' : Trace (plain N.B.logN N.lib)) : Prop where
  pcP : N.P t.f.pcP t'.f.pcP
  addr : N.U (wordNoise N.c) t.q.addr t'.q.addr
  rdVal : N.U N.c.identity t.rdVal t'.rdVal
  registers : Memory.NRel N r t.registers t'.registers
  ramVal : N.U N.c.identity t.ramVal t'.ramVal
  ram : Memory.NRel N m t.ram t'.ram
  pc : N.U (wordNoise N.c) t.pc t'.pc

variable {N}

theorem Interp.NRel.mono {r r1 m m1 : Nat} (hr : r ≤ r1) (hm : m ≤ m1) {vm : Interp N.B} {vm'}
    (h : Interp.NRel N r m vm vm') : Interp.NRel N r1 m1 vm vm' :=
  { h with registers := h.registers.mono hr, ram := h.ram.mono hm }

theorem Interp.NRel.fetch {r m : Nat} {vm : Interp N.B} {vm'} (h : Interp.NRel N r m vm vm')
    (hl : readNoise N.c N.c.fresh ≤ N.limit) {p : N.B.Prep} {p' : BitVec 32} (hp : N.P p p') :
    ORel (Fetch.NRel N) (vm.fetch p) (vm'.fetch p') := by
  unfold Interp.fetch
  rw [h.threads]
  refine ORel.bind (fun imm imm' himm => ?_) (h.immRom.readStateless (by unfold readNoise at hl; omega) _ hp 2)
  refine ORel.bind (fun rdu rdu' hrdu => ?_) (h.rduRom.readStateless (by unfold readNoise at hl; omega) _ hp 2)
  refine ORel.bind (fun mu mu' hmu => ?_) (h.muRom.readStateless (by unfold readNoise at hl; omega) _ hp 2)
  refine ORel.bind (fun pcu pcu' hpcu => ?_) (h.pcuRom.readStateless (by unfold readNoise at hl; omega) _ hp 2)
  refine ORel.bind (fun rs1 rs1' hrs1 => ?_) (h.rs1Rom.readStateless (by unfold readNoise at hl; omega) _ hp 2)
  refine ORel.bind (fun rs2 rs2' hrs2 => ?_) (h.rs2Rom.readStateless (by unfold readNoise at hl; omega) _ hp 2)
  refine ORel.bind (fun rd rd' hrd => ?_) (h.rdRom.readStateless (by unfold readNoise at hl; omega) _ hp 2)
  refine ORel.map (fun ps ps' hps => ?_) (prepareMultiple_nrel hl _ (LRel.cons hrdu (LRel.cons hmu
    (LRel.cons hpcu (LRel.cons himm (LRel.cons hrs1 (LRel.cons hrs2 (LRel.cons hrd LRel.nil))))))) _)
  have g := fun i => LRel.getD hps N.pzero i
  exact ⟨hp, g 0, g 1, g 2, g 3, g 4, g 5, g 6⟩

theorem Interp.NRel.readRegisters {r m : Nat} {vm : Interp N.B} {vm'} (h : Interp.NRel N r m vm vm')
    (hl : readNoise N.c r ≤ N.limit) {f : Fetch N.B} {f'} (hf : Fetch.NRel N f f') :
    ORel (Sources.NRel N r) (vm.readRegisters f) (vm'.readRegisters f') := by
  unfold Interp.readRegisters
  rw [h.threads]
  refine ORel.bind (fun rs1 rs1' hrs1 => ?_) (h.registers.readStateless (by unfold readNoise at hl; omega) _ hf.rs1P 0)
  refine ORel.bind (fun rs2 rs2' hrs2 => ?_) (h.registers.readStateless (by unfold readNoise at hl; omega) _ hf.rs2P 0)
  refine ORel.map (fun ps ps' hps => ?_)
    (prepareMultiple_nrel hl _ (LRel.cons hrs1 (LRel.cons hrs2 LRel.nil)) _)
  exact ⟨hrs1, hrs2, LRel.getD hps N.pzero 0, LRel.getD hps N.pzero 1⟩

theorem Interp.NRel.readRam {r m : Nat} {vm : Interp N.B} {vm'} (h : Interp.NRel N r m vm vm')
    (hl : wordNoise N.c ≤ N.limit) (hm : loadNoise N.c m ≤ N.limit) {f : Fetch N.B} {f'}
    (hf : Fetch.NRel N f f') {s : Sources N.B} {s'} (hs : Sources.NRel N r s s') :
    ORel (RamRead.NRel N m) (vm.readRam f s) (vm'.readRam f' s') := by
  unfold Interp.readRam
  rw [h.threads, h.ramBits]
  refine ORel.bind (fun a a' ha => ?_) (evalCircuits_nrel hl _ mem_generated_ramOffset
    (helperGBit_nrel _ (LRel.cons hf.immP (LRel.cons hs.rs1P LRel.nil))))
  have hp := N.prepareCustom 0 (vm'.ramBits + 2) hl ha
  refine ORel.map (fun x x' hx => ⟨ha, hp, ?_, hx.1⟩) (h.ram.readStatefull
    (by unfold loadNoise at hm; unfold Noisy.front; omega) _ hp 2)
  exact N.U_mono (by unfold loadNoise Noisy.front; omega) hx.2

/-- The refresh. -/
theorem refresh_nrel {ν : Nat} (hν : ν ≤ N.limit) {u : N.B.Uint} {u' : BitVec 32} (h : N.U ν u u') :
    N.U N.c.identity (refresh N.B u) (refresh (plain N.B.logN N.lib) u') :=
  N.identity (N.prepareCustom _ _ hν h)

theorem rdMap_nrel (ops : List RdUpdate) {ν : Nat} {rs1 rs2 imm pc : N.B.Prep}
    {rs1' rs2' imm' pc' : BitVec 32} {ram : N.B.Uint} {ram' : BitVec 32}
    (hl : wordNoise N.c ≤ N.limit) (h1 : N.P rs1 rs1') (h2 : N.P rs2 rs2') (hi : N.P imm imm') (hp : N.P pc pc') (hr : N.U ν ram ram') :
    ORel (LRel (fun x x' => x.1 = x'.1 ∧
        N.U (max (max N.c.bin (wordNoise N.c)) (ν + 3 * N.c.byte)) x.2 x'.2))
      (rdMap N.B ops rs1 rs2 imm pc ram)
      (rdMap (plain N.B.logN N.lib) ops rs1' rs2' imm' pc' ram') := by
  unfold rdMap
  refine LRel.collect ?_
  intro i
  rw [List.getElem?_map, List.getElem?_map]
  cases ops[i]? with
  | none => trivial
  | some op =>
    exact ORel.map (R := N.U (max (max N.c.bin (wordNoise N.c)) (ν + 3 * N.c.byte)))
      (S := fun (x : Nat × N.B.Uint) (x' : Nat × BitVec 32) => x.1 = x'.1 ∧
        N.U (max (max N.c.bin (wordNoise N.c)) (ν + 3 * N.c.byte)) x.2 x'.2)
      (fun _ _ hu => ⟨rfl, hu⟩) (evalEnc_nrel op hl h1 h2 hi hp hr)

theorem Interp.NRel.updateRegisters {r m : Nat} {vm : Interp N.B} {vm'} (h : Interp.NRel N r m vm vm')
    (hl : max (max N.c.bin (wordNoise N.c)) (loadNoise N.c m + 3 * N.c.byte) + N.c.select ≤ N.limit)
    (hw : wordNoise N.c ≤ N.limit) (ops : List RdUpdate) {f : Fetch N.B} {f'} (hf : Fetch.NRel N f f') {s : Sources N.B}
    {s'} (hs : Sources.NRel N r s s') {v : N.B.Uint} {v' : BitVec 32}
    (hv : N.U (loadNoise N.c m) v v') :
    ORel (fun x x' => N.U N.c.identity x.1 x'.1 ∧ Memory.NRel N (r + regGrowth N.c) x.2 x'.2)
      (vm.updateRegisters ops f s v) (vm'.updateRegisters ops f' s' v') := by
  unfold Interp.updateRegisters
  rw [h.threads]
  refine ORel.bind (fun m m' hm => ?_) (rdMap_nrel ops hw hs.rs1P hs.rs2P hf.immP hf.pcP hv)
  have hrd := refresh_nrel hl (N.select 0 (bitsFor ops.length) hm hf.rduP)
  refine ORel.bind (fun r r' hr => ?_) (h.registers.write _ hrd hf.rdP 0)
  refine ORel.map (fun r r' hr => ⟨hrd, hr.mono ?_⟩) (hr.zero _ 0)
  unfold Noisy.front Noisy.back regGrowth
  omega

theorem Interp.NRel.updateRam {r m : Nat} {vm : Interp N.B} {vm'} (h : Interp.NRel N r m vm vm')
    (hl : max (readNoise N.c r) (loadNoise N.c m) + N.c.byte + 2 * N.c.select ≤ N.limit)
    {f : Fetch N.B} {f'} (hf : Fetch.NRel N f f') {s : Sources N.B} {s'}
    (hs : Sources.NRel N r s s') {q : RamRead N.B} {q'} (hq : RamRead.NRel N m q q') :
    ORel (fun x x' => N.U N.c.identity x.1 x'.1 ∧ Memory.NRel N (m + ramGrowth N.c) x.2 x'.2)
      (vm.updateRam f s q) (vm'.updateRam f' s' q') := by
  unfold Interp.updateRam
  rw [h.threads]
  have hm : LRel (fun (x : Nat × N.B.Uint) (x' : Nat × BitVec 32) => x.1 = x'.1 ∧
        N.U (max (readNoise N.c r) (loadNoise N.c m) + N.c.byte + N.c.select) x.2 x'.2)
      (ramUpdateOpList.map fun op => (op.id.toNat, RamUpdate.evalEnc N.B op s.rs2 q.val q.addrP))
      (ramUpdateOpList.map fun op =>
        (op.id.toNat, RamUpdate.evalEnc (plain N.B.logN N.lib) op s'.rs2 q'.val q'.addrP)) := by
    intro i
    rw [List.getElem?_map, List.getElem?_map]
    cases ramUpdateOpList[i]? with
    | none => trivial
    | some op => exact ⟨rfl, ramEvalEnc_nrel op (N.U_mono (by omega) hs.rs2)
        (N.U_mono (by omega) hq.val) hq.addrP⟩
  have hv := refresh_nrel (by omega) (N.select 0 (bitsFor ramUpdateOpList.length) hm hf.muP)
  refine ORel.map (fun r r' hr => ⟨hv, hr.mono ?_⟩) (hq.ram.readStatefullRev _ hv hq.addrP 2)
  unfold Noisy.front Noisy.back ramGrowth
  omega

/-- One cycle within the budget. -/
theorem Interp.NRel.trace {r m : Nat} {vm : Interp N.B} {vm'} (h : Interp.NRel N r m vm vm')
    (hl : Fits N.c N.limit r m) :
    ORel (Trace.NRel N (r + regGrowth N.c) (m + ramGrowth N.c)) vm.trace vm'.trace := by
  unfold Interp.trace
  rw [h.cycle, h.romBits]
  have hp : N.P (if vm'.cycle ≠ 0#32 then N.B.prepareCustom vm.pc 0 (vm'.romBits + 2) else vm.pcP)
      (if vm'.cycle ≠ 0#32 then (plain N.B.logN N.lib).prepareCustom vm'.pc 0 (vm'.romBits + 2)
        else vm'.pcP) := by
    split
    · exact N.prepareCustom _ _ hl.word h.pc
    · exact h.pcP
  have hld : loadNoise N.c m ≤ N.limit := by have := hl.rd; omega
  refine ORel.bind (fun f f' hf => ?_) (h.fetch hl.program hp)
  refine ORel.bind (fun s s' hs => ?_) (h.readRegisters hl.registers hf)
  refine ORel.bind (fun q q' hq => ?_) (h.readRam hl.word hld hf hs)
  refine ORel.bind (fun rd rd' hrd => ?_) (h.updateRegisters hl.rd hl.word _ hf hs hq.val)
  refine ORel.bind (fun st st' hst => ?_) (h.updateRam hl.ram hf hs hq)
  refine ORel.map (fun pc pc' hpc => ?_) (evalCircuits_nrel hl.word _ mem_generated_pcUpdate
    (helperGBit_nrel _ (LRel.cons hf.pcuP (LRel.cons hs.rs1P (LRel.cons hs.rs2P (LRel.cons hf.pcP
      (LRel.cons hf.immP LRel.nil)))))))
  exact ⟨hf.pcP, hq.addr, hrd.1, hrd.2, hst.1, hst.2, hpc⟩

theorem Interp.NRel.step {r m : Nat} {vm : Interp N.B} {vm'} (h : Interp.NRel N r m vm vm')
    (hl : Fits N.c N.limit r m) :
    ORel (Interp.NRel N (r + regGrowth N.c) (m + ramGrowth N.c)) vm.step vm'.step :=
  ORel.map (fun _ _ ht => ⟨congrArg (· + 1#32) h.cycle, h.threads, h.romSize, h.ramSize, h.romBits,
    h.ramBits, h.immRom, h.rs1Rom, h.rs2Rom, h.rdRom, h.rduRom, h.muRom, h.pcuRom, ht.registers, ht.ram,
    ht.pc, ht.pcP⟩) (h.trace hl)

/-- The budget for large noise is one for small noise. -/
theorem Fits.anti {c : Costs} {limit r r1 m m1 : Nat} (h : Fits c limit r1 m1) (hr : r ≤ r1)
    (hm : m ≤ m1) : Fits c limit r m := by
  obtain ⟨h1, h2, h3, h4, h5⟩ := h
  unfold readNoise loadNoise at *
  exact ⟨h1, h2, by unfold readNoise; omega, by unfold loadNoise; omega,
    by unfold readNoise loadNoise; omega⟩

/-- `n` cycles within the budget. -/
theorem Interp.NRel.run {r m : Nat} {vm : Interp N.B} {vm'} (h : Interp.NRel N r m vm vm') (n : Nat)
    (hl : ∀ k, k < n → Fits N.c N.limit (r + k * regGrowth N.c) (m + k * ramGrowth N.c)) :
    ORel (Interp.NRel N (r + n * regGrowth N.c) (m + n * ramGrowth N.c)) (Interp.run n vm)
      (Interp.run n vm') := by
  induction n generalizing r m vm vm' with
  | zero => exact h.mono (by omega) (by omega)
  | succ n ih =>
    have h0 := hl 0 (by omega)
    rw [Nat.zero_mul, Nat.zero_mul] at h0
    refine ORel.bind (fun a a' ha => ?_) (h.step h0)
    have := ih ha (fun k hk => by
      have := hl (k + 1) (by omega)
      rw [Nat.succ_mul, Nat.succ_mul] at this
      exact Fits.anti this (by omega) (by omega))
    rw [Nat.succ_mul, Nat.succ_mul]
    have e1 : r + regGrowth N.c + n * regGrowth N.c = r + (n * regGrowth N.c + regGrowth N.c) := by omega
    have e2 : m + ramGrowth N.c + n * ramGrowth N.c = m + (n * ramGrowth N.c + ramGrowth N.c) := by omega
    rw [e1, e2] at this
    exact this

end Verif.Model
