import Verif.Lemmas.Prepare
/-
  The interpreter preserves any relation between libraries.
-/
namespace Verif.Model

variable {B B' : Backend} (S : Sim B B')

theorem evalCircuits_rel (cs : List BitCircuit) (hcs : ∀ c ∈ cs, c ∈ generatedCircuits)
    {f : Nat → B.GBit} {f' : Nat → B'.GBit} (hf : ∀ i, S.Bt (f i) (f' i)) :
    ORel S.U (evalCircuits B cs f) (evalCircuits B' cs f') := by
  unfold evalCircuits
  refine ORel.map (fun _ _ h => S.pack h) (LRel.collect ?_)
  intro i
  rw [List.getElem?_map, List.getElem?_map]
  cases h : cs[i]? with
  | none => trivial
  | some c => exact S.bdd c (hcs c (List.mem_of_getElem? h)) hf

theorem helperGBit_rel (os : List Nat) {ds : List B.Prep} {ds' : List B'.Prep}
    (h : LRel S.P ds ds') (bit : Nat) :
    S.Bt (helperGBit B os ds bit) (helperGBit B' os ds' bit) := by
  induction os generalizing ds ds' with
  | nil => exact S.gzero
  | cons o os ih =>
    cases ds with
    | nil =>
      cases ds' with
      | nil => exact S.gzero
      | cons => have := h.length; simp at this
    | cons d ds =>
      cases ds' with
      | nil => have := h.length; simp at this
      | cons d' ds' =>
        obtain ⟨h1, h2⟩ := h.uncons
        cases os with
        | nil => exact S.gbit _ h1
        | cons o' os =>
          simp only [helperGBit]
          split
          · exact ih h2
          · exact S.gbit _ h1

theorem twoPreps_rel {a b : B.Prep} {a' b' : B'.Prep} (ha : S.P a a') (hb : S.P b b') (bit : Nat) :
    S.Bt (twoPreps B a b bit) (twoPreps B' a' b' bit) := by
  unfold twoPreps
  split
  · exact S.gbit _ ha
  · exact S.gbit _ hb

theorem mem_generated_lui : ∀ c ∈ Circuits.Lui.circuits, c ∈ generatedCircuits := by
  intro c h
  simp only [generatedCircuits, List.mem_append]
  exact Or.inl (Or.inl (Or.inl (Or.inl h)))
theorem mem_generated_jalr : ∀ c ∈ Circuits.Jalr.circuits, c ∈ generatedCircuits := by
  intro c h
  simp only [generatedCircuits, List.mem_append]
  exact Or.inl (Or.inl (Or.inl (Or.inr h)))
theorem mem_generated_auipc : ∀ c ∈ Circuits.Auipc.circuits, c ∈ generatedCircuits := by
  intro c h
  simp only [generatedCircuits, List.mem_append]
  exact Or.inl (Or.inl (Or.inr h))
theorem mem_generated_ramOffset : ∀ c ∈ Circuits.RamOffset.circuits, c ∈ generatedCircuits := by
  intro c h
  simp only [generatedCircuits, List.mem_append]
  exact Or.inl (Or.inr h)
theorem mem_generated_pcUpdate : ∀ c ∈ Circuits.PcUpdate.circuits, c ∈ generatedCircuits := by
  intro c h
  simp only [generatedCircuits, List.mem_append]
  exact Or.inr h

theorem ramOffset_rel {a b : B.Prep} {a' b' : B'.Prep} (ha : S.P a a') (hb : S.P b b') :
    ORel S.U (ramOffset B a b) (ramOffset B' a' b') :=
  evalCircuits_rel S _ mem_generated_ramOffset
    (helperGBit_rel S _ (LRel.cons ha (LRel.cons hb LRel.nil)))

theorem updatePc_rel {a b c d e : B.Prep} {a' b' c' d' e' : B'.Prep} (ha : S.P a a') (hb : S.P b b')
    (hc : S.P c c') (hd : S.P d d') (he : S.P e e') :
    ORel S.U (updatePc B a b c d e) (updatePc B' a' b' c' d' e') :=
  evalCircuits_rel S _ mem_generated_pcUpdate (helperGBit_rel S _
    (LRel.cons he (LRel.cons ha (LRel.cons hb (LRel.cons hc (LRel.cons hd LRel.nil))))))

theorem evalEnc_rel (o : RdUpdate) {rs1 rs2 imm pc : B.Prep} {rs1' rs2' imm' pc' : B'.Prep}
    {ram : B.Uint} {ram' : B'.Uint} (h1 : S.P rs1 rs1') (h2 : S.P rs2 rs2') (hi : S.P imm imm')
    (hp : S.P pc pc') (hr : S.U ram ram') :
    ORel S.U (RdUpdate.evalEnc B o rs1 rs2 imm pc ram)
      (RdUpdate.evalEnc B' o rs1' rs2' imm' pc' ram') := by
  cases o
  case NONE => exact S.uzero
  case LUI => exact evalCircuits_rel S _ mem_generated_lui (twoPreps_rel S hi hi)
  case AUIPC => exact evalCircuits_rel S _ mem_generated_auipc (twoPreps_rel S hp hi)
  case JAL => exact evalCircuits_rel S _ mem_generated_jalr (twoPreps_rel S hp hp)
  case JALR => exact evalCircuits_rel S _ mem_generated_jalr (twoPreps_rel S hp hp)
  case LB => exact S.zeroByte _ (S.zeroByte _ (S.zeroByte _ hr))
  case LBU => exact S.zeroByte _ (S.zeroByte _ (S.zeroByte _ hr))
  case LH => exact S.sextByte _ (S.zeroByte _ (S.zeroByte _ hr))
  case LHU => exact S.zeroByte _ (S.zeroByte _ hr)
  case LW => exact hr
  all_goals first
    | exact S.bin _ h1 h2
    | exact S.bin _ h1 hi
    | trivial

theorem select_range_rel {f : Nat → B.Uint} {f' : Nat → B'.Uint} (k : Nat → Nat) (n : Nat)
    (hf : ∀ i, S.U (f i) (f' i)) {p : B.Prep} {p' : B'.Prep} (hp : S.P p p') (s b : Nat) :
    S.U (B.select ((List.range n).map fun i => (k i, f i)) p s b)
      (B'.select ((List.range n).map fun i => (k i, f' i)) p' s b) :=
  S.select _ _ (LRel.map_range n fun i _ => ⟨rfl, hf i⟩) hp

theorem ramEvalEnc_rel (o : RamUpdate) {rs2 ram : B.Uint} {rs2' ram' : B'.Uint} {p : B.Prep}
    {p' : B'.Prep} (h2 : S.U rs2 rs2') (hr : S.U ram ram') (hp : S.P p p') :
    S.U (RamUpdate.evalEnc B o rs2 ram p) (RamUpdate.evalEnc B' o rs2' ram' p') := by
  cases o
  case NONE => exact hr
  case SW => exact h2
  case SB => exact select_range_rel S (fun i => i) 4 (fun i => S.spliceU8 _ _ hr h2) hp 0 2
  case SH => exact select_range_rel S (fun i => i <<< 1) 2 (fun i => S.spliceU16 _ _ hr h2) hp 0 2

/-- Related interpreters. -/
structure Interp.Rel (vm : Interp B) (vm' : Interp B') : Prop where
  cycle : vm.cycle = vm'.cycle
  threads : vm.threads = vm'.threads
  romSize : vm.romSize = vm'.romSize
  ramSize : vm.ramSize = vm'.ramSize
  romBits : vm.romBits = vm'.romBits
  ramBits : vm.ramBits = vm'.ramBits
  immRom : Memory.Rel S vm.immRom vm'.immRom
  rs1Rom : Memory.Rel S vm.rs1Rom vm'.rs1Rom
  rs2Rom : Memory.Rel S vm.rs2Rom vm'.rs2Rom
  rdRom : Memory.Rel S vm.rdRom vm'.rdRom
  rduRom : Memory.Rel S vm.rduRom vm'.rduRom
  muRom : Memory.Rel S vm.muRom vm'.muRom
  pcuRom : Memory.Rel S vm.pcuRom vm'.pcuRom
  registers : Memory.Rel S vm.registers vm'.registers
  ram : Memory.Rel S vm.ram vm'.ram
  pc : S.U vm.pc vm'.pc
  pcP : S.P vm.pcP vm'.pcP

structure Fetch.Rel (f : Fetch B) (f' : Fetch B') : Prop where
  pcP : S.P f.pcP f'.pcP
  imm : S.U f.imm f'.imm
  rdu : S.U f.rdu f'.rdu
  mu : S.U f.mu f'.mu
  pcu : S.U f.pcu f'.pcu
  rs1 : S.U f.rs1 f'.rs1
  rs2 : S.U f.rs2 f'.rs2
  rd : S.U f.rd f'.rd
  rduP : S.P f.rduP f'.rduP
  muP : S.P f.muP f'.muP
  pcuP : S.P f.pcuP f'.pcuP
  immP : S.P f.immP f'.immP
  rs1P : S.P f.rs1P f'.rs1P
  rs2P : S.P f.rs2P f'.rs2P
  rdP : S.P f.rdP f'.rdP

structure Sources.Rel (s : Sources B) (s' : Sources B') : Prop where
  rs1 : S.U s.rs1 s'.rs1
  rs2 : S.U s.rs2 s'.rs2
  rs1P : S.P s.rs1P s'.rs1P
  rs2P : S.P s.rs2P s'.rs2P

structure RamRead.Rel (q : RamRead B) (q' : RamRead B') : Prop where
  addr : S.U q.addr q'.addr
  addrP : S.P q.addrP q'.addrP
  val : S.U q.val q'.val
  ram : Memory.Rel S q.ram q'.ram

structure Trace.Rel (t : Trace B) (t' : Trace B') : Prop where
  f : Fetch.Rel S t.f t'.f
  s : Sources.Rel S t.s t'.s
  q : RamRead.Rel S t.q t'.q
  rdVal : S.U t.rdVal t'.rdVal
  registers : Memory.Rel S t.registers t'.registers
  ramVal : S.U t.ramVal t'.ramVal
  ram : Memory.Rel S t.ram t'.ram
  pc : S.U t.pc t'.pc

variable {S}

theorem Interp.Rel.fetch {vm : Interp B} {vm' : Interp B'} (h : Interp.Rel S vm vm') {p : B.Prep}
    {p' : B'.Prep} (hp : S.P p p') : ORel (Fetch.Rel S) (vm.fetch p) (vm'.fetch p') := by
  unfold Interp.fetch
  rw [h.threads]
  refine ORel.bind (fun imm imm' himm => ?_) (h.immRom.readStateless _ hp 2)
  refine ORel.bind (fun rdu rdu' hrdu => ?_) (h.rduRom.readStateless _ hp 2)
  refine ORel.bind (fun mu mu' hmu => ?_) (h.muRom.readStateless _ hp 2)
  refine ORel.bind (fun pcu pcu' hpcu => ?_) (h.pcuRom.readStateless _ hp 2)
  refine ORel.bind (fun rs1 rs1' hrs1 => ?_) (h.rs1Rom.readStateless _ hp 2)
  refine ORel.bind (fun rs2 rs2' hrs2 => ?_) (h.rs2Rom.readStateless _ hp 2)
  refine ORel.bind (fun rd rd' hrd => ?_) (h.rdRom.readStateless _ hp 2)
  refine ORel.map (fun ps ps' hps => ?_) (prepareMultiple_rel S _ (LRel.cons hrdu (LRel.cons hmu
    (LRel.cons hpcu (LRel.cons himm (LRel.cons hrs1 (LRel.cons hrs2 (LRel.cons hrd LRel.nil))))))) _)
  have g := fun i => LRel.getD hps S.pzero i
  exact ⟨hp, himm, hrdu, hmu, hpcu, hrs1, hrs2, hrd, g 0, g 1, g 2, g 3, g 4, g 5, g 6⟩

theorem Interp.Rel.readRegisters {vm : Interp B} {vm' : Interp B'} (h : Interp.Rel S vm vm')
    {f : Fetch B} {f' : Fetch B'} (hf : Fetch.Rel S f f') :
    ORel (Sources.Rel S) (vm.readRegisters f) (vm'.readRegisters f') := by
  unfold Interp.readRegisters
  rw [h.threads]
  refine ORel.bind (fun rs1 rs1' hrs1 => ?_) (h.registers.readStateless _ hf.rs1P 0)
  refine ORel.bind (fun rs2 rs2' hrs2 => ?_) (h.registers.readStateless _ hf.rs2P 0)
  refine ORel.map (fun ps ps' hps => ?_)
    (prepareMultiple_rel S _ (LRel.cons hrs1 (LRel.cons hrs2 LRel.nil)) _)
  exact ⟨hrs1, hrs2, LRel.getD hps S.pzero 0, LRel.getD hps S.pzero 1⟩

theorem Interp.Rel.readRam {vm : Interp B} {vm' : Interp B'} (h : Interp.Rel S vm vm')
    {f : Fetch B} {f' : Fetch B'} (hf : Fetch.Rel S f f') {s : Sources B} {s' : Sources B'}
    (hs : Sources.Rel S s s') : ORel (RamRead.Rel S) (vm.readRam f s) (vm'.readRam f' s') := by
  unfold Interp.readRam
  rw [h.threads, h.ramBits]
  refine ORel.bind (fun a a' ha => ?_) (ramOffset_rel S hf.immP hs.rs1P)
  have hp := S.prepareCustom 0 (vm'.ramBits + 2) ha
  exact ORel.map (fun x x' hx => ⟨ha, hp, hx.2, hx.1⟩) (h.ram.readStatefull _ hp 2)

theorem refresh_rel {u : B.Uint} {u' : B'.Uint} (h : S.U u u') :
    S.U (refresh B u) (refresh B' u') := S.identity (S.prepareCustom _ _ h)

theorem rdMap_rel (ops : List RdUpdate) {rs1 rs2 imm pc : B.Prep} {rs1' rs2' imm' pc' : B'.Prep}
    {ram : B.Uint} {ram' : B'.Uint} (h1 : S.P rs1 rs1') (h2 : S.P rs2 rs2') (hi : S.P imm imm')
    (hp : S.P pc pc') (hr : S.U ram ram') :
    ORel (LRel (fun x x' => x.1 = x'.1 ∧ S.U x.2 x'.2)) (rdMap B ops rs1 rs2 imm pc ram)
      (rdMap B' ops rs1' rs2' imm' pc' ram') := by
  unfold rdMap
  refine LRel.collect ?_
  intro i
  rw [List.getElem?_map, List.getElem?_map]
  cases ops[i]? with
  | none => trivial
  | some op =>
    exact ORel.map (R := S.U)
      (S := fun (x : Nat × B.Uint) (x' : Nat × B'.Uint) => x.1 = x'.1 ∧ S.U x.2 x'.2)
      (fun _ _ hu => ⟨rfl, hu⟩) (evalEnc_rel S op h1 h2 hi hp hr)

theorem Interp.Rel.updateRegisters {vm : Interp B} {vm' : Interp B'} (h : Interp.Rel S vm vm')
    (ops : List RdUpdate) {f : Fetch B} {f' : Fetch B'} (hf : Fetch.Rel S f f') {s : Sources B}
    {s' : Sources B'} (hs : Sources.Rel S s s') {v : B.Uint} {v' : B'.Uint} (hv : S.U v v') :
    ORel (fun x x' => S.U x.1 x'.1 ∧ Memory.Rel S x.2 x'.2) (vm.updateRegisters ops f s v)
      (vm'.updateRegisters ops f' s' v') := by
  unfold Interp.updateRegisters
  rw [h.threads]
  refine ORel.bind (fun m m' hm => ?_) (rdMap_rel ops hs.rs1P hs.rs2P hf.immP hf.pcP hv)
  have hrd := refresh_rel (S.select 0 (bitsFor ops.length) hm hf.rduP)
  refine ORel.bind (fun r r' hr => ?_) (h.registers.write _ hrd hf.rdP 0)
  exact ORel.map (fun r r' hr => ⟨hrd, hr⟩) (hr.zero _ 0)

theorem Interp.Rel.updateRam {vm : Interp B} {vm' : Interp B'} (h : Interp.Rel S vm vm')
    {f : Fetch B} {f' : Fetch B'} (hf : Fetch.Rel S f f') {s : Sources B} {s' : Sources B'}
    (hs : Sources.Rel S s s') {q : RamRead B} {q' : RamRead B'} (hq : RamRead.Rel S q q') :
    ORel (fun x x' => S.U x.1 x'.1 ∧ Memory.Rel S x.2 x'.2) (vm.updateRam f s q)
      (vm'.updateRam f' s' q') := by
  unfold Interp.updateRam
  rw [h.threads]
  have hm : LRel (fun (x : Nat × B.Uint) (x' : Nat × B'.Uint) => x.1 = x'.1 ∧ S.U x.2 x'.2)
      (ramUpdateOpList.map fun op => (op.id.toNat, RamUpdate.evalEnc B op s.rs2 q.val q.addrP))
      (ramUpdateOpList.map fun op =>
        (op.id.toNat, RamUpdate.evalEnc B' op s'.rs2 q'.val q'.addrP)) := by
    intro i
    rw [List.getElem?_map, List.getElem?_map]
    cases ramUpdateOpList[i]? with
    | none => trivial
    | some op => exact ⟨rfl, ramEvalEnc_rel S op hs.rs2 hq.val hq.addrP⟩
  have hv := refresh_rel (S.select 0 (bitsFor ramUpdateOpList.length) hm hf.muP)
  exact ORel.map (fun r r' hr => ⟨hv, hr⟩) (hq.ram.readStatefullRev _ hv hq.addrP 2)

/-- One cycle preserves the relation. -/
theorem Interp.Rel.trace {vm : Interp B} {vm' : Interp B'} (h : Interp.Rel S vm vm') :
    ORel (Trace.Rel S) vm.trace vm'.trace := by
  unfold Interp.trace
  rw [h.cycle, h.romBits]
  have hp : S.P (if vm'.cycle ≠ 0#32 then B.prepareCustom vm.pc 0 (vm'.romBits + 2) else vm.pcP)
      (if vm'.cycle ≠ 0#32 then B'.prepareCustom vm'.pc 0 (vm'.romBits + 2) else vm'.pcP) := by
    split
    · exact S.prepareCustom _ _ h.pc
    · exact h.pcP
  refine ORel.bind (fun f f' hf => ?_) (h.fetch hp)
  refine ORel.bind (fun s s' hs => ?_) (h.readRegisters hf)
  refine ORel.bind (fun q q' hq => ?_) (h.readRam hf hs)
  refine ORel.bind (fun rd rd' hrd => ?_) (h.updateRegisters _ hf hs hq.val)
  refine ORel.bind (fun st st' hst => ?_) (h.updateRam hf hs hq)
  refine ORel.map (fun pc pc' hpc => ?_)
    (updatePc_rel S hs.rs1P hs.rs2P hf.pcP hf.immP hf.pcuP)
  exact ⟨hf, hs, hq, hrd.1, hrd.2, hst.1, hst.2, hpc⟩

theorem Interp.Rel.next {vm : Interp B} {vm' : Interp B'} (h : Interp.Rel S vm vm') {t : Trace B}
    {t' : Trace B'} (ht : Trace.Rel S t t') : Interp.Rel S (vm.next t) (vm'.next t') :=
  ⟨congrArg (· + 1#32) h.cycle, h.threads, h.romSize, h.ramSize, h.romBits, h.ramBits, h.immRom, h.rs1Rom,
    h.rs2Rom, h.rdRom, h.rduRom, h.muRom, h.pcuRom, ht.registers, ht.ram, ht.pc, ht.f.pcP⟩

theorem Interp.Rel.step {vm : Interp B} {vm' : Interp B'} (h : Interp.Rel S vm vm') :
    ORel (Interp.Rel S) vm.step vm'.step :=
  ORel.map (fun _ _ ht => h.next ht) h.trace

theorem Interp.Rel.run {vm : Interp B} {vm' : Interp B'} (h : Interp.Rel S vm vm') (n : Nat) :
    ORel (Interp.Rel S) (Interp.run n vm) (Interp.run n vm') := by
  induction n generalizing vm vm' with
  | zero => exact h
  | succ n ih => exact ORel.bind (fun _ _ hv => ih hv) h.step

end Verif.Model
