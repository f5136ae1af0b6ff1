import Verif.Model.Terms
import Verif.Lemmas.InterpSim
/-
  Evaluation of expressions (Model/Terms) commutes with the interpreter.
-/
namespace Verif.Model

/-- Operations which work in place on a list keep its length, and evaluating a generated circuit
does not panic. -/
structure Backend.Lawful (B : Backend) : Prop where
  retrieval : ∀ l p o b, (B.retrieval l p o b).length = l.length
  retrievalRev : ∀ l p o b, (B.retrievalRev l p o b).length = l.length
  bdd : ∀ c ∈ generatedCircuits, ∀ f, (B.bdd c f).isSome = true

theorem LRel.eval {k : Kind} {B : Backend} {ρ : Inputs B} {l : List (Term k)} {l' : List (B.Obj k)}
    (h : LRel (fun t x => Term.eval B ρ t = x) l l') : l' = l.map fun t => Term.eval B ρ t := by
  apply List.ext_getElem?
  intro i
  have := h i
  rw [List.getElem?_map]
  cases h1 : l[i]? <;> cases h2 : l'[i]? <;> rw [h1, h2] at this
  · rfl
  · exact this.elim
  · exact this.elim
  · exact congrArg some (Eq.symm this)

theorem ofFn_get {α β : Type} (f : α → β) (l : List α) :
    (List.ofFn fun i : Fin l.length => f (l.get i)) = l.map f := by
  apply List.ext_getElem?
  intro i
  by_cases h : i < l.length
  · simp [List.getElem?_ofFn, h]
  · simp [List.getElem?_ofFn, h]

/-- Evaluation of expressions is a relation preserved by all operations. -/
def evalSim (B : Backend) (hB : B.Lawful) (ρ : Inputs B) : Sim (terms B.logN) B where
  G t x := Term.eval B ρ t = x
  U t x := Term.eval B ρ t = x
  P t x := Term.eval B ρ t = x
  Bt t x := Term.eval B ρ t = x
  logN := rfl
  glweZero := rfl
  add h h' := by subst h h'; rfl
  sub h h' := by subst h h'; rfl
  rotate k _ _ h := by subst h; rfl
  trace h := by subst h; rfl
  normalize h := by subst h; rfl
  blindRotate _ _ _ _ h h' := by subst h h'; rfl
  retrieve {l l' p p'} o h h' := by
    rw [h.eval, ← h']
    show B.retrieve _ _ _ = _
    rw [ofFn_get]
  retrieval {l l' p p'} o b h h' := by
    rw [h.eval, ← h']
    intro i
    show ORel _ ((List.range l.length).map _)[i]? _
    rw [List.getElem?_map]
    by_cases hi : i < l.length
    · rw [List.getElem?_range hi, List.getElem?_eq_getElem (by rw [hB.retrieval]; simpa using hi)]
      show Option.getD _ _ = _
      rw [ofFn_get, List.getElem?_eq_getElem (by rw [hB.retrieval]; simpa using hi)]
      rfl
    · rw [List.getElem?_eq_none (by simpa using hi),
        List.getElem?_eq_none (by rw [hB.retrieval]; simpa using hi)]
      trivial
  retrievalRev {l l' p p'} o b h h' := by
    rw [h.eval, ← h']
    intro i
    show ORel _ ((List.range l.length).map _)[i]? _
    rw [List.getElem?_map]
    by_cases hi : i < l.length
    · rw [List.getElem?_range hi, List.getElem?_eq_getElem (by rw [hB.retrievalRev]; simpa using hi)]
      show Option.getD _ _ = _
      rw [ofFn_get, List.getElem?_eq_getElem (by rw [hB.retrievalRev]; simpa using hi)]
      rfl
    · rw [List.getElem?_eq_none (by simpa using hi),
        List.getElem?_eq_none (by rw [hB.retrievalRev]; simpa using hi)]
      trivial
  uzero := rfl
  pack {l l'} h := by
    rw [h.eval]
    show B.pack _ = _
    rw [ofFn_get]
  getBit _ h := by subst h; rfl
  pzero := rfl
  gbit _ h := by subst h; rfl
  gzero := rfl
  bootstrap _ h := by subst h; rfl
  ofBits {l l'} h := by
    rw [h.eval (k := .Bt)]
    show B.ofBits _ = _
    rw [ofFn_get]
  prepareCustom _ _ h := by subst h; rfl
  bin _ h h' := by subst h h'; rfl
  bdd c hc {f f'} h := by
    have e : f' = fun i => Term.eval B ρ (f i) := funext fun i => (h i).symm
    subst e
    obtain ⟨x, hx⟩ := Option.isSome_iff_exists.mp (hB.bdd c hc fun i => Term.eval B ρ (f i))
    show ORel _ (some (Term.bdd c f)) (B.bdd c fun i => Term.eval B ρ (f i))
    rw [hx]
    show Option.getD (B.bdd c fun i => Term.eval B ρ (f i)) _ = x
    rw [hx]
    rfl
  identity h := by subst h; rfl
  select {m m' p p'} s b h h' := by
    have e : m' = m.map fun x => (x.1, Term.eval B ρ x.2) := by
      apply List.ext_getElem?
      intro i
      have := h i
      rw [List.getElem?_map]
      cases h1 : m[i]? <;> cases h2 : m'[i]? <;> rw [h1, h2] at this
      · rfl
      · exact this.elim
      · exact this.elim
      · exact congrArg some (Prod.ext this.1.symm this.2.symm)
    rw [e, ← h']
    show B.select (List.ofFn fun i : Fin m.length => ((m.get i).1, Term.eval B ρ (m.get i).2)) _ _ _ = _
    rw [ofFn_get fun x : Nat × Term .U => (x.1, Term.eval B ρ x.2)]
  zeroByte _ h := by subst h; rfl
  sextByte _ h := by subst h; rfl
  spliceU8 _ _ h h' := by subst h h'; rfl
  spliceU16 _ _ h h' := by subst h h'; rfl

section
variable {B : Backend} {hB : B.Lawful} {ρ : Inputs B}

theorem BitArray.Rel.eval {b : BitArray (terms B.logN)} {b' : BitArray B}
    (h : BitArray.Rel (evalSim B hB ρ) b b') : b' = b.eval B ρ := by
  cases b'
  have h1 := LRel.eval (k := .G) h.data
  have h2 := h.bitSize
  simp only at h1 h2
  subst h1 h2
  rfl

theorem Memory.Rel.eval {m : Memory (terms B.logN)} {m' : Memory B}
    (h : Memory.Rel (evalSim B hB ρ) m m') : m' = m.eval B ρ := by
  have hb : m'.bits = m.bits.map (BitArray.eval B ρ) := by
    apply List.ext_getElem?
    intro i
    have := h.bits i
    rw [List.getElem?_map]
    cases h1 : m.bits[i]? <;> cases h2 : m'.bits[i]? <;> rw [h1, h2] at this
    · rfl
    · exact this.elim
    · exact this.elim
    · exact congrArg some this.eval
  have h2 := h.size
  have h3 := h.bitSize
  have h4 := h.state
  cases m'
  simp only at hb h2 h3 h4
  subst hb h2 h3 h4
  rfl

theorem Interp.Rel.eval {vm : Interp (terms B.logN)} {vm' : Interp B}
    (h : Interp.Rel (evalSim B hB ρ) vm vm') : vm' = vm.eval B ρ := by
  have e1 := h.immRom.eval
  have e2 := h.rs1Rom.eval
  have e3 := h.rs2Rom.eval
  have e4 := h.rdRom.eval
  have e5 := h.rduRom.eval
  have e6 := h.muRom.eval
  have e7 := h.pcuRom.eval
  have e8 := h.registers.eval
  have e9 := h.ram.eval
  have f1 := h.cycle
  have f2 := h.threads
  have f3 := h.romSize
  have f4 := h.ramSize
  have f5 := h.romBits
  have f6 := h.ramBits
  have g1 : Term.eval B ρ vm.pc = vm'.pc := h.pc
  have g2 : Term.eval B ρ vm.pcP = vm'.pcP := h.pcP
  cases vm'
  simp only at e1 e2 e3 e4 e5 e6 e7 e8 e9 f1 f2 f3 f4 f5 f6 g1 g2
  subst e1 e2 e3 e4 e5 e6 e7 e8 e9 f1 f2 f3 f4 f5 f6 g1 g2
  rfl

theorem Memory.names_rel (m : Memory B) (c : Nat) (h : ρ.mem c = m.input) :
    Memory.Rel (evalSim B hB ρ) (m.names c) m := by
  refine ⟨?_, rfl, rfl, rfl⟩
  intro i
  show ORel _ (m.bits.mapIdx _)[i]? _
  rw [List.getElem?_mapIdx]
  cases hb : m.bits[i]? with
  | none => trivial
  | some b =>
    refine ⟨?_, rfl⟩
    intro j
    show ORel _ (b.data.mapIdx _)[j]? _
    rw [List.getElem?_mapIdx]
    cases hd : b.data[j]? with
    | none => trivial
    | some x =>
      show ρ.mem c i j = x
      rw [h]
      unfold Memory.input
      rw [hb, Option.bind_some, hd]
      rfl

theorem Interp.names_rel (vm : Interp B) : Interp.Rel (evalSim B hB vm.inputs) vm.names vm :=
  ⟨rfl, rfl, rfl, rfl, rfl, rfl, Memory.names_rel _ _ rfl, Memory.names_rel _ _ rfl,
    Memory.names_rel _ _ rfl, Memory.names_rel _ _ rfl, Memory.names_rel _ _ rfl,
    Memory.names_rel _ _ rfl, Memory.names_rel _ _ rfl, Memory.names_rel _ _ rfl,
    Memory.names_rel _ _ rfl, rfl, rfl⟩

end

/-- The public shape of a memory in terms of sizes. -/
structure Memory.Public {B : Backend} (m : Memory B) (size : Nat) : Prop where
  sizeEq : m.size = size
  bitSize : m.bitSize = bitsFor size
  state : m.state = false
  count : m.bits.length = 32
  bits : ∀ (i : Nat) (b : BitArray B), m.bits[i]? = some b → b.bitSize = bitsFor size ∧
    b.data.length = divCeil size (2 ^ B.logN)
  pos : size ≠ 0

theorem Memory.alloc_public {B : Backend} {size : Nat} {m : Memory B}
    (h : Memory.alloc B 32 size = some m) : m.Public size := by
  unfold Memory.alloc at h
  split at h
  · cases h
  · have h := (Option.some.inj h).symm
    subst h
    refine ⟨rfl, rfl, rfl, List.length_replicate, ?_, by assumption⟩
    intro i b hb
    simp only [List.getElem?_replicate] at hb
    split at hb
    · have := Option.some.inj hb
      subst this
      exact ⟨rfl, List.length_replicate⟩
    · cases hb

theorem Memory.encrypt_public {B : Backend} {C : Cipher B} {rand : Nat → Nat → C.Rand} {size : Nat}
    {m m' : Memory B} {data : List (BitVec 32)} (hs : m.Public size)
    (h : m.encrypt C rand data = some m') : m'.Public size := by
  unfold Memory.encrypt at h
  split at h
  · cases h
  · split at h
    · have h := (Option.some.inj h).symm
      subst h
      refine ⟨hs.sizeEq, hs.bitSize, hs.state, by simpa using hs.count, ?_, hs.pos⟩
      intro i b hb
      simp only [List.getElem?_mapIdx] at hb
      obtain ⟨b0, hb0, rfl⟩ := Option.map_eq_some_iff.mp hb
      obtain ⟨h1, h2⟩ := hs.bits i b0 hb0
      exact ⟨h1, by simpa [BitArray.encrypt] using h2⟩
    · cases h

theorem Memory.Public.names {B : Backend} {size : Nat} {m m' : Memory B} (h : m.Public size) (h' : m'.Public size) (c : Nat) :
    m.names c = m'.names c := by
  unfold Memory.names
  congr 1
  · apply List.ext_getElem?
    intro i
    rw [List.getElem?_mapIdx, List.getElem?_mapIdx]
    by_cases hi : i < 32
    · have hi1 : i < m.bits.length := by rw [h.count]; exact hi
      have hi2 : i < m'.bits.length := by rw [h'.count]; exact hi
      rw [List.getElem?_eq_getElem hi1, List.getElem?_eq_getElem hi2]
      refine congrArg some ?_
      obtain ⟨a1, a2⟩ := h.bits i _ (List.getElem?_eq_getElem hi1)
      obtain ⟨b1, b2⟩ := h'.bits i _ (List.getElem?_eq_getElem hi2)
      have ed : (m.bits[i]).data.mapIdx (fun j _ => Term.input c i j)
          = (m'.bits[i]).data.mapIdx (fun j _ => Term.input c i j) := by
        apply List.ext_getElem?
        intro j
        rw [List.getElem?_mapIdx, List.getElem?_mapIdx]
        by_cases hj : j < (m.bits[i]).data.length
        · rw [List.getElem?_eq_getElem hj, List.getElem?_eq_getElem (by rw [b2, ← a2]; exact hj)]
          rfl
        · rw [List.getElem?_eq_none (by omega), List.getElem?_eq_none (by rw [b2]; rw [a2] at hj; omega)]
      unfold BitArray.names
      simp only
      rw [ed, a1, b1]
    · rw [List.getElem?_eq_none (by rw [h.count]; omega), List.getElem?_eq_none (by rw [h'.count]; omega)]
  · rw [h.sizeEq, h'.sizeEq]
  · rw [h.bitSize, h'.bitSize]
  · rw [h.state, h'.state]

theorem Interp.load_public {B : Backend} {C : Cipher B} {rand : Nat → Nat → Nat → C.Rand} {dbg : Bool}
    {romSize ramSize threads : Nat} {p : Parser} {data : List (BitVec 32)} {vm : Interp B}
    (h : Interp.load C rand dbg romSize ramSize threads p data = some vm) :
    vm.cycle = 0#32 ∧ vm.threads = threads ∧ vm.romSize = romSize ∧ vm.ramSize = ramSize ∧
    vm.romBits = bitsFor romSize ∧ vm.ramBits = bitsFor ramSize ∧
    vm.immRom.Public romSize ∧ vm.rs1Rom.Public romSize ∧ vm.rs2Rom.Public romSize ∧
    vm.rdRom.Public romSize ∧ vm.rduRom.Public romSize ∧ vm.muRom.Public romSize ∧
    vm.pcuRom.Public romSize ∧ vm.registers.Public 32 ∧ vm.ram.Public ramSize := by
  unfold Interp.load at h
  obtain ⟨v0, h0, h⟩ := Option.bind_eq_some_iff.mp h
  obtain ⟨v1, h1, h⟩ := Option.bind_eq_some_iff.mp h
  obtain ⟨v2, h2, rfl⟩ := Option.map_eq_some_iff.mp h
  unfold Interp.new at h0
  obtain ⟨rom, hrom, h0⟩ := Option.bind_eq_some_iff.mp h0
  obtain ⟨regs, hregs, h0⟩ := Option.bind_eq_some_iff.mp h0
  obtain ⟨ram, hram, h0⟩ := Option.map_eq_some_iff.mp h0
  have s1 := Memory.alloc_public hrom
  have s2 := Memory.alloc_public hregs
  have s3 := Memory.alloc_public hram
  unfold Interp.encryptInstructions at h1
  split at h1
  · cases h1
  · obtain ⟨ds, -, h1⟩ := Option.bind_eq_some_iff.mp h1
    simp only at h1
    obtain ⟨a1, e1, h1⟩ := Option.bind_eq_some_iff.mp h1
    obtain ⟨a2, e2, h1⟩ := Option.bind_eq_some_iff.mp h1
    obtain ⟨a3, e3, h1⟩ := Option.bind_eq_some_iff.mp h1
    obtain ⟨a4, e4, h1⟩ := Option.bind_eq_some_iff.mp h1
    obtain ⟨a5, e5, h1⟩ := Option.bind_eq_some_iff.mp h1
    obtain ⟨a6, e6, h1⟩ := Option.bind_eq_some_iff.mp h1
    obtain ⟨a7, e7, h1⟩ := Option.map_eq_some_iff.mp h1
    subst h0
    have t1 := Memory.encrypt_public s1 e1
    have t2 := Memory.encrypt_public s1 e2
    have t3 := Memory.encrypt_public s1 e3
    have t4 := Memory.encrypt_public s1 e4
    have t5 := Memory.encrypt_public s1 e5
    have t6 := Memory.encrypt_public s1 e6
    have t7 := Memory.encrypt_public s1 e7
    subst h1
    unfold Interp.encryptRam at h2
    split at h2
    · obtain ⟨a8, e8, h2⟩ := Option.map_eq_some_iff.mp h2
      have t8 := Memory.encrypt_public s3 e8
      subst h2
      exact ⟨rfl, rfl, rfl, rfl, rfl, rfl, t4, t1, t2, t3, t5, t6, t7, s2, t8⟩
    · cases h2

theorem Interp.load_names {B : Backend} {C C' : Cipher B} {rand : Nat → Nat → Nat → C.Rand}
    {rand' : Nat → Nat → Nat → C'.Rand} {dbg dbg' : Bool} {romSize ramSize threads : Nat}
    {p p' : Parser} {data data' : List (BitVec 32)} {vm vm' : Interp B}
    (h : Interp.load C rand dbg romSize ramSize threads p data = some vm)
    (h' : Interp.load C' rand' dbg' romSize ramSize threads p' data' = some vm') :
    vm.names = vm'.names := by
  obtain ⟨a1, a2, a3, a4, a5, a6, a7, a8, a9, a10, a11, a12, a13, a14, a15⟩ := load_public h
  obtain ⟨b1, b2, b3, b4, b5, b6, b7, b8, b9, b10, b11, b12, b13, b14, b15⟩ := load_public h'
  unfold Interp.names
  rw [a7.names b7, a8.names b8, a9.names b9, a10.names b10, a11.names b11, a12.names b12,
    a13.names b13, a14.names b14, a15.names b15, a1, a2, a3, a4, a5, a6, b1, b2, b3, b4, b5, b6]

end Verif.Model
