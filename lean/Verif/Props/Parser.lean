import Verif.Props.Accept
/-
  Property C04: the parsed program is stored losslessly.
-/
namespace Verif.Props
open Spec Model

/-- What reading entry `i` must return for word `w`, in terms of the per-word accessors. -/
def entryOf (dbg : Bool) (w : Word) : Option Entry :=
  (getRegisters dbg w).bind fun (rs2, rs1, rd) =>
  (getOpid dbg w).bind fun (r, m, p) =>
  (getImm dbg w).map fun imm =>
    { imm := imm.setWidth 64, rs2 := rs2.setWidth 64, rs1 := rs1.setWidth 64, rd := rd.setWidth 64,
      rdw := r.id.setWidth 64, memw := m.id.setWidth 64, pcw := p.id.setWidth 64 }

/-- The 64-bit unpacking of mod.rs:533-545. -/
def unpack (imm data : I64) : Entry :=
  { imm := imm
    rs2 := (data.sshiftRight 26) &&& 0x1F#64
    rs1 := (data.sshiftRight 21) &&& 0x1F#64
    rd := (data.sshiftRight 16) &&& 0x1F#64
    rdw := (data.sshiftRight 10) &&& 0x3F#64
    memw := (data.sshiftRight 5) &&& 0x1F#64
    pcw := data &&& 0x1F#64 }

theorem all64 {p : Nat → Prop} (h1 : ∀ k, k < 32 → p k) (h2 : ∀ k, k < 32 → p (k + 32)) :
    ∀ k, k < 64 → p k := by
  intro k hk
  by_cases h : k < 32
  · exact h1 k h
  · have := h2 (k - 32) (by omega)
    rwa [Nat.sub_add_cancel (by omega)] at this

section
variable (a b d : BitVec 5) (r : BitVec 6) (m p : BitVec 5)

macro "bits64" : tactic => `(tactic| (
  apply BitVec.eq_of_getLsbD_eq; apply all64 <;> apply Verif.all32 <;>
  simp [-BitVec.getLsbD_eq_getElem, packInstr, BitVec.getLsbD_sshiftRight,
    BitVec.msb_eq_getLsbD_last]))

theorem unpack_rs2 : ((packInstr (a.setWidth 32) (b.setWidth 32) (d.setWidth 32) (r.setWidth 32)
      (m.setWidth 32) (p.setWidth 32)).sshiftRight 26 &&& 0x1F#64) = a.setWidth 64 := by
  bits64
theorem unpack_rs1 : ((packInstr (a.setWidth 32) (b.setWidth 32) (d.setWidth 32) (r.setWidth 32)
      (m.setWidth 32) (p.setWidth 32)).sshiftRight 21 &&& 0x1F#64) = b.setWidth 64 := by
  bits64
theorem unpack_rd : ((packInstr (a.setWidth 32) (b.setWidth 32) (d.setWidth 32) (r.setWidth 32)
      (m.setWidth 32) (p.setWidth 32)).sshiftRight 16 &&& 0x1F#64) = d.setWidth 64 := by
  bits64
theorem unpack_rdw : ((packInstr (a.setWidth 32) (b.setWidth 32) (d.setWidth 32) (r.setWidth 32)
      (m.setWidth 32) (p.setWidth 32)).sshiftRight 10 &&& 0x3F#64) = r.setWidth 64 := by
  bits64
theorem unpack_memw : ((packInstr (a.setWidth 32) (b.setWidth 32) (d.setWidth 32) (r.setWidth 32)
      (m.setWidth 32) (p.setWidth 32)).sshiftRight 5 &&& 0x1F#64) = m.setWidth 64 := by
  bits64
theorem unpack_pcw : (packInstr (a.setWidth 32) (b.setWidth 32) (d.setWidth 32) (r.setWidth 32)
      (m.setWidth 32) (p.setWidth 32) &&& 0x1F#64) = p.setWidth 64 := by
  bits64
end

/-- No two packed fields overlap when registers have 5 bits, rd ids 6, memory and pc ids 5. -/
theorem unpack_pack (a b d : BitVec 5) (r : BitVec 6) (m p : BitVec 5) (imm : I64) :
    unpack imm (packInstr (a.setWidth 32) (b.setWidth 32) (d.setWidth 32) (r.setWidth 32)
      (m.setWidth 32) (p.setWidth 32)) =
    { imm := imm, rs2 := a.setWidth 64, rs1 := b.setWidth 64, rd := d.setWidth 64,
      rdw := r.setWidth 64, memw := m.setWidth 64, pcw := p.setWidth 64 } := by
  simp only [unpack, unpack_rs2, unpack_rs1, unpack_rd, unpack_rdw, unpack_memw, unpack_pcw]

theorem fits5 (x : U32) (h : x.toNat < 32) : ∃ a : BitVec 5, x = a.setWidth 32 :=
  ⟨x.setWidth 5, by
    apply BitVec.eq_of_toNat_eq
    rw [BitVec.toNat_setWidth, BitVec.toNat_setWidth]; omega⟩

theorem rd_fits (r : RdUpdate) : ∃ a : BitVec 6, r.id = a.setWidth 32 :=
  ⟨r.id.setWidth 6, by cases r <;> decide⟩
theorem ram_fits (r : RamUpdate) : ∃ a : BitVec 5, r.id = a.setWidth 32 :=
  ⟨r.id.setWidth 5, by cases r <;> decide⟩
theorem pc_fits (r : PcUpdate) : ∃ a : BitVec 5, r.id = a.setWidth 32 :=
  ⟨r.id.setWidth 5, by cases r <;> decide⟩

theorem field5 (mask : U32) (sh : Nat) (w : U32) (h : getField mask sh w = (w.extractLsb' sh 5).setWidth 32) :
    ∃ a : BitVec 5, getField mask sh w = a.setWidth 32 := ⟨_, h⟩

theorem registers_fit (dbg : Bool) (w : U32) (r : U32 × U32 × U32)
    (h : getRegisters dbg w = some r) :
    (∃ a : BitVec 5, r.1 = a.setWidth 32) ∧ (∃ a : BitVec 5, r.2.1 = a.setWidth 32) ∧
    (∃ a : BitVec 5, r.2.2 = a.setWidth 32) := by
  have z : ∃ a : BitVec 5, 0#32 = a.setWidth 32 := ⟨0, by decide⟩
  have f1 : ∀ x, getRs1 dbg w = some x → ∃ a : BitVec 5, x = a.setWidth 32 := by
    intro x hx
    unfold getRs1 at hx
    cases hg : guardTy dbg okRs1 w <;> simp [hg] at hx
    exact ⟨w.extractLsb' 15 5, by rw [← hx]; fld⟩
  have f2 : ∀ x, getRs2 dbg w = some x → ∃ a : BitVec 5, x = a.setWidth 32 := by
    intro x hx
    unfold getRs2 at hx
    cases hg : guardTy dbg okRs2 w <;> simp [hg] at hx
    exact ⟨w.extractLsb' 20 5, by rw [← hx]; fld⟩
  have f3 : ∀ x, getRd dbg w = some x → ∃ a : BitVec 5, x = a.setWidth 32 := by
    intro x hx
    unfold getRd at hx
    cases hg : guardTy dbg okRd w <;> simp [hg] at hx
    exact ⟨w.extractLsb' 7 5, by rw [← hx]; fld⟩
  unfold getRegisters at h
  cases ht : getType w with
  | none => simp [ht] at h
  | some t =>
    cases h1 : getRs1 dbg w <;> cases h2 : getRs2 dbg w <;> cases h3 : getRd dbg w <;> cases t <;>
      simp [ht, h1, h2, h3] at h <;> subst h <;>
      exact ⟨by first | exact z | exact f2 _ h2, by first | exact z | exact f1 _ h1,
        by first | exact z | exact f3 _ h3⟩

/-- The three arrays of a parser always have the same length. -/
def Parser.WF (p : Parser) : Prop :=
  p.imm.length = p.raw.length ∧ p.instructions.length = p.raw.length

theorem add_spec (dbg : Bool) (p q : Parser) (w : Word) (hp : Parser.WF p) (h : p.add dbg w = some q) :
    Parser.WF q ∧ q.raw = p.raw ++ [w] ∧
    (∀ i, i < p.raw.length → q.get i = p.get i) ∧ q.get p.raw.length = entryOf dbg w ∧
    (entryOf dbg w).isSome = true := by
  unfold Parser.add at h
  cases hr : getRegisters dbg w with
  | none => simp [hr] at h
  | some r =>
  cases ho : getOpid dbg w with
  | none => simp [hr, ho] at h
  | some o =>
  cases hi : getImm dbg w with
  | none => simp [hr, ho, hi] at h
  | some im =>
  obtain ⟨rs2, rs1, rd⟩ := r
  obtain ⟨r, m, pc⟩ := o
  simp [hr, ho, hi] at h
  obtain ⟨h1, h2⟩ := hp
  subst h
  refine ⟨by simp [Parser.WF, h1, h2], rfl, ?_, ?_, by simp [entryOf, hr, ho, hi]⟩
  · intro i hlt
    simp [Parser.get, List.getElem?_append, h1, h2, hlt]
  · obtain ⟨⟨a, ha⟩, ⟨b, hb⟩, ⟨d, hd⟩⟩ := registers_fit dbg w _ hr
    obtain ⟨r', hr'⟩ := rd_fits r
    obtain ⟨m', hm'⟩ := ram_fits m
    obtain ⟨p', hp'⟩ := pc_fits pc
    simp only at ha hb hd
    have key := unpack_pack a b d r' m' p' (im.setWidth 64)
    rw [← ha, ← hb, ← hd, ← hr', ← hm', ← hp'] at key
    have e5 : ∀ x : BitVec 5, (x.setWidth 32).setWidth 64 = x.setWidth 64 := by decide
    have e6 : ∀ x : BitVec 6, (x.setWidth 32).setWidth 64 = x.setWidth 64 := by decide
    simp only [Parser.get, ← h1, List.getElem?_concat_length]
    rw [h1, ← h2, List.getElem?_concat_length]
    simp only [entryOf, hr, ho, hi, Option.bind_some, Option.map_some]
    rw [ha, hb, hd, hr', hm', hp', e5, e5, e5, e5, e5, e6]
    rw [ha, hb, hd, hr', hm', hp'] at key
    exact congrArg some key

theorem addAll_spec (dbg : Bool) (ws : List Word) : ∀ (p q : Parser), Parser.WF p →
    p.addAll dbg ws = some q →
    Parser.WF q ∧ q.raw = p.raw ++ ws ∧ (∀ i, i < p.raw.length → q.get i = p.get i) ∧
    (∀ i w, ws[i]? = some w → q.get (p.raw.length + i) = entryOf dbg w ∧
      (entryOf dbg w).isSome = true) := by
  induction ws with
  | nil =>
    intro p q hp h
    simp [Parser.addAll] at h; subst h
    exact ⟨hp, by simp, fun _ _ => rfl, by simp⟩
  | cons x xs ih =>
    intro p q hp h
    simp only [Parser.addAll] at h
    cases ha : p.add dbg x with
    | none => simp [ha] at h
    | some p1 =>
      simp [ha] at h
      obtain ⟨w1, r1, pre1, new1, s1⟩ := add_spec dbg p p1 x hp ha
      obtain ⟨w2, r2, pre2, new2⟩ := ih p1 q w1 h
      have l1 : p1.raw.length = p.raw.length + 1 := by rw [r1]; simp
      refine ⟨w2, by rw [r2, r1]; simp, ?_, ?_⟩
      · intro i hi
        rw [pre2 i (by omega), pre1 i hi]
      · intro i w hw
        cases i with
        | zero =>
          simp at hw; subst hw
          rw [Nat.add_zero, pre2 _ (by omega), new1]
          exact ⟨rfl, s1⟩
        | succ j =>
          simp at hw
          obtain ⟨e, s⟩ := new2 j w hw
          rw [l1] at e
          rw [show p.raw.length + (j + 1) = p.raw.length + 1 + j by omega]
          exact ⟨e, s⟩

/-- C04, main statement: after adding any list of words to a fresh parser, entry `i` is exactly the
components of the `i`-th word, the raw word is kept, and there is no further entry. -/
theorem C04_lossless (dbg : Bool) (ws : List Word) (q : Parser)
    (h : Parser.new.addAll dbg ws = some q) :
    (∀ i, q.getRaw i = ws[i]?) ∧ (∀ i, q.get i = ws[i]?.bind (entryOf dbg)) ∧
    (∀ i w, ws[i]? = some w → (q.get i).isSome = true) := by
  obtain ⟨wf, hraw, _, hnew⟩ := addAll_spec dbg ws Parser.new q ⟨rfl, rfl⟩ h
  have hraw' : q.raw = ws := by simpa [Parser.new] using hraw
  refine ⟨fun i => by simp [Parser.getRaw, hraw'], ?_, ?_⟩
  · intro i
    cases hw : ws[i]? with
    | some w => simpa [Parser.new] using (hnew i w hw).1
    | none =>
      obtain ⟨h1, h2⟩ := wf
      have : ws.length ≤ i := by simpa using hw
      simp [Parser.get, List.getElem?_eq_none (show q.imm.length ≤ i by rw [h1, hraw']; exact this)]
  · intro i w hw
    obtain ⟨e, s⟩ := hnew i w hw
    simp [Parser.new] at e
    rw [e]; exact s

/-- Later additions never change earlier entries. -/
theorem C04_append_stable (dbg : Bool) (ws more : List Word) (p q : Parser)
    (hp : Parser.new.addAll dbg ws = some p) (hq : p.addAll dbg more = some q) (i : Nat)
    (hi : i < ws.length) : q.get i = p.get i ∧ q.getRaw i = p.getRaw i := by
  obtain ⟨wf, hraw, _, _⟩ := addAll_spec dbg ws Parser.new p ⟨rfl, rfl⟩ hp
  obtain ⟨_, hraw2, hpre, _⟩ := addAll_spec dbg more p q wf hq
  have hraw' : p.raw = ws := by simpa [Parser.new] using hraw
  refine ⟨hpre i (by rw [hraw']; exact hi), ?_⟩
  simp [Parser.getRaw, hraw2, hraw', List.getElem?_append, hi]

/-- The same in terms of the manual: a program of legal instructions is always accepted, and entry
`i` holds the manual's operands, immediate and operation of instruction `i`. -/
theorem C04_legal_program (dbg : Bool) (is : List Instr) :
    ∃ q, Parser.new.addAll dbg (is.map encode) = some q ∧
      ∀ i ins, is[i]? = some ins → q.get i = some
        { imm := (romImm ins).setWidth 64
          rs2 := (operands ins).1.setWidth 64
          rs1 := (operands ins).2.1.setWidth 64
          rd := (operands ins).2.2.setWidth 64
          rdw := (expectedRd ins).id.setWidth 64
          memw := (expectedRam ins).id.setWidth 64
          pcw := (expectedPc ins).id.setWidth 64 } := by
  have hacc : ∀ (l : List Instr) (p : Parser), ∃ q, p.addAll dbg (l.map encode) = some q := by
    intro l
    induction l with
    | nil => intro p; exact ⟨p, rfl⟩
    | cons x xs ih =>
      intro p
      obtain ⟨p1, h1⟩ := Option.isSome_iff_exists.mp
        ((C06_parser_accepts dbg p (encode x)).mpr (Or.inl ⟨x, rfl⟩))
      obtain ⟨q, hq⟩ := ih p1
      exact ⟨q, by simp [Parser.addAll, h1, hq]⟩
  obtain ⟨q, hq⟩ := hacc is Parser.new
  refine ⟨q, hq, ?_⟩
  intro i ins hi
  rw [(C04_lossless dbg _ q hq).2.1 i]
  have e5 : ∀ x : BitVec 5, (x.setWidth 32).setWidth 64 = x.setWidth 64 := by decide
  simp [hi, entryOf, C05_opid_legal, C05_registers_legal, C01_imm_legal, e5]

example : ((Parser.new.addAll true [0x40C58533#32, 0xFE208AE3#32]).bind (·.get 1)) =
    some ⟨0xFFFFFFF4#64, 2#64, 1#64, 0#64, 0#64, 0#64, (PcUpdate.BEQ.id).setWidth 64⟩ := by decide

end Verif.Props
