import Verif.Model.CircuitOps
import Verif.Lemmas.PcAuto
/-
  The kernel computations: each generated circuit passes the product check against the
  specification automaton of its output bit.
-/
namespace Verif.Bdd
open Model

def checkIdx (f : Nat → BitCircuit → Bool) : Nat → List BitCircuit → Bool
  | _, [] => true
  | i, c :: cs => f i c && checkIdx f (i + 1) cs

theorem packBits_bit : ∀ (bs : List Bool) (k : Nat), k < 32 →
    (packBits bs).getLsbD k = (bs[k]?).getD false := by
  intro bs
  induction bs with
  | nil => simp [packBits]
  | cons b bs ih =>
    intro k hk
    cases k with
    | zero => cases b <;> simp [packBits]
    | succ k =>
      have := ih k (by omega)
      simp only [packBits, BitVec.getLsbD_or, BitVec.getLsbD_shiftLeft, hk]
      simp only [decide_true, Bool.true_and, show ¬ (k + 1 < 1) by omega, decide_false,
        Bool.not_false, Nat.add_sub_cancel, this, List.getElem?_cons_succ]
      cases b <;> simp

theorem runAll_eq (bit : Nat → Bool) (s0 s1 : Nat → Nat → Bool) (w : Nat → Bool) :
    ∀ (cs : List BitCircuit) (i : Nat),
      (∀ j c, cs[j]? = some c → ∀ s s', c.run bit s s' = some (w (i + j))) →
      runAll bit s0 s1 i cs = some ((List.range' i cs.length).map w) := by
  intro cs
  induction cs with
  | nil => intro i _; rfl
  | cons c cs ih =>
    intro i h
    simp only [runAll]
    rw [h 0 c rfl, ih (i + 1) (fun j c' hj s s' => by
      have := h (j + 1) c' (by simpa using hj) s s'
      rwa [show i + (j + 1) = i + 1 + j by omega] at this)]
    rfl

theorem circuitWord_eq (cs : List BitCircuit) (bit : Nat → Bool) (s0 s1 : Nat → Nat → Bool) (w : U32)
    (hl : cs.length = 32)
    (h : ∀ j c, cs[j]? = some c → ∀ s s', c.run bit s s' = some (w.getLsbD j)) :
    circuitWord cs bit s0 s1 = some w := by
  unfold circuitWord
  rw [runAll_eq bit s0 s1 w.getLsbD cs 0 (by simpa using h), hl]
  simp only [Option.map_some]
  congr 1
  apply BitVec.eq_of_getLsbD_eq
  intro k hk
  rw [packBits_bit _ k hk]
  simp [hk]

theorem checkIdx_get {f : Nat → BitCircuit → Bool} : ∀ {cs : List BitCircuit} {i : Nat},
    checkIdx f i cs = true → ∀ j c, cs[j]? = some c → f (i + j) c = true := by
  intro cs
  induction cs with
  | nil => simp
  | cons x xs ih =>
    intro i h j c hj
    simp only [checkIdx, Bool.and_eq_true] at h
    cases j with
    | zero => simp at hj; subst hj; exact h.1
    | succ j =>
      have := ih h.2 j c (by simpa using hj)
      rwa [show i + 1 + j = i + (j + 1) by omega] at this

/-- No input is fixed. -/
def noFixed : Nat → Option Bool := fun _ => none

def parJalr : AdderP := ⟨some, fun _ => none, 4, none, true⟩
def parAuipc : AdderP := ⟨some, fun k => if Nat.blt k 12 then none else some (20 + k), 0, none, false⟩
def parRam : AdderP := ⟨some, fun k => some (32 + k), 0xFFFC0000, none, false⟩

def checkAdd (P : AdderP) (t : Nat) (c : BitCircuit) : Bool :=
  checkCircuit (addAuto P t) noFixed 0 c (mk P t t 0 none)

def checkLui (t : Nat) (c : BitCircuit) : Bool :=
  checkCircuit (addAuto parJalr t) noFixed 0 c
    (if Nat.blt t 12 then .const false else .var (t - 12))

theorem lui_checked : checkIdx checkLui 0 Circuits.Lui.circuits = true := by decide +kernel
theorem jalr_checked : checkIdx (checkAdd parJalr) 0 Circuits.Jalr.circuits = true := by
  decide +kernel
theorem auipc_checked : checkIdx (checkAdd parAuipc) 0 Circuits.Auipc.circuits = true := by
  decide +kernel
theorem ramOffset_checked : checkIdx (checkAdd parRam) 0 Circuits.RamOffset.circuits = true := by
  decide +kernel

/-- The four operation id bits. -/
def fixedOp (id : Nat) (v : Nat) : Option Bool :=
  if Nat.blt v 4 then some (Nat.testBit id v) else none

/-- Specification state in which the circuit of bit `t` starts. -/
def pcStart (o : PcUpdate) (t : Nat) : PcSt :=
  match o with
  | .NONE => .add .pc4 (mk Sum.pc4.par t t 0 none)
  | .JAL => .add .pcImm (mk Sum.pcImm.par t t 0 none)
  | .JALR => .add .rs1Imm (if Nat.beq t 0 then .const false else mk Sum.rs1Imm.par t t 0 none)
  | .BEQ => .cmp .eq 31 none
  | .BNE => .cmp .ne 31 none
  | .BLT => .cmp .lt 31 none
  | .BGE => .cmp .ge 31 none
  | .BLTU => .cmp .ltu 31 none
  | .BGEU => .cmp .geu 31 none

/-- Some node of the level consults the pc or the immediate. -/
def readsData (l : List Node) : Bool :=
  l.any fun n =>
    match n with
    | .cmux v _ _ => Nat.ble 68 v
    | _ => false

/-- Levels from the output before the first one that consults the pc or the immediate. -/
def holdOf : List (List Node) → Nat
  | [] => 0
  | l :: ls => if readsData l then 0 else holdOf ls + 1

def checkPc (o : PcUpdate) (t : Nat) (c : BitCircuit) : Bool :=
  checkCircuit (pcAuto t) (fixedOp o.id.toNat)
    (match o with
      | .JALR => holdOf c.levels.reverse
      | _ => 0) c (pcStart o t)

end Verif.Bdd
