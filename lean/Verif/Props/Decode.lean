import Verif.Lemmas.Decode
import Verif.Lemmas.ImmRoundTrip
/-
  Properties C01-C06, C08, C09: instruction words, decoding, parser, ids.
-/
namespace Verif.Props
open Spec Model

/-! ## C01: immediate extraction -/

/-- The immediate the manual assigns to an instruction, as the VM keeps it in ROM
(U-type: the raw 20-bit field, the shift by 12 is part of the operation). -/
def romImm : Instr → Word
  | .lui _ imm => imm.setWidth 32
  | .auipc _ imm => imm.setWidth 32
  | .jal _ imm => immJ imm
  | .jalr _ _ imm => immI imm
  | .branch _ _ _ imm => immB imm
  | .load _ _ _ imm => immI imm
  | .store _ _ _ imm => immI imm
  | .opImm _ _ _ imm => immI imm
  | .shImm _ _ _ sh => sh.setWidth 32
  | .op _ _ _ _ => 0#32
  | .mul _ _ _ _ => 0#32

/-- I format (any funct3, any of the three I opcodes, shifts excluded). -/
theorem C01_imm_I (dbg : Bool) (imm : BitVec 12) (rs1 rd : Reg) (f3 : BitVec 3) (op : BitVec 7)
    (hop : op = 0b0010011#7 ∨ op = 0b0000011#7 ∨ op = 0b1100111#7)
    (hsh : ¬(op = 0b0010011#7 ∧ (f3 = 0b001#3 ∨ f3 = 0b101#3))) :
    getImm dbg (iType imm rs1 f3 rd op) = some (imm.signExtend 32) := by
  have h3 : ∀ c : BitVec 3, f3.setWidth 32 = c.setWidth 32 ↔ f3 = c := by
    intro c; constructor
    · intro h
      have := congrArg (BitVec.setWidth 3) h
      simpa using this
    · rintro rfl; rfl
  have e1 := h3 1#3
  have e5 := h3 5#3
  simp only [show BitVec.setWidth 32 1#3 = 1#32 by decide] at e1
  simp only [show BitVec.setWidth 32 5#3 = 5#32 by decide] at e5
  rcases hop with rfl | rfl | rfl <;> cases dbg <;>
    simp_all [getImm, getType, opcode_i, getFunct3, guardTy, okFunct3, isShiftImm, funct3_i,
      imm_i, immI]

/-- Shift-immediates: the 5-bit shamt, zero-extended, whatever funct7 is. -/
theorem C01_imm_shift (dbg : Bool) (f7 : BitVec 7) (sh rs1 rd : Reg) (f3 : BitVec 3)
    (hf : f3 = 0b001#3 ∨ f3 = 0b101#3) :
    getImm dbg (rType f7 sh rs1 f3 rd 0b0010011#7) = some (sh.setWidth 32) := by
  rcases hf with rfl | rfl <;> cases dbg <;>
    simp [getImm, getType, opcode_r, getFunct3, guardTy, okFunct3, isShiftImm, funct3_r,
      getShamt, okShamt, shamt_r]

theorem C01_imm_S (dbg : Bool) (imm : BitVec 12) (rs2 rs1 : Reg) (f3 : BitVec 3) :
    getImm dbg (sType imm rs2 rs1 f3 0b0100011#7) = some (imm.signExtend 32) := by
  simp [getImm, getType, opcode_s, imm_s, immI]

theorem C01_imm_B (dbg : Bool) (imm : BitVec 12) (rs2 rs1 : Reg) (f3 : BitVec 3) :
    getImm dbg (bType imm rs2 rs1 f3 0b1100011#7) = some (imm.signExtend 32 <<< 1) := by
  simp [getImm, getType, opcode_b, imm_b, immB]

theorem C01_imm_J (dbg : Bool) (imm : BitVec 20) (rd : Reg) :
    getImm dbg (jType imm rd 0b1101111#7) = some (imm.signExtend 32 <<< 1) := by
  simp [getImm, getType, opcode_j, imm_j, immJ]

theorem C01_imm_U (dbg : Bool) (imm : BitVec 20) (rd : Reg) (op : BitVec 7)
    (hop : op = 0b0110111#7 ∨ op = 0b0010111#7) :
    getImm dbg (uType imm rd op) = some (imm.setWidth 32) := by
  rcases hop with rfl | rfl <;> simp [getImm, getType, opcode_u, imm_u]

theorem C01_imm_R (dbg : Bool) (f7 : BitVec 7) (rs2 rs1 rd : Reg) (f3 : BitVec 3) :
    getImm dbg (rType f7 rs2 rs1 f3 rd 0b0110011#7) = some 0#32 := by
  simp [getImm, getType, opcode_r]

/-- Every legal RV32IM instruction, in debug and release builds. -/
theorem C01_imm_legal (dbg : Bool) (i : Instr) : getImm dbg (encode i) = some (romImm i) := by
  cases i with
  | lui rd imm => exact C01_imm_U dbg imm rd _ (Or.inl rfl)
  | auipc rd imm => exact C01_imm_U dbg imm rd _ (Or.inr rfl)
  | jal rd imm => exact C01_imm_J dbg imm rd
  | jalr rd rs1 imm =>
    exact C01_imm_I dbg imm rs1 rd _ _ (Or.inr (Or.inr rfl)) (by decide)
  | branch o rs1 rs2 imm => exact C01_imm_B dbg imm rs2 rs1 _
  | load o rd rs1 imm =>
    exact C01_imm_I dbg imm rs1 rd _ _ (Or.inr (Or.inl rfl)) (by simp)
  | store o rs1 rs2 imm => exact C01_imm_S dbg imm rs2 rs1 _
  | opImm o rd rs1 imm =>
    exact C01_imm_I dbg imm rs1 rd _ _ (Or.inl rfl) (by cases o <;> decide)
  | shImm o rd rs1 sh => exact C01_imm_shift dbg _ sh rs1 rd _ (by cases o <;> decide)
  | op o rd rs1 rs2 => exact C01_imm_R dbg _ rs2 rs1 rd _
  | mul o rd rs1 rs2 => exact C01_imm_R dbg _ rs2 rs1 rd _

/-- `addi x1, x2, -5` is `0xFFB10093`. -/
example : encode (.opImm .addi 1#5 2#5 (-5)) = 0xFFB10093#32 ∧
    getImm true 0xFFB10093#32 = some 0xFFFFFFFB#32 := by decide
/-- `beq x1, x2, -8` is `0xFE208CE3`. -/
example : encode (.branch .beq 1#5 2#5 (-4)) = 0xFE208CE3#32 ∧
    getImm false 0xFE208CE3#32 = some 0xFFFFFFF8#32 := by decide
/-- `jal x1, 2048` is `0x001000EF`. -/
example : encode (.jal 1#5 1024#20) = 0x001000EF#32 ∧
    getImm false 0x001000EF#32 = some 2048#32 := by decide

/-! ## C02: immediate round trip -/

/-- set then get, with the type of the word left unchanged. -/
def setGet (dbg : Bool) (w imm : U32) : Option U32 := (setImm dbg w imm).bind (getImm dbg)

/-- `w` is a shift-immediate word (SLLI/SRLI/SRAI slot). -/
def IsShiftWord (w : U32) : Prop :=
  w.extractLsb' 0 7 = 0b0010011#7 ∧ (w.extractLsb' 12 3 = 0b001#3 ∨ w.extractLsb' 12 3 = 0b101#3)

theorem isShift_iff (w : U32) :
    isShiftImm (getField FUNCT3MASK FUNCT3SHIFT w) (getOpcode w) = true ↔ IsShiftWord w := by
  have ho : getOpcode w = (w.extractLsb' 0 7).setWidth 32 := by fld
  have hf : getField FUNCT3MASK FUNCT3SHIFT w = (w.extractLsb' 12 3).setWidth 32 := by fld
  have h3 : ∀ c d : BitVec 3, c.setWidth 32 = d.setWidth 32 ↔ c = d := by decide
  have h7 : ∀ c d : BitVec 7, c.setWidth 32 = d.setWidth 32 ↔ c = d := by
    intro c d; constructor
    · intro h
      have := congrArg (BitVec.setWidth 7) h
      simpa using this
    · rintro rfl; rfl
  have e1 := h3 (w.extractLsb' 12 3) 1#3
  have e5 := h3 (w.extractLsb' 12 3) 5#3
  have e7 := h7 (w.extractLsb' 0 7) 0b0010011#7
  simp only [show BitVec.setWidth 32 1#3 = 1#32 by decide] at e1
  simp only [show BitVec.setWidth 32 5#3 = 5#32 by decide] at e5
  simp only [show BitVec.setWidth 32 0b0010011#7 = 0b0010011#32 by decide] at e7
  simp only [isShiftImm, ho, hf, e1, e5, e7, IsShiftWord, decide_eq_true_eq, Bool.decide_or,
    Bool.or_eq_true]
  grind

/-- I-type words (non-shift): exact round trip iff the immediate is a 12-bit signed value. -/
theorem C02_roundtrip_I (dbg : Bool) (w imm : U32) (ht : getType w = some .I)
    (hs : ¬ IsShiftWord w) :
    setGet dbg w imm = some ((imm.setWidth 12).signExtend 32) ∧
    (setGet dbg w imm = some imm ↔ -2 ^ 11 ≤ imm.toInt ∧ imm.toInt < 2 ^ 11) := by
  have hs' := (not_congr (isShift_iff w)).mpr hs
  have hg : setGet dbg w imm = some ((imm.setWidth 12).signExtend 32) := by
    have ht' := getType_congr (opcode_setI w imm)
    simp [setGet, setImm, getImm, ht, ht', getFunct3, guardTy_of ht (show okFunct3 .I = true from rfl),
      guardTy_of (ht'.trans ht) (show okFunct3 .I = true from rfl), hs', opcode_setI, funct3_setI,
      i_get_set]
  refine ⟨hg, ?_⟩
  rw [hg, Option.some_inj]
  exact signExtend_fix imm 12 (by decide) (by decide)

/-- Shift-immediates: exact round trip iff the amount is below 32. -/
theorem C02_roundtrip_shift (dbg : Bool) (w imm : U32) (hs : IsShiftWord w) :
    setGet dbg w imm = some (imm &&& 31#32) ∧
    (setGet dbg w imm = some imm ↔ imm.toNat < 32) := by
  have hs' := (isShift_iff w).mpr hs
  have ho : getOpcode w = 0b0010011#32 := by
    have : getOpcode w = (w.extractLsb' 0 7).setWidth 32 := by fld
    rw [this, hs.1]; decide
  have ht : getType w = some .I := by simp [getType, ho]
  have hm : imm &&& 31#32 = (imm.setWidth 5).setWidth 32 := by bits32
  have hg : setGet dbg w imm = some ((imm.setWidth 5).setWidth 32) := by
    have ht' := getType_congr (opcode_setSh w imm)
    simp [setGet, setImm, getImm, ht, ht', getFunct3, guardTy_of ht (show okFunct3 .I = true from rfl),
      guardTy_of (ht'.trans ht) (show okFunct3 .I = true from rfl), hs', opcode_setSh, funct3_setSh,
      setShamt, getShamt, guardTy_of ht (show okShamt .I = true from rfl),
      guardTy_of (ht'.trans ht) (show okShamt .I = true from rfl), shamt_get_set]
  rw [hm]
  refine ⟨hg, ?_⟩
  rw [hg, Option.some_inj]
  exact zeroExtend_fix imm 5 (by decide)

theorem C02_roundtrip_S (dbg : Bool) (w imm : U32) (ht : getType w = some .S) :
    setGet dbg w imm = some ((imm.setWidth 12).signExtend 32) ∧
    (setGet dbg w imm = some imm ↔ -2 ^ 11 ≤ imm.toInt ∧ imm.toInt < 2 ^ 11) := by
  have ht' := getType_congr (opcode_setS w imm)
  have hg : setGet dbg w imm = some ((imm.setWidth 12).signExtend 32) := by
    simp [setGet, setImm, getImm, ht, ht', s_get_set]
  refine ⟨hg, ?_⟩
  rw [hg, Option.some_inj]
  exact signExtend_fix imm 12 (by decide) (by decide)

/-- B-type: exact iff the offset is even and fits 13 signed bits. -/
theorem C02_roundtrip_B (dbg : Bool) (w imm : U32) (ht : getType w = some .B) :
    setGet dbg w imm = some imm ↔
      imm.getLsbD 0 = false ∧ -2 ^ 12 ≤ imm.toInt ∧ imm.toInt < 2 ^ 12 := by
  have ht' := getType_congr (opcode_setB w imm)
  have hg : setGet dbg w imm = some ((imm.setWidth 13).signExtend 32 &&& 0xFFFFFFFE#32) := by
    simp [setGet, setImm, getImm, ht, ht', b_get_set]
  rw [hg, Option.some_inj]
  exact signExtend_even_fix imm 13 (by decide) (by decide)

/-- J-type: exact iff the offset is even and fits 21 signed bits. -/
theorem C02_roundtrip_J (dbg : Bool) (w imm : U32) (ht : getType w = some .J) :
    setGet dbg w imm = some imm ↔
      imm.getLsbD 0 = false ∧ -2 ^ 20 ≤ imm.toInt ∧ imm.toInt < 2 ^ 20 := by
  have ht' := getType_congr (opcode_setJ w imm)
  have hg : setGet dbg w imm = some ((imm.setWidth 21).signExtend 32 &&& 0xFFFFFFFE#32) := by
    simp [setGet, setImm, getImm, ht, ht', j_get_set]
  rw [hg, Option.some_inj]
  exact signExtend_even_fix imm 21 (by decide) (by decide)

/-- U-type: exact iff the field fits 20 bits. -/
theorem C02_roundtrip_U (dbg : Bool) (w imm : U32) (ht : getType w = some .U) :
    setGet dbg w imm = some imm ↔ imm.toNat < 2 ^ 20 := by
  have ht' := getType_congr (opcode_setU w imm)
  have hg : setGet dbg w imm = some ((imm.setWidth 20).setWidth 32) := by
    simp [setGet, setImm, getImm, ht, ht', u_get_set]
  rw [hg, Option.some_inj]
  exact zeroExtend_fix imm 20 (by decide)

/-- R-type and SYSTEM words reject `set_imm`. -/
theorem C02_reject (dbg : Bool) (w imm : U32) (ht : getType w = some .R ∨ getType w = some .NONE) :
    setImm dbg w imm = none := by
  rcases ht with ht | ht <;> simp [setImm, ht]

example : getType 0b1100011#32 = some .B ∧ setGet true 0b1100011#32 0xFFFFF000#32 = some 0xFFFFF000#32
    ∧ setGet true 0b1100011#32 0x1000#32 = some 0xFFFFF000#32 := by decide
example : getType 0b0010011#32 = some .I ∧ ¬ IsShiftWord 0b0010011#32 ∧
    setGet true 0b0010011#32 0xFFFFFABC#32 = some 0xFFFFFABC#32 ∧
    setGet true 0b0010011#32 0xABC#32 = some 0xFFFFFABC#32 := by
  unfold IsShiftWord; decide
example : IsShiftWord 0x1013#32 ∧ setGet false 0x1013#32 33#32 = some 1#32 := by
  unfold IsShiftWord; decide

/-! ## C03: fields do not interfere -/

/-- Specification of a field write: in `w'`, bits `lo .. lo+len-1` come from `v` (its low bits),
all the others from `w`. -/
def IsFieldSet (lo len : Nat) (w v w' : U32) : Prop :=
  ∀ k, k < 32 → w'.getLsbD k = if lo ≤ k ∧ k < lo + len then v.getLsbD (k - lo) else w.getLsbD k

macro "fieldset" : tactic => `(tactic| (
  apply Verif.all32 <;> simp [setField, OPCODEMASK, OPCODESHIFT, FUNCT3MASK, FUNCT3SHIFT,
    FUNCT7MASK, FUNCT7SHIFT, RS1MASK, RS1SHIFT, RS2MASK, RS2SHIFT, RDMASK, RDSHIFT,
    SHAMTMASK, SHAMTSHIFT]))

theorem of_guard {dbg : Bool} {ok : Ty → Bool} {w x y : U32}
    (h : ((guardTy dbg ok w).map fun _ => x) = some y) : y = x := by
  cases hg : guardTy dbg ok w with
  | none => rw [hg] at h; cases h
  | some u => rw [hg] at h; simpa using h.symm

/-- Every setter writes its own field and nothing else; release builds never reject. -/
theorem C03_setters (dbg : Bool) (w v w' : U32) :
    (setRd dbg w v = some w' → IsFieldSet 7 5 w v w') ∧
    (setFunct3 dbg w v = some w' → IsFieldSet 12 3 w v w') ∧
    (setRs1 dbg w v = some w' → IsFieldSet 15 5 w v w') ∧
    (setRs2 dbg w v = some w' → IsFieldSet 20 5 w v w') ∧
    (setShamt dbg w v = some w' → IsFieldSet 20 5 w v w') ∧
    (setFunct7 dbg w v = some w' → IsFieldSet 25 7 w v w') ∧
    (setOpcode w v = w' → IsFieldSet 0 7 w v w') := by
  refine ⟨?_, ?_, ?_, ?_, ?_, ?_, ?_⟩ <;> intro h
  all_goals first | (have h' := of_guard h; subst h') | (subst h; unfold setOpcode)
  all_goals fieldset

/-- Every getter returns its own field, zero-extended. -/
theorem C03_getters (dbg : Bool) (w x : U32) :
    (getRd dbg w = some x → x = (w.extractLsb' 7 5).setWidth 32) ∧
    (getFunct3 dbg w = some x → x = (w.extractLsb' 12 3).setWidth 32) ∧
    (getRs1 dbg w = some x → x = (w.extractLsb' 15 5).setWidth 32) ∧
    (getRs2 dbg w = some x → x = (w.extractLsb' 20 5).setWidth 32) ∧
    (getShamt dbg w = some x → x = (w.extractLsb' 20 5).setWidth 32) ∧
    (getFunct7 dbg w = some x → x = (w.extractLsb' 25 7).setWidth 32) ∧
    (getOpcode w = x → x = (w.extractLsb' 0 7).setWidth 32) := by
  refine ⟨?_, ?_, ?_, ?_, ?_, ?_, ?_⟩ <;> intro h
  all_goals first | (have h' := of_guard h; subst h') | subst h
  all_goals fld

/-- Immediate setters change immediate positions only (I: 20..31; S, B: 7..11 and 25..31;
U, J: 12..31), so opcode, registers and function codes of the format are preserved. -/
theorem C03_imm_setters (dbg : Bool) (w imm w' : U32) (h : setImm dbg w imm = some w') (k : Nat)
    (hk : k < 32) :
    (getType w = some .I → k < 20 → w'.getLsbD k = w.getLsbD k) ∧
    (getType w = some .S ∨ getType w = some .B → (k < 7 ∨ 12 ≤ k ∧ k < 25) →
      w'.getLsbD k = w.getLsbD k) ∧
    (getType w = some .U ∨ getType w = some .J → k < 12 → w'.getLsbD k = w.getLsbD k) := by
  refine ⟨?_, ?_, ?_⟩
  · intro ht
    simp only [setImm, ht, Option.bind_some] at h
    cases hf : getFunct3 dbg w with
    | none => simp [hf] at h
    | some f3 =>
      simp only [hf, Option.bind_some] at h
      split at h
      · have h' := of_guard h
        subst h'
        revert k
        apply all32 <;> simp [setField, SHAMTMASK, SHAMTSHIFT]
      · simp only [Option.some_inj] at h
        subst h
        revert k
        apply all32 <;> simp [IType.setImmediate]
  · intro ht
    rcases ht with ht | ht <;> simp only [setImm, ht, Option.bind_some, Option.some_inj] at h <;>
      subst h <;> revert k <;> apply all32 <;> simp [SType.setImmediate, BType.setImmediate]
  · intro ht
    rcases ht with ht | ht <;> simp only [setImm, ht, Option.bind_some, Option.some_inj] at h <;>
      subst h <;> revert k <;> apply all32 <;> simp [UType.setImmediate, JType.setImmediate]

/-- A field write leaves every disjoint field as it was, and its own field reads back the value
written (truncated to the field). -/
theorem C03_disjoint_fields {lo len : Nat} {w v w' : U32} (h : IsFieldSet lo len w v w')
    (lo' len' : Nat) (hb : lo' + len' ≤ 32) :
    ((lo' + len' ≤ lo ∨ lo + len ≤ lo') → w'.extractLsb' lo' len' = w.extractLsb' lo' len') ∧
    (lo + len ≤ 32 → w'.extractLsb' lo len = v.setWidth len) := by
  constructor
  · intro hd
    apply BitVec.eq_of_getLsbD_eq
    intro k hk
    simp only [BitVec.getLsbD_extractLsb', hk, decide_true, Bool.true_and]
    rw [h (lo' + k) (by omega), if_neg (by omega)]
  · intro hlen
    apply BitVec.eq_of_getLsbD_eq
    intro k hk
    simp only [BitVec.getLsbD_extractLsb', BitVec.getLsbD_setWidth, hk, decide_true, Bool.true_and]
    rw [h (lo + k) (by omega), if_pos (by omega)]
    congr 1; omega

/-- Release builds accept every setter call. -/
theorem C03_release_total (w v : U32) :
    (setRd false w v).isSome ∧ (setRs1 false w v).isSome ∧ (setRs2 false w v).isSome ∧
    (setFunct3 false w v).isSome ∧ (setFunct7 false w v).isSome ∧ (setShamt false w v).isSome := by
  simp [setRd, setRs1, setRs2, setFunct3, setFunct7, setShamt, guardTy]

private theorem guard_opcode (ok : Ty → Bool) (w : U32) :
    (guardTy true ok w).isSome = (guardTy true ok ((w.extractLsb' 0 7).setWidth 32)).isSome := by
  have h : getType w = getType ((w.extractLsb' 0 7).setWidth 32) := by
    have h : getOpcode w = getOpcode ((w.extractLsb' 0 7).setWidth 32) := by
      unfold getOpcode; fld
    unfold getType; rw [h]
  unfold guardTy; rw [h]

/-- Debug builds accept a setter or getter call exactly when the word has an opcode whose format has the field
(`funct7` is read from the shifts with an immediate operand too, so also with their opcode; `funct3` also with the
one of the system instructions). -/
theorem C03_debug_formats (w v : U32) :
    let has (opcodes : List (BitVec 7)) := w.extractLsb' 0 7 ∈ opcodes
    let rd := [0x33#7, 0x13#7, 0x03#7, 0x67#7, 0x37#7, 0x17#7, 0x6F#7]
    let rs1 := [0x33#7, 0x13#7, 0x03#7, 0x67#7, 0x23#7, 0x63#7]
    let rs2 := [0x33#7, 0x23#7, 0x63#7]
    let funct3 := [0x33#7, 0x13#7, 0x03#7, 0x67#7, 0x23#7, 0x63#7, 0x73#7]
    let imm := [0x13#7, 0x03#7, 0x67#7]
    ((setRd true w v).isSome ↔ has rd) ∧ ((getRd true w).isSome ↔ has rd) ∧
    ((setRs1 true w v).isSome ↔ has rs1) ∧ ((getRs1 true w).isSome ↔ has rs1) ∧
    ((setRs2 true w v).isSome ↔ has rs2) ∧ ((getRs2 true w).isSome ↔ has rs2) ∧
    ((setFunct3 true w v).isSome ↔ has funct3) ∧ ((getFunct3 true w).isSome ↔ has funct3) ∧
    ((setFunct7 true w v).isSome ↔ has [0x33#7]) ∧ ((getFunct7 true w).isSome ↔ has (0x33#7 :: imm)) ∧
    ((setShamt true w v).isSome ↔ has imm) ∧ ((getShamt true w).isSome ↔ has imm) := by
  simp only [setRd, getRd, setRs1, getRs1, setRs2, getRs2, setFunct3, getFunct3, setFunct7, getFunct7, setShamt,
    getShamt, Option.isSome_map]
  rw [guard_opcode okRd, guard_opcode okRs1, guard_opcode okRs2, guard_opcode okFunct3, guard_opcode okSetFunct7,
    guard_opcode okGetFunct7, guard_opcode okShamt]
  generalize w.extractLsb' 0 7 = o
  revert o
  decide +kernel

example : setRd true 0x00C58533#32 31#32 = some 0x00C58FB3#32 := by decide
example : setRd true 0x00000063#32 31#32 = none ∧ setRd false 0x00000063#32 31#32 = some 0xFE3#32 := by
  decide

/-! ## C05: operation ids of legal instructions -/

/-- Expected rd operation of a mnemonic. -/
def expectedRd : Instr → RdUpdate
  | .lui .. => .LUI | .auipc .. => .AUIPC | .jal .. => .JAL | .jalr .. => .JALR
  | .branch .. => .NONE | .store .. => .NONE
  | .load .lb .. => .LB | .load .lh .. => .LH | .load .lw .. => .LW | .load .lbu .. => .LBU
  | .load .lhu .. => .LHU
  | .opImm .addi .. => .ADDI | .opImm .slti .. => .SLTI | .opImm .sltiu .. => .SLTIU
  | .opImm .xori .. => .XORI | .opImm .ori .. => .ORI | .opImm .andi .. => .ANDI
  | .shImm .slli .. => .SLLI | .shImm .srli .. => .SRLI | .shImm .srai .. => .SRAI
  | .op .add .. => .ADD | .op .sub .. => .SUB | .op .sll .. => .SLL | .op .slt .. => .SLT
  | .op .sltu .. => .SLTU | .op .xor .. => .XOR | .op .srl .. => .SRL | .op .sra .. => .SRA
  | .op .or .. => .OR | .op .and .. => .AND
  | .mul .mul .. => .MUL | .mul .mulh .. => .MULH | .mul .mulhsu .. => .MULHSU
  | .mul .mulhu .. => .MULHU | .mul .div .. => .DIV | .mul .divu .. => .DIVU
  | .mul .rem .. => .REM | .mul .remu .. => .REMU

/-- Expected memory operation. -/
def expectedRam : Instr → RamUpdate
  | .store .sb .. => .SB | .store .sh .. => .SH | .store .sw .. => .SW | _ => .NONE

/-- Expected pc operation. -/
def expectedPc : Instr → PcUpdate
  | .jal .. => .JAL | .jalr .. => .JALR
  | .branch .beq .. => .BEQ | .branch .bne .. => .BNE | .branch .blt .. => .BLT
  | .branch .bge .. => .BGE | .branch .bltu .. => .BLTU | .branch .bgeu .. => .BGEU
  | _ => .NONE

/-- Register operands `(rs2, rs1, rd)`, 0 when the format has none. -/
def operands : Instr → Reg × Reg × Reg
  | .lui rd _ => (0, 0, rd) | .auipc rd _ => (0, 0, rd) | .jal rd _ => (0, 0, rd)
  | .jalr rd rs1 _ => (0, rs1, rd)
  | .branch _ rs1 rs2 _ => (rs2, rs1, 0)
  | .load _ rd rs1 _ => (0, rs1, rd)
  | .store _ rs1 rs2 _ => (rs2, rs1, 0)
  | .opImm _ rd rs1 _ => (0, rs1, rd)
  | .shImm _ rd rs1 _ => (0, rs1, rd)
  | .op _ rd rs1 rs2 => (rs2, rs1, rd)
  | .mul _ rd rs1 rs2 => (rs2, rs1, rd)

theorem C05_opid_legal (dbg : Bool) (i : Instr) :
    getOpid dbg (encode i) = some (expectedRd i, expectedRam i, expectedPc i) := by
  cases i with
  | lui rd imm => simp [encode, getOpid, getType, opcode_u, expectedRd, expectedRam, expectedPc]
  | auipc rd imm => simp [encode, getOpid, getType, opcode_u, expectedRd, expectedRam, expectedPc]
  | jal rd imm => simp [encode, getOpid, getType, opcode_j, expectedRd, expectedRam, expectedPc]
  | jalr rd rs1 imm =>
    simp [encode, getOpid, getType, opcode_i, expectedRd, expectedRam, expectedPc, getFunct3,
      guardTy, okFunct3]
  | branch o rs1 rs2 imm =>
    cases o <;> simp [encode, getOpid, getType, opcode_b, expectedRd, expectedRam, expectedPc,
      getFunct3, guardTy, okFunct3, funct3_b, BranchOp.funct3, opidBranch]
  | load o rd rs1 imm =>
    cases o <;> simp [encode, getOpid, getType, opcode_i, expectedRd, expectedRam, expectedPc,
      getFunct3, guardTy, okFunct3, funct3_i, LoadOp.funct3, opidLoad]
  | store o rs1 rs2 imm =>
    cases o <;> simp [encode, getOpid, getType, opcode_s, expectedRd, expectedRam, expectedPc,
      getFunct3, guardTy, okFunct3, funct3_s, StoreOp.funct3, opidStore]
  | opImm o rd rs1 imm =>
    cases o <;> simp [encode, getOpid, getType, opcode_i, expectedRd, expectedRam, expectedPc,
      getFunct3, guardTy, okFunct3, funct3_i, ImmOp.funct3, opidOpImm]
  | shImm o rd rs1 sh =>
    cases o <;> simp [encode, getOpid, getType, opcode_r, expectedRd, expectedRam, expectedPc,
      getFunct3, guardTy, okFunct3, funct3_r, ShiftOp.funct3, ShiftOp.funct7, opidOpImm, getFunct7,
      okGetFunct7, funct7_r]
  | op o rd rs1 rs2 =>
    cases o <;> simp [encode, getOpid, getType, opcode_r, expectedRd, expectedRam, expectedPc,
      getFunct3, guardTy, okFunct3, funct3_r, RegOp.funct3, RegOp.funct7, opidR, getFunct7,
      okGetFunct7, funct7_r]
  | mul o rd rs1 rs2 =>
    cases o <;> simp [encode, getOpid, getType, opcode_r, expectedRd, expectedRam, expectedPc,
      getFunct3, guardTy, okFunct3, funct3_r, MulOp.funct3, opidR, getFunct7,
      okGetFunct7, funct7_r]

theorem C05_registers_legal (dbg : Bool) (i : Instr) :
    getRegisters dbg (encode i) = some ((operands i).1.setWidth 32, (operands i).2.1.setWidth 32,
      (operands i).2.2.setWidth 32) := by
  cases i <;> cases dbg <;> simp [encode, getRegisters, getType, opcode_u, opcode_j, opcode_i,
    opcode_b, opcode_s, opcode_r, getRs1, getRs2, getRd, guardTy, okRs1, okRs2, okRd, operands,
    rs1_r, rs1_i, rs1_s, rs1_b, rs2_r, rs2_s, rs2_b, rd_r, rd_i, rd_u, rd_j]

/-- `sub x10, x11, x12` is `0x40C58533`. -/
example : encode (.op .sub 10#5 11#5 12#5) = 0x40C58533#32 ∧
    getOpid true 0x40C58533#32 = some (.SUB, .NONE, .NONE) ∧
    getRegisters true 0x40C58533#32 = some (12#32, 11#32, 10#32) := by decide

/-! ## C08: ids are unambiguous and fit the selectors -/

theorem C08_rd_id_injective : ∀ a b : RdUpdate, a.id = b.id → a = b := by
  intro a b; cases a <;> cases b <;> decide
theorem C08_ram_id_injective : ∀ a b : RamUpdate, a.id = b.id → a = b := by
  intro a b; cases a <;> cases b <;> decide
theorem C08_pc_id_injective : ∀ a b : PcUpdate, a.id = b.id → a = b := by
  intro a b; cases a <;> cases b <;> decide

/-- RV32I operations need 5 selector bits, memory operations 2, pc operations 4; every
operation is in its list. -/
theorem C08_id_widths :
    (∀ o ∈ rdUpdateRv32iOpList, o.id.toNat < 2 ^ 5) ∧
    (∀ o : RamUpdate, o.id.toNat < 2 ^ 2) ∧ (∀ o : PcUpdate, o.id.toNat < 2 ^ 4) ∧
    (∀ o ∈ rdUpdateRv32mOpList, o.id.toNat < 2 ^ 6) ∧
    (∃ o ∈ rdUpdateRv32mOpList, ¬ o.id.toNat < 2 ^ 5) := by
  refine ⟨by decide, ?_, ?_, by decide, by decide⟩
  · intro o; cases o <;> decide
  · intro o; cases o <;> decide

/-- The op lists are complete and duplicate-free: position in the list is the id for rd and
memory operations. -/
theorem C08_lists_complete :
    (∀ o : RdUpdate, o ∈ rdUpdateRv32mOpList) ∧ (∀ o : RamUpdate, o ∈ ramUpdateOpList) ∧
    (∀ o : PcUpdate, o ∈ pcUpdateOpList) ∧
    rdUpdateRv32mOpList.map RdUpdate.id = (List.range 37).map (BitVec.ofNat 32) ∧
    rdUpdateRv32iOpList.map RdUpdate.id = (List.range 29).map (BitVec.ofNat 32) ∧
    ramUpdateOpList.map RamUpdate.id = (List.range 4).map (BitVec.ofNat 32) ∧
    (pcUpdateOpList.map PcUpdate.id).Nodup := by
  refine ⟨?_, ?_, ?_, by decide, by decide, by decide, by decide⟩ <;> intro o <;> cases o <;> decide

/-! ## C09: sign extension helper -/

theorem C09_sext (x : U32) (b : Nat) (h0 : 0 < b) (h1 : b ≤ 31) :
    sext x b = some ((x.setWidth (b + 1)).signExtend 32) := by
  have hb : ¬ (b = 0 ∨ 32 ≤ b) := by omega
  simp only [sext, hb, if_false, Option.some_inj]
  have hone : (x >>> b) &&& 1#32 = if x.getLsbD b then 1#32 else 0#32 := by
    apply BitVec.eq_of_getLsbD_eq
    intro i hi
    cases hx : x.getLsbD b <;> by_cases h : i = 0 <;> simp_all
  have hall : (0xFFFFFFFF#32 : U32) = BitVec.allOnes 32 := by decide
  rw [hone, hall, BitVec.allOnes_and]
  apply BitVec.eq_of_getLsbD_eq
  intro i hi
  have hmul : ((if x.getLsbD b = true then 1#32 else 0#32) * BitVec.allOnes 32 <<< b).getLsbD i
      = (x.getLsbD b && decide (b ≤ i)) := by
    cases x.getLsbD b
    · simp
    · simp only [if_true, BitVec.one_mul, BitVec.getLsbD_shiftLeft, BitVec.getLsbD_allOnes, hi]
      by_cases hbi : b ≤ i
      · have e1 : ¬ i < b := by omega
        have e2 : i - b < 32 := by omega
        simp [hbi, e1, e2]
      · have e1 : i < b := by omega
        simp [hbi, e1]
  rw [BitVec.getLsbD_or, hmul]
  simp only [BitVec.getLsbD_signExtend, BitVec.msb_eq_getLsbD_last, BitVec.getLsbD_setWidth,
    BitVec.getLsbD_ushiftRight, BitVec.getLsbD_shiftLeft]
  by_cases hlt : i < b
  · have e1 : ¬ b ≤ i := by omega
    have e2 : i < b + 1 := by omega
    have e3 : 32 - b + i < 32 := by omega
    simp [e1, e2, e3, hi, -BitVec.getLsbD_eq_getElem]
  · have e1 : b ≤ i := by omega
    have e3 : ¬ 32 - b + i < 32 := by omega
    by_cases he : i = b
    · subst he; simp [hi, -BitVec.getLsbD_eq_getElem]
    · have e2 : ¬ i < b + 1 := by omega
      simp [e1, e2, e3, hi, -BitVec.getLsbD_eq_getElem]

example : sext 0xFF#32 7 = some 0xFFFFFFFF#32 ∧ sext 0x7F#32 7 = some 0x7F#32 ∧
    sext 0x8000#32 15 = some 0xFFFF8000#32 := by decide

end Verif.Props
