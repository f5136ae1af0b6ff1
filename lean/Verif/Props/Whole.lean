import Verif.Props.GuestHosts
import Verif.Props.ElfFile
import Verif.Props.Segments
import Verif.Props.Symbols
/-
  C89: one guest from its object files to the assertions of its host.  `main` of uniswap (C88) is linked with the runtime
  (C85, C84, C64), written to a file by lld (C82) or as bytes (C73) and loaded; both VMs execute the start-up code (C56), then
  `_start_rust`, then `main`, and the host (C74) sees the result.
-/
namespace Verif.Props
open Model Model.Link Spec Boot

/-! ### Code that may be anywhere -/

/-- The instruction does not use its own address, except to jump over a distance and to put a return address into x1, and x1 is
used for nothing but the return. -/
def Relocatable : Instr → Prop
  | .auipc .. => False
  | .jalr rd rs1 imm => rd = 0#5 ∧ rs1 = 1#5 ∧ imm = 0#12
  | .jal rd _ => rd = 0#5 ∨ rd = 1#5
  | .lui rd _ => rd ≠ 1#5
  | .branch _ rs1 rs2 _ => rs1 ≠ 1#5 ∧ rs2 ≠ 1#5
  | .load _ rd rs1 _ => rd ≠ 1#5 ∧ rs1 ≠ 1#5
  | .store _ rs1 rs2 _ => rs1 ≠ 1#5 ∧ rs2 ≠ 1#5
  | .opImm _ rd rs1 _ => rd ≠ 1#5 ∧ rs1 ≠ 1#5
  | .shImm _ rd rs1 _ => rd ≠ 1#5 ∧ rs1 ≠ 1#5
  | .op _ rd rs1 rs2 => rd ≠ 1#5 ∧ rs1 ≠ 1#5 ∧ rs2 ≠ 1#5
  | .mul _ rd rs1 rs2 => rd ≠ 1#5 ∧ rs1 ≠ 1#5 ∧ rs2 ≠ 1#5

instance (i : Instr) : Decidable (Relocatable i) := by
  unfold Relocatable
  split <;> infer_instance

/-- The same state at another address: the return address moves along. -/
def moved (d : Word) (s : Arch) : Arch := ⟨s.pc + d, fun r => if r = 1#5 then s.reg r + d else s.reg r, s.mem⟩

theorem add_swap (a b d : Word) : a + d + b = a + b + d := by
  rw [BitVec.add_assoc, BitVec.add_comm d b, ← BitVec.add_assoc]

theorem moved_x {r : Reg} (h : r ≠ 1#5) (d : Word) (s : Arch) : (moved d s).x r = s.x r := by
  unfold Arch.x moved
  simp only [if_neg h]

theorem moved_setX {r : Reg} (h : r ≠ 1#5) (d : Word) (s : Arch) (v : Word) : (moved d s).setX r v = moved d (s.setX r v) := by
  unfold Arch.setX moved
  simp only [Arch.mk.injEq, true_and, and_true]
  funext q
  by_cases hq : q = 1#5
  · have : ¬ (q = r ∧ r ≠ 0#5) := fun hc => h (hc.1 ▸ hq)
    simp only [if_pos hq, if_neg this]
  · simp only [if_neg hq]

theorem moved_next (d : Word) (a : Arch) : (moved d a).next = moved d a.next := by
  show (⟨a.pc + d + 4#32, (moved d a).reg, a.mem⟩ : Arch) = ⟨a.pc + 4#32 + d, (moved d a).reg, a.mem⟩
  rw [add_swap]

/-- A return moves along with its address. -/
theorem return_moved (a d : Word) (hd : d.toNat % 4 = 0) : (a + d + immI 0) &&& ~~~1#32 = ((a + immI 0) &&& ~~~1#32) + d := by
  rw [show immI 0 = 0#32 from by decide, BitVec.add_zero, BitVec.add_zero]
  have clear (x : Word) : (x &&& ~~~1#32).toNat = x.toNat - x.toNat % 2 := by
    have h1 : x &&& ~~~1#32 = (x >>> 1) <<< 1 := by
      apply BitVec.eq_of_getLsbD_eq
      intro i hi
      rw [BitVec.getLsbD_and, BitVec.getLsbD_not, BitVec.getLsbD_shiftLeft, BitVec.getLsbD_ushiftRight]
      cases i with
      | zero => simp
      | succ i => simp [hi, Nat.add_comm 1 i]
    rw [h1, BitVec.toNat_shiftLeft, BitVec.toNat_ushiftRight, Nat.shiftRight_eq_div_pow, Nat.shiftLeft_eq]
    have := x.isLt
    omega
  apply BitVec.eq_of_toNat_eq
  rw [clear, BitVec.toNat_add, BitVec.toNat_add, clear]
  have := a.isLt
  have := d.isLt
  omega

theorem exec_moved {i : Instr} (h : Relocatable i) (d : Word) (hd : d.toNat % 4 = 0) (s : Arch) :
    exec i (moved d s) = moved d (exec i s) := by
  cases i with
  | auipc => exact h.elim
  | jalr rd rs1 imm =>
    obtain ⟨rfl, rfl, rfl⟩ := h
    have e1 : exec (.jalr 0#5 1#5 0#12) (moved d s) =
        ⟨(s.reg 1#5 + d + immI 0) &&& ~~~1#32, ((moved d s).setX 0#5 (s.pc + d + 4#32)).reg, s.mem⟩ := rfl
    have e2 : exec (.jalr 0#5 1#5 0#12) s = ⟨(s.reg 1#5 + immI 0) &&& ~~~1#32, (s.setX 0#5 (s.pc + 4#32)).reg, s.mem⟩ := rfl
    rw [e1, e2, show s.setX 0#5 (s.pc + 4#32) = s from Arch.setX_zero s _,
      show (moved d s).setX 0#5 (s.pc + d + 4#32) = moved d s from Arch.setX_zero _ _, return_moved _ _ hd]
    rfl
  | jal rd imm =>
    rcases h with rfl | rfl
    · have e1 : exec (.jal 0#5 imm) (moved d s) = ⟨s.pc + d + immJ imm, ((moved d s).setX 0#5 (s.pc + d + 4#32)).reg, s.mem⟩ := rfl
      have e2 : exec (.jal 0#5 imm) s = ⟨s.pc + immJ imm, (s.setX 0#5 (s.pc + 4#32)).reg, s.mem⟩ := rfl
      rw [e1, e2, show s.setX 0#5 (s.pc + 4#32) = s from Arch.setX_zero s _,
        show (moved d s).setX 0#5 (s.pc + d + 4#32) = moved d s from Arch.setX_zero _ _, add_swap]
      rfl
    · show (⟨s.pc + d + immJ imm, fun q => if q = 1#5 ∧ 1#5 ≠ 0#5 then s.pc + d + 4#32 else (moved d s).reg q, s.mem⟩ : Arch) =
        ⟨s.pc + immJ imm + d, fun q => if q = 1#5 then (if q = 1#5 ∧ 1#5 ≠ 0#5 then s.pc + 4#32 else s.reg q) + d else
          (if q = 1#5 ∧ 1#5 ≠ 0#5 then s.pc + 4#32 else s.reg q), s.mem⟩
      rw [add_swap s.pc (immJ imm), add_swap s.pc 4#32]
      simp only [Arch.mk.injEq, true_and, and_true]
      funext q
      by_cases hq : q = 1#5
      · have : q = 1#5 ∧ (1#5 : Reg) ≠ 0#5 := ⟨hq, by decide⟩
        simp only [if_pos hq, if_pos this]
      · have : ¬ (q = 1#5 ∧ (1#5 : Reg) ≠ 0#5) := fun hc => hq hc.1
        simp only [if_neg hq, if_neg this]
        exact if_neg hq
  | branch o rs1 rs2 imm =>
    show (if o.taken ((moved d s).x rs1) ((moved d s).x rs2) then (⟨s.pc + d + immB imm, (moved d s).reg, s.mem⟩ : Arch) else (moved d s).next) =
      moved d (if o.taken (s.x rs1) (s.x rs2) then { s with pc := s.pc + immB imm } else s.next)
    rw [moved_x h.1, moved_x h.2, moved_next, add_swap]
    split <;> rfl
  | lui rd imm =>
    show ((moved d s).setX rd (immU imm)).next = moved d (s.setX rd (immU imm)).next
    rw [moved_setX h, moved_next]
  | load o rd rs1 imm =>
    show ((moved d s).setX rd (o.eval s.mem ((moved d s).x rs1 + immI imm))).next = moved d (s.setX rd (o.eval s.mem (s.x rs1 + immI imm))).next
    rw [moved_x h.2, moved_setX h.1, moved_next]
  | store o rs1 rs2 imm =>
    show Arch.next ⟨s.pc + d, (moved d s).reg, storeBytes s.mem ((moved d s).x rs1 + immI imm) ((moved d s).x rs2) o.size⟩ =
      moved d (Arch.next ⟨s.pc, s.reg, storeBytes s.mem (s.x rs1 + immI imm) (s.x rs2) o.size⟩)
    rw [moved_x h.1, moved_x h.2, ← moved_next]
    rfl
  | opImm o rd rs1 imm =>
    show ((moved d s).setX rd (o.eval ((moved d s).x rs1) (immI imm))).next = moved d (s.setX rd (o.eval (s.x rs1) (immI imm))).next
    rw [moved_x h.2, moved_setX h.1, moved_next]
  | shImm o rd rs1 sh =>
    show ((moved d s).setX rd (o.eval ((moved d s).x rs1) sh.toNat)).next = moved d (s.setX rd (o.eval (s.x rs1) sh.toNat)).next
    rw [moved_x h.2, moved_setX h.1, moved_next]
  | op o rd rs1 rs2 =>
    show ((moved d s).setX rd (o.eval ((moved d s).x rs1) ((moved d s).x rs2))).next = moved d (s.setX rd (o.eval (s.x rs1) (s.x rs2))).next
    rw [moved_x h.2.1, moved_x h.2.2, moved_setX h.1, moved_next]
  | mul o rd rs1 rs2 =>
    show ((moved d s).setX rd (o.eval ((moved d s).x rs1) ((moved d s).x rs2))).next = moved d (s.setX rd (o.eval (s.x rs1) (s.x rs2))).next
    rw [moved_x h.2.1, moved_x h.2.2, moved_setX h.1, moved_next]

/-- What it accesses, it accesses in the moved state. -/
theorem access_moved {i : Instr} (h : Relocatable i) (d : Word) (s : Arch) : i.access (moved d s) = i.access s := by
  cases i with
  | load o rd rs1 imm =>
    show some ((moved d s).x rs1 + immI imm, o.size) = _
    rw [moved_x h.2]; rfl
  | store o rs1 rs2 imm =>
    show some ((moved d s).x rs1 + immI imm, o.size) = _
    rw [moved_x h.1]; rfl
  | _ => rfl

theorem jumpsTo_moved {i : Instr} (h : Relocatable i) (d : Word) (hd : d.toNat % 4 = 0) (s : Arch) :
    i.jumpsTo (moved d s) = (i.jumpsTo s).map (· + d) := by
  cases i with
  | auipc => exact h.elim
  | jalr rd rs1 imm =>
    obtain ⟨rfl, rfl, rfl⟩ := h
    show some ((s.reg 1#5 + d + immI 0) &&& ~~~1#32) = some (((s.reg 1#5 + immI 0) &&& ~~~1#32) + d)
    rw [return_moved _ _ hd]
  | jal rd imm =>
    show some (s.pc + d + immJ imm) = some (s.pc + immJ imm + d)
    rw [add_swap]
  | branch o rs1 rs2 imm =>
    show (if o.taken ((moved d s).x rs1) ((moved d s).x rs2) then some (s.pc + d + immB imm) else none) =
      (if o.taken (s.x rs1) (s.x rs2) then some (s.pc + immB imm) else none).map (· + d)
    rw [moved_x h.1, moved_x h.2, add_swap]
    split <;> rfl
  | _ => rfl

theorem alike_moved {i : Instr} (h : Relocatable i) (d : Word) (hd : d.toNat % 4 = 0) (s : Arch) (ha : Alike i s) :
    Alike i (moved d s) := by
  obtain ⟨h1, h2, h3⟩ := ha
  refine ⟨?_, ?_, ?_⟩
  · cases i with
    | load o rd rs1 imm => simp only [Instr.supported, moved_x h.2] at h1 ⊢; exact h1
    | store o rs1 rs2 imm => simp only [Instr.supported, moved_x h.1] at h1 ⊢; exact h1
    | _ => exact h1
  · intro a n ha
    rw [access_moved h] at ha
    exact h2 a n ha
  · rintro ⟨t, ht, hm⟩
    rw [jumpsTo_moved h d hd] at ht
    obtain ⟨u, hu, rfl⟩ := Option.map_eq_some_iff.mp ht
    have : u.toNat % 4 = 0 := Classical.byContradiction fun hc => h3 ⟨u, hu, hc⟩
    rw [BitVec.toNat_add] at hm
    omega

/-- A run of such code is one at any other multiple of four. -/
theorem go_moved {code : List Instr} (hc : ∀ i ∈ code, Relocatable i) (d : Word) (hd : d.toNat % 4 = 0)
    {fetch : Word → Option Instr} (hf : ∀ pc i, codeAt code pc = some i → fetch (pc + d) = some i) {n : Nat} {s t : Arch}
    (h : Go code n s t) : Runs fetch Alike n (moved d s) (moved d t) := by
  induction h with
  | zero s => exact .zero _
  | @succ n i s t h1 h2 _ ih =>
    have hr := hc i (List.mem_of_getElem? (codeAt_inv h1).2.2)
    refine .succ (hf _ _ h1) (alike_moved hr d hd s h2) ?_
    rw [exec_moved hr d hd]
    exact ih

/-! ### Behind the start-up code -/

/-- `_start_rust` at any address, if `main` follows: a call in tail position, `auipc x6, 0` and `jalr x0, 8(x6)`. -/
def tailCall : List Instr := [.auipc 6 0, .jalr 0 6 8]

/-- The text of a program: the start-up code, `_start_rust`, `main`. -/
def programWords (gp sp : Word) (code : List Instr) : List Word := bootWords gp sp 36#32 ++ (tailCall ++ code).map encode

/-- The instructions in it. -/
noncomputable def programFetch (gp sp : Word) (code : List Instr) (pc : Word) : Option Instr :=
  if pc.toNat < 36 then bootFetch gp sp 36#32 pc else codeAt (tailCall ++ code) (pc - 36#32)

theorem bootWords_length (gp sp entry : Word) : (bootWords gp sp entry).length = 9 := rfl

/-- `unimp` is no instruction of RV32I or RV32M. -/
theorem encode_unimp (i : Instr) : encode i ≠ unimp := by
  intro h
  have h := congrArg getOpcode h
  cases i <;> simp only [encode, opcode_r, opcode_i, opcode_s, opcode_b, opcode_u, opcode_j] at h <;> exact absurd h (by decide)

theorem bootWords_plain (gp sp : Word) (k : Nat) (i : Instr) (h : (bootWords gp sp 36#32)[k]? = some (encode i)) : i.plainBase := by
  have inj (j : Instr) (hj : encode i = encode j) (hp : j.plainBase) : i.plainBase := by
    rw [encode_injective _ _ hj]; exact hp
  have hm := List.mem_of_getElem? h
  simp only [bootWords, la, List.cons_append, List.nil_append, List.mem_cons, List.not_mem_nil, or_false] at hm
  rcases hm with h | h | h | h | h | h | h | h | h
  · exact inj _ h trivial
  · exact inj _ h trivial
  · exact inj _ h trivial
  · exact inj _ h trivial
  · exact inj _ h trivial
  · exact inj _ h trivial
  · exact absurd h (encode_unimp i)
  · exact inj _ h ⟨by decide, by decide⟩
  · exact absurd h (encode_unimp i)

theorem programFetch_word {gp sp : Word} {code : List Instr} (hlen : code.length ≤ 2 ^ 15) (hp : ∀ i ∈ code, i.plainBase)
    (pc : Word) (i : Instr) (h : programFetch gp sp code pc = some i) :
    pc.toNat % 4 = 0 ∧ pc.toNat < 2 ^ 18 ∧ i.plainBase ∧ (programWords gp sp code)[pc.toNat / 4]? = some (encode i) := by
  unfold programFetch at h
  split at h
  · next hlt =>
    obtain ⟨h1, h2⟩ := bootFetch_word h
    refine ⟨by omega, by omega, bootWords_plain gp sp _ i h2, ?_⟩
    unfold programWords
    rw [List.getElem?_append_left (by rw [bootWords_length]; omega)]
    exact h2
  · next hge =>
    obtain ⟨h1, h2, h3⟩ := codeAt_inv h
    have e : (pc - 36#32).toNat = pc.toNat - 36 := by
      have := pc.isLt
      rw [BitVec.toNat_sub]
      simp only [BitVec.toNat_ofNat]
      omega
    rw [e] at h1 h2 h3
    have hl : (tailCall ++ code).length = code.length + 2 := by rw [List.length_append]; exact Nat.add_comm 2 _
    refine ⟨by omega, by omega, ?_, ?_⟩
    · rcases List.mem_append.mp (List.mem_of_getElem? h3) with hm | hm
      · simp only [tailCall, List.mem_cons, List.not_mem_nil, or_false] at hm
        rcases hm with rfl | rfl <;> trivial
      · exact hp i hm
    · unfold programWords
      rw [List.getElem?_append_right (by rw [bootWords_length]; omega), bootWords_length, List.getElem?_map,
        show pc.toNat / 4 - 9 = (pc.toNat - 36) / 4 by omega, h3]
      rfl

theorem runs_append {fetch : Word → Option Instr} {ok : Instr → Arch → Prop} {a b : Nat} {s t u : Arch}
    (h1 : Runs fetch ok a s t) (h2 : Runs fetch ok b t u) : Runs fetch ok (a + b) s u := by
  induction h1 with
  | zero s => rw [Nat.zero_add]; exact h2
  | succ hf ho _ ih => rw [Nat.add_right_comm]; exact .succ hf ho (ih h2)

/-- Behind `_start_rust` at `E`, the instructions of `main`. -/
theorem tail_code {code : List Instr} (hlen : code.length ≤ 2 ^ 15) {fetch : Word → Option Instr} {E : Word}
    (hcode : ∀ pc i, codeAt (tailCall ++ code) pc = some i → fetch (pc + E) = some i) (pc : Word) (i : Instr)
    (hi : codeAt code pc = some i) : fetch (pc + (E + 8#32)) = some i := by
  obtain ⟨g1, g2, g3⟩ := codeAt_inv hi
  have := hcode (pc + 8#32) i ?_
  · rwa [BitVec.add_assoc, BitVec.add_comm 8#32] at this
  · have e : (pc + 8#32).toNat = pc.toNat + 8 := by rw [BitVec.toNat_add]; simp only [BitVec.toNat_ofNat]; omega
    unfold codeAt
    rw [e, if_pos (by omega), List.getElem?_append_right (by simp only [tailCall, List.length_cons, List.length_nil]; omega),
      show (pc.toNat + 8) / 4 - tailCall.length = pc.toNat / 4 by simp only [tailCall, List.length_cons, List.length_nil]; omega]
    exact g3

/-- `_start_rust` at `E`: two instructions later the program is in `main`, with some registers. -/
theorem tail_entry {code : List Instr} {fetch : Word → Option Instr} {E : Word} (hE : E.toNat % 4 = 0)
    (hcode : ∀ pc i, codeAt (tailCall ++ code) pc = some i → fetch (pc + E) = some i) {s : Arch} (hpc : s.pc = E) :
    ∃ x, Runs fetch Alike 2 s (moved (E + 8#32) (St 0 x s.mem)) := by
  have hE8 : (E + 8#32).toNat % 4 = 0 := by rw [BitVec.toNat_add]; simp only [BitVec.toNat_ofNat]; omega
  have e1 : exec (.auipc 6 0) s = ⟨E + 4#32, rset s.reg 6 E, s.mem⟩ := by
    show (⟨s.pc + 4#32, rset s.reg 6 (s.pc + immU 0), s.mem⟩ : Arch) = _
    rw [hpc, show immU 0 = 0#32 from by decide, BitVec.add_zero]
  have ej : (E + immI 8) &&& ~~~1#32 = E + 8#32 := by
    have := return_moved 0#32 (E + 8#32) hE8
    rw [BitVec.zero_add, show (immI 0 : Word) = 0#32 from by decide, BitVec.add_zero] at this
    rw [show immI 8 = 8#32 from by decide, this]
    simp
  have e2 : exec (.jalr 0 6 8) ⟨E + 4#32, rset s.reg 6 E, s.mem⟩ = moved (E + 8#32)
      (St 0 (fun r => if r = 1#5 then rset s.reg 6 E r - (E + 8#32) else rset s.reg 6 E r) s.mem) := by
    show (⟨(E + immI 8) &&& ~~~1#32, (Arch.setX ⟨E + 4#32, rset s.reg 6 E, s.mem⟩ 0 (E + 4#32 + 4#32)).reg, s.mem⟩ : Arch) =
      ⟨0#32 + (E + 8#32), _, s.mem⟩
    rw [Arch.setX_zero, ej, BitVec.zero_add]
    simp only [Arch.mk.injEq, true_and, and_true]
    funext r
    show _ = if r = 1#5 then (if r = 1#5 then rset s.reg 6 E r - (E + 8#32) else rset s.reg 6 E r) + (E + 8#32) else
      (if r = 1#5 then rset s.reg 6 E r - (E + 8#32) else rset s.reg 6 E r)
    by_cases hr : r = 1#5
    · rw [if_pos hr, if_pos hr, BitVec.sub_add_cancel]
    · rw [if_neg hr, if_neg hr]
  refine ⟨fun r => if r = 1#5 then rset s.reg 6 E r - (E + 8#32) else rset s.reg 6 E r, ?_⟩
  refine .succ (i := .auipc 6 0) ?_ (plain_alike trivial rfl rfl) ?_
  · rw [hpc]
    have := hcode 0#32 _ rfl
    rwa [BitVec.zero_add] at this
  rw [e1]
  have hal : Alike (.jalr 0 6 8) ⟨E + 4#32, rset s.reg 6 E, s.mem⟩ := by
    refine ⟨trivial, fun a n h => (nomatch (show (none : Option (Word × Nat)) = some (a, n) from h)), fun ⟨u, hu, hm⟩ => ?_⟩
    have hu : some ((E + immI 8) &&& ~~~1#32) = some u := hu
    rw [← Option.some.inj hu, ej] at hm
    exact hm hE8
  refine .succ (i := .jalr 0 6 8) ?_ hal ?_
  · have := hcode 4#32 _ rfl
    rwa [BitVec.add_comm] at this
  rw [e2]
  exact .zero _

/-- `_start_rust` at `E`, and `main` behind it: two instructions later the program does what its `main` does with any registers. -/
theorem tail_runs {code : List Instr} (hc : ∀ i ∈ code, Relocatable i) (hlen : code.length ≤ 2 ^ 15) {fetch : Word → Option Instr}
    {E : Word} (hE : E.toNat % 4 = 0) (hcode : ∀ pc i, codeAt (tailCall ++ code) pc = some i → fetch (pc + E) = some i) {s : Arch}
    (hpc : s.pc = E) {N : Nat} {M : Word → Byte} (h : ∀ x, Ends code N (St 0 x s.mem) M) :
    ∃ t, t.mem = M ∧ ∀ n, N + 2 ≤ n → Runs fetch Alike n s t := by
  obtain ⟨x, hx⟩ := tail_entry hE hcode hpc
  obtain ⟨t, h1, h2⟩ := h x
  refine ⟨moved (E + 8#32) t, h1, fun n hn => ?_⟩
  obtain ⟨m, rfl⟩ : ∃ m, n = 2 + m := ⟨n - 2, by omega⟩
  exact runs_append hx (go_moved hc (E + 8#32) (by rw [BitVec.toNat_add]; simp only [BitVec.toNat_ofNat]; omega) (tail_code hlen hcode)
    (h2 m (by omega)))

/-- Such a program does what its `main` does, nine instructions later, if `main` does it with any registers. -/
theorem program_runs {gp sp : Word} {code : List Instr} (hc : ∀ i ∈ code, Relocatable i) (hlen : code.length ≤ 2 ^ 15)
    (bytes : List Byte) (N : Nat) (M : Word → Byte) (h : ∀ x, Ends code N (St 0 x (startState bytes).mem) M) :
    ∃ t, t.mem = M ∧ ∀ n, N + 9 ≤ n → Runs (programFetch gp sp code) Alike n (startState bytes) t := by
  have hboot : BootAt (programFetch gp sp code) gp sp 36#32 := by
    intro k i hk
    have h9 : k < 9 := (List.getElem?_eq_some_iff.mp hk).1
    unfold programFetch
    rw [if_pos (by rw [BitVec.toNat_ofNat]; omega)]
    exact bootFetch_at gp sp 36#32 k i hk
  have hcode : ∀ pc i, codeAt (tailCall ++ code) pc = some i → programFetch gp sp code (pc + 36#32) = some i := by
    intro pc i hi
    obtain ⟨h1, h2, -⟩ := codeAt_inv hi
    have hl : (tailCall ++ code).length = code.length + 2 := by rw [List.length_append]; exact Nat.add_comm 2 _
    unfold programFetch
    rw [if_neg (by rw [BitVec.toNat_add]; simp only [BitVec.toNat_ofNat]; omega), BitVec.add_sub_cancel]
    exact hi
  obtain ⟨s1, q1, q2, q3, -⟩ := C56_isa (programFetch gp sp code) (startState bytes) gp sp 36#32 rfl
    (show (0#32).toInt ≤ 0 by decide) hboot (by decide) (by decide)
  have q1 : Runs (programFetch gp sp code) Alike 7 (startState bytes) s1 :=
    q1.mono (fun _ _ h => h) fun i s ⟨hh, _⟩ => ⟨harmless_supported hh, harmless_window hh _ _, fun ⟨t, ht, hm⟩ => hm (hh.2.1 t ht)⟩
  obtain ⟨t, h1, h2⟩ := tail_runs hc hlen (E := 36#32) (by decide) hcode q2 (by rw [q3]; exact h)
  refine ⟨t, h1, fun n hn => ?_⟩
  obtain ⟨m, rfl⟩ : ∃ m, n = 7 + m := ⟨n - 7, by omega⟩
  exact runs_append q1 (h2 m (by omega))

/-! ### The market maker, linked -/

/-- The sections: those of the runtime, with `_start_rust` of eight bytes, the function `main`, and the two tapes. -/
def ammSecs : List SymSec :=
  runtimeSecs 8 ++ [⟨".text.main", ⟨236, 4⟩, ["main"], ["INPUT", "OUTPUT"]⟩, ⟨".inpdata", ⟨24, 1⟩, ["INPUT"], []⟩,
    ⟨".outdata", ⟨16, 1⟩, ["OUTPUT"], []⟩]

/-- As the linker lays them out. -/
def ammLayout : Layout :=
  { text := ⟨0, 280⟩, inp := ⟨0x40000, 24⟩, out := ⟨0x40018, 16⟩, rodata := ⟨0x40028, 0⟩, data := ⟨0x40028, 0⟩, bss := ⟨0x40028, 0⟩
    stackStart := 0x41000, gp := 0x40828, fin := 0x40028 }

/-- The words of the text section: the start-up code with the symbols of the layout, `_start_rust`, `main`. -/
def ammText : List Word := programWords (BitVec.ofNat 32 ammLayout.gp) (BitVec.ofNat 32 ammLayout.stackStart) amm

/-- The contents. -/
def ammContents : ElfFile.Contents :=
  { text := wordBytes ammText, inp := List.replicate 24 0#8, out := List.replicate 16 0#8, rodata := [], data := [] }

/-- The linker: every symbol is found, `_start` is at 0, `_start_rust` at 36, `main` at 44, the tapes at the start of the RAM. -/
theorem amm_links : ((resolve true ammSecs).bind (placements true)) =
    some (ammLayout, [(0, 0), (1, 36), (3, 44), (4, 0x40000), (5, 0x40018)]) := by decide +kernel

/-- The input sections by their place. -/
def ammGuest : Guest := ⟨[⟨36, 4⟩], [⟨8, 4⟩], [⟨236, 4⟩], [⟨24, 1⟩], [⟨16, 1⟩], [], [], [], []⟩

theorem amm_guest : ((resolve true ammSecs).bind (select true)) = some ammGuest ∧ link ammGuest = some ammLayout ∧
    Guest.Valid ammGuest := by
  refine ⟨by decide +kernel, by decide +kernel, ?_⟩
  unfold Guest.Valid Piece.Valid
  decide +kernel

theorem amm_contents : ammContents.Of ammLayout := ⟨by decide +kernel, by decide +kernel⟩

/-- What a loader must make of the program: the code as ROM, an empty RAM with both tapes in it. -/
structure AmmLoaded (p : Phantom) : Prop where
  rom : p.bootRom.data = wordBytes ammText
  base : p.bootRam.offset = ramBase
  ram : p.bootRam.data = List.replicate 4096 0#8
  input : p.input = ⟨0x40000, 24⟩
  output : p.output = ⟨0x40018, 16⟩

theorem amm_loaded {p : Phantom} (h1 : p.bootRom.data = ammContents.text) (h2 : p.bootRam.offset = 0x40000)
    (h3 : p.bootRam.data.length = 4096) (h4 : p.input = ⟨ammLayout.inp.addr, ammLayout.inp.size⟩)
    (h5 : p.output = ⟨ammLayout.out.addr, ammLayout.out.size⟩)
    (h6 : ∀ x ∈ ammContents.ram ammLayout, ∀ k, k < x.1.size → p.bootRam.data[x.1.addr + k - 0x40000]? = x.2[k]?)
    (h7 : ∀ a, 0x40000 ≤ a → a < 0x41000 → (∀ x ∈ ammContents.ram ammLayout, ¬ x.1.has a) → p.bootRam.data[a - 0x40000]? = some 0#8) :
    AmmLoaded p := by
  refine ⟨h1, h2, ?_, h4, h5⟩
  apply List.ext_getElem?
  intro k
  rw [List.getElem?_replicate]
  split
  · next hk =>
    by_cases a : k < 24
    · have := h6 (⟨0x40000, 24⟩, List.replicate 24 0#8) (by simp [ElfFile.Contents.ram, ammLayout, ammContents]) k a
      rwa [Nat.add_sub_cancel_left, List.getElem?_replicate, if_pos a] at this
    · by_cases b : k < 40
      · have := h6 (⟨0x40018, 16⟩, List.replicate 16 0#8) (by simp [ElfFile.Contents.ram, ammLayout, ammContents]) (k - 24)
          (show k - 24 < 16 by omega)
        rwa [show 0x40018 + (k - 24) - 0x40000 = k by omega, List.getElem?_replicate, if_pos (by omega)] at this
      · have := h7 (0x40000 + k) (by omega) (by omega) (fun x hx => ?_)
        · rwa [Nat.add_sub_cancel_left] at this
        · simp only [ElfFile.Contents.ram, ammLayout, ammContents, List.mem_cons, List.not_mem_nil, or_false] at hx
          rcases hx with rfl | rfl | rfl | rfl <;> simp only [Sect.has] <;> omega
  · exact List.getElem?_eq_none_iff.mpr (by omega)

/-- Both VMs, on such an image: the tape of the source without overflow checks, and zeros where it panics. -/
theorem C89_both (F : Fhe) (rand : Nat → Nat → Nat → F.C.Rand) (chk dbg phantomDebug : Bool) (threads n : Nat) (ht : 0 < threads)
    (hn : 657 ≤ n) (hn' : n < 2 ^ 32) (e : Elf) (p : Phantom) (hfile : e.bytes.length < 2 ^ 63) (hp : Phantom.fromElf e = some p)
    (hl : AmmLoaded p) (tape : List Byte) (hlen : tape.length = 24) :
    (∃ vm0 vm1 vm2, p.testVm chk n = some vm0 ∧ vm0.readInputTape chk tape = some vm1 ∧ vm1.execute chk = some vm2 ∧
      vm2.outputTape chk = some ((Guest.swapMain false tape).getD (List.replicate 16 0#8))) ∧
    ∃ ev ev2, p.encryptedVm F.C rand dbg phantomDebug threads tape n = some ev ∧
      ev.execute F.C F.decU F.decP = some ev2 ∧
      ev2.outputTape F.C chk = some ((Guest.swapMain false tape).getD (List.replicate 16 0#8)) := by
  obtain ⟨s', hm, hr⟩ := program_runs (gp := BitVec.ofNat 32 ammLayout.gp) (sp := BitVec.ofNat 32 ammLayout.stackStart) (code := amm)
    (by decide) (by decide) (ammRam tape) 648 _ fun x => amm_run x _
  have l : ∀ o, o + 4 ≤ 24 → ammWord (startState (ammRam tape)).mem o = Guest.getWord tape o := fun o ho =>
    word_at _ tape o (by omega) (by omega)
  rw [l 0 (by decide), l 4 (by decide), l 8 (by decide), l 16 (by decide), l 20 (by decide),
    bool_at _ tape 12 (by omega) (by omega)] at hm
  have hin : Placed p.bootRam.data (p.input.startAddr - ramBase) tape (ammRam tape) := by
    rw [hl.ram, hl.input]
    exact asm_placed (List.replicate 40 0#8) tape (by rw [hlen]; decide)
  have := C88_words F rand chk dbg phantomDebug threads n e p ammText _ tape (ammRam tape) s' ht hn' hfile hp hl.base hl.rom
    (by decide +kernel) (programFetch_word (by decide) (by decide)) (by cases dbg <;> decide +kernel) (by rw [hl.input]; exact hlen) hin
    (by rw [hl.input]; decide) (by rw [hl.input]; decide) (by rw [hl.output]; decide) (by rw [hl.output]; decide) (hr n (by omega))
  have o1 : p.output.startAddr - ramBase = 24 := by rw [hl.output]; decide
  have o2 : p.output.size = 16 := by rw [hl.output]
  rw [o1, o2, amm_tape tape hlen s' _ hm] at this
  exact this

/-! ### From the object files to the host -/

/-- The kinds of its sections: both tapes are variables. -/
def ammKinds : Kinds := ⟨some true, some true, none, none⟩

example : Kinds.Of ammKinds ammGuest := ⟨by decide, by decide, by decide, by decide⟩

/-- The file lld writes for the program is loaded as it should be. -/
theorem C89_lld (e : Elf) (h : LldFile e ammLayout ammKinds ammContents) : ∃ p, Phantom.fromElf e = some p ∧ AmmLoaded p := by
  obtain ⟨p, hp, h1, h2, h3, h4, h5, h6, h7⟩ := C82_loads amm_guest.2.2 amm_guest.2.1 amm_contents h (by decide) (by decide) (by decide)
    ⟨ammLayout.inp, by decide, by decide⟩
  exact ⟨p, hp, amm_loaded h1 h2 h3 h4 h5 h6 h7⟩

/-- And so are the bytes of a file with a segment for each section. -/
theorem C89_bytes : ∃ e p, ElfBytes.parse (ElfFile.guestFile ammLayout ammContents).write = some e ∧ Phantom.fromElf e = some p ∧
    e.bytes = (ElfFile.guestFile ammLayout ammContents).write ∧ AmmLoaded p := by
  obtain ⟨e, p, h0, -, hp, h1, h2, h3, h4, h5, h6, h7⟩ := C73_guest amm_guest.2.2 amm_guest.2.1 ammContents amm_contents
    ⟨ammLayout.inp, by decide, by decide⟩
  have hb : e.bytes = (ElfFile.guestFile ammLayout ammContents).write := by
    rw [C73_written _ (guest_fits amm_guest.2.2 amm_guest.2.1 ammContents amm_contents)] at h0
    rw [← Option.some.inj h0]
  have hp' : Phantom.fromElf e = some p := by
    unfold ElfBytes.fromBytes at hp
    rwa [h0] at hp
  exact ⟨e, p, h0, hp', hb, amm_loaded h1 h2 h3 h4 h5 h6 h7⟩

/-- The host of uniswap on such an image. -/
theorem amm_host (F : Fhe) (rand : Nat → Nat → Nat → F.C.Rand) (utf8 : List Byte → Bool) (env : Host.Env) (cpus : Nat)
    (chk dbg : Bool) (hn : 657 ≤ Host.maxCycles utf8 env 300) (hn' : Host.maxCycles utf8 env 300 < 2 ^ 32)
    (ht : 0 < Host.threads utf8 env cpus) (pad : List Byte) (hpad : pad.length = 3) (e : Elf) (p : Phantom)
    (hfile : e.bytes.length < 2 ^ 63) (hp : Phantom.fromElf e = some p) (hl : AmmLoaded p)
    (pool : Guest.Pool) (trade : Guest.Trade) (account : Guest.Account) :
    Host.swapHost F.C rand F.decU F.decP utf8 env cpus chk dbg pad p pool trade account = Guest.swap chk pool trade account := by
  have hlen : (Guest.swapInput pool trade account pad).length = 24 := by
    unfold Guest.swapInput
    simp [hpad, Guest.putWord]
  obtain ⟨⟨vm0, vm1, vm2, a1, a2, a3, a4⟩, ev, ev2, b1, b2, b3⟩ := C89_both F rand chk dbg (Host.flag utf8 env "PHANTOM_DEBUG")
    (Host.threads utf8 env cpus) _ ht hn hn' e p hfile hp hl _ hlen
  exact swapHost_of F rand utf8 env cpus chk dbg pad hpad p pool trade account
    ((C74_equal _ _ _ _ _ _ _ _ _ _ _ _).mpr ⟨⟨ev, ev2, b1, b2, b3⟩, vm0, vm1, vm2, a1, a2, a3, a4⟩)

/-- From the sections of the object files to the assertions of the host: they link, with `_start` at 0, `_start_rust` behind
it and `main` behind that; the file lld writes for the result is loaded; and the host, run on it, gets through exactly for the
trades the guest accepts, and then with the pool and the account after the trade. -/
theorem C89_host (F : Fhe) (rand : Nat → Nat → Nat → F.C.Rand) (utf8 : List Byte → Bool) (env : Host.Env) (cpus : Nat)
    (chk dbg : Bool) (hn : 657 ≤ Host.maxCycles utf8 env 300) (hn' : Host.maxCycles utf8 env 300 < 2 ^ 32)
    (ht : 0 < Host.threads utf8 env cpus) (pad : List Byte) (hpad : pad.length = 3) :
    ∃ (l : Layout) (pl : List (Nat × Nat)), ((resolve true ammSecs).bind (placements true)) = some (l, pl) ∧
      (0, 0) ∈ pl ∧ (1, 36) ∈ pl ∧ (3, 44) ∈ pl ∧ ammContents.Of l ∧
      ammContents.text = wordBytes (bootWords (BitVec.ofNat 32 l.gp) (BitVec.ofNat 32 l.stackStart) 36#32 ++
        (tailCall ++ amm).map encode) ∧
      ∀ e, LldFile e l ammKinds ammContents → e.bytes.length < 2 ^ 63 → ∃ p, Phantom.fromElf e = some p ∧
        ∀ pool trade account, Host.swapHost F.C rand F.decU F.decP utf8 env cpus chk dbg pad p pool trade account =
          Guest.swap chk pool trade account := by
  refine ⟨_, _, amm_links, by decide, by decide, by decide, amm_contents, rfl, fun e he hf => ?_⟩
  obtain ⟨p, hp, hl⟩ := C89_lld e he
  exact ⟨p, hp, amm_host F rand utf8 env cpus chk dbg hn hn' ht pad hpad e p hf hp hl⟩

/-- The same for the bytes of a file that need not be lld's: one load segment for each section. -/
theorem C89_file (F : Fhe) (rand : Nat → Nat → Nat → F.C.Rand) (utf8 : List Byte → Bool) (env : Host.Env) (cpus : Nat)
    (chk dbg : Bool) (hn : 657 ≤ Host.maxCycles utf8 env 300) (hn' : Host.maxCycles utf8 env 300 < 2 ^ 32)
    (ht : 0 < Host.threads utf8 env cpus) (pad : List Byte) (hpad : pad.length = 3) :
    ∃ p, ElfBytes.fromBytes (ElfFile.guestFile ammLayout ammContents).write = some p ∧
      ∀ pool trade account, Host.swapHost F.C rand F.decU F.decP utf8 env cpus chk dbg pad p pool trade account =
        Guest.swap chk pool trade account := by
  obtain ⟨e, p, h0, hp, hb, hl⟩ := C89_bytes
  have hf := (guest_fits amm_guest.2.2 amm_guest.2.1 ammContents amm_contents).total
  refine ⟨p, ?_, amm_host F rand utf8 env cpus chk dbg hn hn' ht pad hpad e p (by rw [hb]; omega) hp hl⟩
  unfold ElfBytes.fromBytes
  rw [h0]
  exact hp

/-- There is a file lld could have written; `MAX_CYCLES=700`, the numbers of the source. -/
example (chk dbg : Bool) : ∃ p, Phantom.fromElf (lldElf ammLayout ammKinds ammContents) = some p ∧
    Host.swapHost sampleFhe.C (fun _ _ _ => ()) sampleFhe.decU sampleFhe.decP (fun _ => true)
      (fun s => if s = "MAX_CYCLES" then some [0x37#8, 0x30#8, 0x30#8] else none) 4 chk dbg [1#8, 2#8, 3#8] p
      Host.swapPool Host.swapTrade Host.swapAccount = some (⟨150#32, 333#32⟩, ⟨10#32, 167#32⟩) := by
  obtain ⟨l, pl, h1, -, -, -, -, -, h⟩ := C89_host sampleFhe (fun _ _ _ => ()) (fun _ => true)
    (fun s => if s = "MAX_CYCLES" then some [0x37#8, 0x30#8, 0x30#8] else none) 4 chk dbg (by decide) (by decide) (by decide)
    [1#8, 2#8, 3#8] rfl
  cases Option.some.inj (amm_links.symm.trans h1)
  obtain ⟨p, hp, hs⟩ := h _ (lldElf_is _ _ _) (by decide +kernel)
  exact ⟨p, hp, (hs _ _ _).trans (by cases chk <;> decide +kernel)⟩

/-- And one with the sections as bytes. -/
example := C89_file sampleFhe (fun _ _ _ => ()) (fun _ => true)
  (fun s => if s = "MAX_CYCLES" then some [0x37#8, 0x30#8, 0x30#8] else none) 4 true true (by decide) (by decide) (by decide)
  [1#8, 2#8, 3#8] rfl

end Verif.Props
