import Verif.Spec.MirrorState
/-
  Specification: the instruction set that the interpreter actually implements, as a variation of the
  manual's.  It is total: it says what happens for every RV32I instruction in every state.
-/
namespace Verif.Spec

/-- Start of the RAM word that an access at address `a` goes to, in a RAM of `words` words: addresses wrap
around at the end of the RAM. -/
def ramWord (words : Nat) (a : Word) : Word :=
  BitVec.ofNat 32 (ramBase + 4 * ((a - 0x40000#32).toNat / 4 % words))

/-- Effect of a store to offset `off` of the word at `w`: a byte goes where it belongs, a half word too if the
offset is even, and otherwise the word is cleared; a word is stored at offset 0. -/
def wordStore (o : StoreOp) (mem : Word → Byte) (w : Word) (off : Nat) (v : Word) : Word → Byte :=
  match o with
  | .sb => storeBytes mem (w + BitVec.ofNat 32 off) v 1
  | .sh => if off % 2 = 0 then storeBytes mem (w + BitVec.ofNat 32 off) v 2 else storeBytes mem w 0#32 4
  | .sw => storeBytes mem w v 4

/-- The mirror: as in the manual, except that loads are done at the start of the RAM word. -/
def execMirror (words : Nat) (i : Instr) (s : Arch) : Arch :=
  match i with
  | .load o rd rs1 imm => (s.setX rd (o.eval s.mem (ramWord words (s.x rs1 + immI imm)))).next
  | .store o rs1 rs2 imm =>
    { s with mem := wordStore o s.mem (ramWord words (s.x rs1 + immI imm))
                      ((s.x rs1 + immI imm).toNat % 4) (s.x rs2) }.next
  | i => exec i s

/-- The encrypted VM: signed byte loads are not sign-extended, and only 20 bits of a jump distance count. -/
def execEnc (words : Nat) (i : Instr) (s : Arch) : Arch :=
  match i with
  | .load .lb rd rs1 imm => (s.setX rd (LoadOp.eval .lbu s.mem (ramWord words (s.x rs1 + immI imm)))).next
  | .jal rd imm => { s.setX rd (s.pc + 4#32) with pc := s.pc + ((immJ imm).setWidth 20).signExtend 32 }
  | i => execMirror words i s

/-- The encrypted VM reduces the program counter modulo the size of the program memory. -/
def Arch.wrapPc (bits : Nat) (s : Arch) : Arch := { s with pc := BitVec.ofNat 32 (s.pc.toNat % 2 ^ bits) }

/-- RV32I, as opposed to RV32M. -/
def Instr.isBase : Instr → Prop
  | .mul .. => False
  | _ => True

/-- Executing `n` instructions with a given effect of each. -/
inductive RunsWith (fetch : Word → Option Instr) (step : Instr → Arch → Arch) : Nat → Arch → Arch → Prop
  | zero (s : Arch) : RunsWith fetch step 0 s s
  | succ {n : Nat} {i : Instr} {s s' : Arch} (hf : fetch s.pc = some i)
      (hr : RunsWith fetch step n (step i s) s') : RunsWith fetch step (n + 1) s s'

end Verif.Spec
