import Verif.Spec.Interpreter
/-
  Specification: the instruction set that the test VM implements, also outside its RAM, and which
  instructions the VMs do alike, wherever the accesses go.
-/
namespace Verif.Spec

/-- The byte of a RAM of `size` bytes at `base` that the test VM accesses for address `a`: addresses
repeat with period `size`, below the RAM after wrapping around 2^64. -/
def ramByte (base size : Nat) (a : Word) : Word :=
  BitVec.ofNat 32 (base + (if base ≤ a.toNat then a.toNat - base else 2 ^ 64 + a.toNat - base) % size)

/-- Bytes written one after the other, each where `pos` says. -/
def storeEach (pos : Word → Word) (mem : Word → Byte) (a v : Word) : Nat → Word → Byte
  | 0 => mem
  | n + 1 => fun b =>
    if b = pos (a + BitVec.ofNat 32 n) then v.extractLsb' (8 * n) 8 else storeEach pos mem a v n b

/-- The test VM: as in the manual, with every byte of an access where `ramByte` says. -/
def execTest (base size : Nat) (i : Instr) (s : Arch) : Arch :=
  match i with
  | .load o rd rs1 imm =>
    (s.setX rd (o.eval (fun b => s.mem (ramByte base size b)) (s.x rs1 + immI imm))).next
  | .store o rs1 rs2 imm =>
    { s with mem := storeEach (ramByte base size) s.mem (s.x rs1 + immI imm) (s.x rs2) o.size }.next
  | i => exec i s

/-- What agreement with the mirror needs: a supported instruction and, if the size of the RAM does not
divide 2^32, no access below the RAM. -/
def mirrorOk (size : Nat) (i : Instr) (s : Arch) : Prop :=
  i.supported s ∧ ∀ a n, i.access s = some (a, n) → ramBase ≤ a.toNat ∨ size ∣ 2 ^ 32

/-- What agreement with the encrypted VM needs, with a RAM of `size` bytes: a supported instruction; a
signed byte load meets a byte below 128, and JAL distances are signed 20-bit numbers. -/
def encOk (size : Nat) (i : Instr) (s : Arch) : Prop :=
  i.supported s ∧
  match i with
  | .load .lb _ rs1 imm => (s.mem (ramByte ramBase size (s.x rs1 + immI imm))).toNat < 128
  | .jal _ imm => -2 ^ 18 ≤ imm.toInt ∧ imm.toInt < 2 ^ 18
  | _ => True

end Verif.Spec
