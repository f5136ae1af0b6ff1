import Verif.Model.Debug
/-
  Plaintext meaning of one encrypted cycle, exactly: what the encrypted interpreter computes, expressed
  on the mirror's state.  It differs from the mirror's own cycle in the places marked (1)-(4).
  `none`: not determined (program counter or RAM index beyond a memory whose size is not a power of
  two, or components which no decoded instruction has).
-/
namespace Verif.Spec
open Model

/-- (1) a byte load is never sign-extended -/
def cycleRd (o : RdUpdate) (imm rs1 rs2 pc ram : U32) : Option U32 :=
  if o = .LB then some (ram &&& 0xFF#32) else o.evalPlain imm rs1 rs2 pc ram

/-- (2) jump distances are 20-bit signed numbers -/
def cycleImm (imm : U32) : U32 := (imm.setWidth 20).signExtend 32

def cycle (d : Debug) : Option Debug :=
  -- (3) the program counter is reduced modulo the size of the program memory
  let pc := BitVec.ofNat 32 (d.pc.toNat % 2 ^ (bitsFor d.rom.length + 2))
  (d.rom[pc.toNat / 4]?).bind fun i =>
  (d.registers[i.rs1.toNat]?).bind fun a =>
  (d.registers[i.rs2.toNat]?).bind fun b =>
  let addr := i.imm + a - 0x40000#32
  -- (4) the RAM index is reduced modulo a power of two
  let idx := addr.toNat / 4 % 2 ^ bitsFor d.ram.length
  (d.ram[idx]?).bind fun v =>
  (rdUpdateRv32iOpList.find? fun o => o.id == i.rdu).bind fun o =>
  (ramUpdateOpList.find? fun o => o.id == i.mu).bind fun ro =>
  (pcUpdateOpList.find? fun o => o.id == i.pcu).bind fun po =>
  (cycleRd o i.imm a b pc v).bind fun r =>
  if i.rd.toNat < d.registers.length then
    some { pc := po.evalPlain (cycleImm i.imm) a b pc
           rom := d.rom
           registers := (d.registers.set i.rd.toNat r).set 0 0#32
           ram := d.ram.set idx (ro.evalPlain b v (addr &&& 3#32))
           ramAddr := addr
           ins := i
           rs1Val := a
           rs2Val := b
           ramVal := ro.evalPlain b v (addr &&& 3#32)
           rdVal := r }
  else none

/-- `n` cycles. -/
def cycles : Nat → Debug → Option Debug
  | 0, d => some d
  | n + 1, d => (cycle d).bind (cycles n)

end Verif.Spec
