import Verif.Model.Interp
/-
  Model of fhevm/src/debug.rs (`InterpreterDebug`), the plaintext mirror of the interpreter, and of
  `cycle_debug` (interpreter.rs:452-485 and the `if let (Some(sk), Some(vm_debug))` blocks), which
  runs both and compares.  `none` = panic.
-/
namespace Verif.Model

/-- `InterpreterDebug`, debug.rs:5-31.  The seven `*_rom` vectors have the same length and are
always written together. -/
structure Debug where
  pc : U32
  rom : List Decoded
  registers : List U32
  ram : List U32
  ramAddr : U32
  ins : Decoded
  rs1Val : U32
  rs2Val : U32
  ramVal : U32
  rdVal : U32
  deriving DecidableEq

/-- `InterpreterDebug::new`, debug.rs:34-61. -/
def Debug.new (romSize ramSize : Nat) : Debug where
  pc := 0#32
  rom := List.replicate romSize Decoded.zero
  registers := List.replicate 32 0#32
  ram := List.replicate ramSize 0#32
  ramAddr := 0#32
  ins := Decoded.zero
  rs1Val := 0#32
  rs2Val := 0#32
  ramVal := 0#32
  rdVal := 0#32

/-- `set_instructions`, debug.rs:63-76. -/
def Debug.setInstructions (dbg : Bool) (d : Debug) (p : Parser) : Option Debug :=
  if d.rom.length = p.instructions.length then
    (decodeProgram dbg p).map fun ds => { d with rom := ds }
  else none

/-- `set_ram`, debug.rs:78-81. -/
def Debug.setRam (d : Debug) (ram : List U32) : Option Debug :=
  if d.ram.length = ram.length then some { d with ram := ram } else none

/-- `read_instructions`, debug.rs:83-92. -/
def Debug.readInstructions (d : Debug) : Option Debug :=
  (d.rom[(d.pc >>> 2).toNat]?).map fun i => { d with ins := i }

/-- `read_registers`, debug.rs:94-97. -/
def Debug.readRegisters (d : Debug) : Option Debug :=
  (d.registers[d.ins.rs1.toNat]?).bind fun a =>
  (d.registers[d.ins.rs2.toNat]?).map fun b => { d with rs1Val := a, rs2Val := b }

/-- Index used in debug.rs:101 and 134: `(ram_addr >> 2) as usize % ram_size`; `ram_size` is the
length of `ram` (debug.rs:37, 47). -/
def Debug.ramIndex (d : Debug) : Nat := (d.ramAddr >>> 2).toNat % d.ram.length

/-- `read_ram`, debug.rs:99-102 (`% 0` panics, and so does indexing an empty vector). -/
def Debug.readRam (d : Debug) : Option Debug :=
  let d := { d with ramAddr := d.ins.imm + d.rs1Val - (1#32 <<< 18) }
  (d.ram[d.ramIndex]?).map fun v => { d with ramVal := v }

/-- A hash map filled by inserting in order: the last value inserted for a key wins. -/
def mapGet (m : List (U32 × U32)) (k : U32) : Option U32 :=
  (m.reverse.find? fun p => p.1 == k).map Prod.snd

/-- `update_registers`, debug.rs:104-121. -/
def Debug.updateRegisters (d : Debug) (ops : List RdUpdate) : Option Debug :=
  (collect (ops.map fun op =>
    (op.evalPlain d.ins.imm d.rs1Val d.rs2Val d.pc d.ramVal).map fun v => (op.id, v))).bind fun m =>
  (mapGet m d.ins.rdu).bind fun v =>
  if d.ins.rd.toNat < d.registers.length ∧ 0 < d.registers.length then
    some { d with rdVal := v, registers := (d.registers.set d.ins.rd.toNat v).set 0 0#32 }
  else none

/-- `update_ram`, debug.rs:123-135. -/
def Debug.updateRam (d : Debug) : Option Debug :=
  (mapGet (ramUpdateOpList.map fun op =>
    (op.id, op.evalPlain d.rs2Val d.ramVal (d.ramAddr &&& 3#32))) d.ins.mu).bind fun v =>
  if d.ramIndex < d.ram.length then
    some { d with ramVal := v, ram := d.ram.set d.ramIndex v }
  else none

/-- `update_pc`, debug.rs:137-149. -/
def Debug.updatePc (d : Debug) : Option Debug :=
  (mapGet (pcUpdateOpList.map fun op =>
    (op.id, op.evalPlain d.ins.imm d.rs1Val d.rs2Val d.pc)) d.ins.pcu).map fun v =>
    { d with pc := v }

/-- The calls made on the mirror during one `cycle_debug`, in order (interpreter.rs:778, 961, 1058,
1203, 1348, 1417). -/
def Debug.step (d : Debug) : Option Debug :=
  d.readInstructions.bind fun d =>
  d.readRegisters.bind fun d =>
  d.readRam.bind fun d =>
  (d.updateRegisters rdUpdateRv32iOpList).bind fun d =>
  d.updateRam.bind fun d =>
  d.updatePc

/-- `n` cycles of the mirror. -/
def Debug.run : Nat → Debug → Option Debug
  | 0, d => some d
  | n + 1, d => d.step.bind (Debug.run n)

/-- What `cycle_debug` compares, interpreter.rs:777-888, 960-983, 1057-1089, 1202-1240, 1347-1375,
1416-1429: every component of the encrypted cycle decrypts to the mirror's value.  `d0` is the
mirror before the cycle, `d1` after `read_ram`, `d2` after the cycle.  The order of the assertions
does not matter (all failures panic). -/
def assertions (decU : B.Uint → U32) (decP : B.Prep → U32) (C : Cipher B) (ramSize : Nat)
    (d0 d1 d2 : Debug) (t : Trace B) : Bool :=
  decP t.f.pcP = d0.pc ∧ decU t.f.imm = d2.ins.imm ∧ decU t.f.rs1 = d2.ins.rs1 ∧
  decU t.f.rs2 = d2.ins.rs2 ∧ decU t.f.rd = d2.ins.rd ∧ decU t.f.rdu = d2.ins.rdu ∧
  decU t.f.mu = d2.ins.mu ∧ decU t.f.pcu = d2.ins.pcu ∧
  decU t.s.rs1 = d2.rs1Val ∧ decU t.s.rs2 = d2.rs2Val ∧
  decU t.q.addr = d2.ramAddr ∧ decU t.q.val = d1.ramVal ∧
  decU t.rdVal = d2.rdVal ∧
  t.registers.decrypt C (List.replicate 32 0#32) = some d2.registers ∧
  decU t.ramVal = d2.ramVal ∧
  t.ram.decrypt C (List.replicate ramSize 0#32) = some d2.ram ∧
  decU t.pc = d2.pc

/-- The mirror just after `read_ram`. -/
def Debug.loaded (d : Debug) : Option Debug :=
  d.readInstructions.bind fun d => d.readRegisters.bind fun d => d.readRam

/-- `cycle_debug` on an interpreter that has a mirror. -/
def cycleDebug {B : Backend} (decU : B.Uint → U32) (decP : B.Prep → U32) (C : Cipher B)
    (vm : Interp B) (d : Debug) : Option (Interp B × Debug) :=
  vm.trace.bind fun t =>
  d.loaded.bind fun d1 =>
  d.step.bind fun d2 =>
  if assertions decU decP C vm.ramSize d d1 d2 t then some (vm.next t, d2) else none

end Verif.Model
