import Verif.Model.Interp
/-
  The clock readings of a cycle: fhevm/src/measurements.rs and the calls of `measure_duration` in
  fhevm/src/interpreter.rs.

  `Instant::now()` is the next reading of a clock given from outside, in nanoseconds; how long the work between
  two readings takes is thus left open.  `duration_since` and `elapsed` saturate at zero, as in Rust since 1.60.
  Simplifications: no noise values (the f64 fields of `Measurement`, which only `cycle_debug` sets); printing is
  reduced to the lookup it makes.
-/
namespace Verif.Model

/-- Code that reads the clock: result (or panic) and number of readings made so far. -/
def Timed (α : Type) : Type := (clock : Nat → Nat) → (made : Nat) → Option (α × Nat)

instance : Monad Timed where
  pure a := fun _ k => some (a, k)
  bind m f := fun c k => (m c k).bind fun x => f x.1 c x.2

/-- Code that does not read the clock. -/
def Timed.work {α : Type} (o : Option α) : Timed α := fun _ k => o.map fun a => (a, k)

/-- `Instant::now`. -/
def Timed.now : Timed Nat := fun c k => some (c k, k + 1)

/-- `measure_duration`, measurements.rs:390-397. -/
def measureDuration {α : Type} (op : Timed α) : Timed (α × Nat) := do
  let start ← Timed.now
  let a ← op
  let stop ← Timed.now
  pure (a, stop - start)

/-- `Measurement`, measurements.rs:291-338; nanoseconds. -/
structure Measurement where
  total : Nat
  preparePc : Nat
  rom : Nat
  readRom : Nat
  prepareRom : Nat
  registers : Nat
  readRegisters : Nat
  prepareRegisters : Nat
  readRam : Nat
  deriveAddr : Nat
  prepareAddr : Nat
  readStatefull : Nat
  updateRegisters : Nat
  evaluateRd : Nat
  selectRd : Nat
  refreshRd : Nat
  writeRd : Nat
  updateRam : Nat
  evaluateRam : Nat
  selectRam : Nat
  refreshRam : Nat
  writeRam : Nat
  updatePc : Nat
deriving DecidableEq, Repr

/-- `Measurement::new`, measurements.rs:341-387. -/
def Measurement.new : Measurement := ⟨0, 0, 0, 0, 0, 0, 0, 0, 0, 0, 0, 0, 0, 0, 0, 0, 0, 0, 0, 0, 0, 0, 0⟩

variable {B : Backend}

/-- `read_and_prepare_instruction_components`, interpreter.rs:661-775. -/
def Interp.timedFetch (vm : Interp B) (pcP : B.Prep) (m : Measurement) : Timed (Fetch B × Measurement) := do
  let ((u, p), rom) ← measureDuration do
    let (u, readRom) ← measureDuration do
      let imm ← .work (vm.immRom.readStateless vm.threads pcP 2)
      let rdu ← .work (vm.rduRom.readStateless vm.threads pcP 2)
      let mu ← .work (vm.muRom.readStateless vm.threads pcP 2)
      let pcu ← .work (vm.pcuRom.readStateless vm.threads pcP 2)
      let rs1 ← .work (vm.rs1Rom.readStateless vm.threads pcP 2)
      let rs2 ← .work (vm.rs2Rom.readStateless vm.threads pcP 2)
      let rd ← .work (vm.rdRom.readStateless vm.threads pcP 2)
      pure [rdu, mu, pcu, imm, rs1, rs2, rd]
    let (ps, prepareRom) ← measureDuration
      (.work (prepareMultiple B vm.threads u
        [bitsFor rdUpdateRv32iOpList.length, bitsFor ramUpdateOpList.length, 4, 32, 5, 5, 5]))
    pure ((u, readRom), (ps, prepareRom))
  pure (
    { pcP := pcP, imm := u.1.getD 3 B.uzero, rdu := u.1.getD 0 B.uzero
      mu := u.1.getD 1 B.uzero, pcu := u.1.getD 2 B.uzero
      rs1 := u.1.getD 4 B.uzero, rs2 := u.1.getD 5 B.uzero, rd := u.1.getD 6 B.uzero
      rduP := p.1.getD 0 B.pzero, muP := p.1.getD 1 B.pzero, pcuP := p.1.getD 2 B.pzero
      immP := p.1.getD 3 B.pzero, rs1P := p.1.getD 4 B.pzero, rs2P := p.1.getD 5 B.pzero
      rdP := p.1.getD 6 B.pzero },
    { m with rom := rom, readRom := u.2, prepareRom := p.2 })

/-- `read_and_prepare_registers`, interpreter.rs:922-958. -/
def Interp.timedRegisters (vm : Interp B) (f : Fetch B) (m : Measurement) : Timed (Sources B × Measurement) := do
  let ((u, p), registers) ← measureDuration do
    let u ← measureDuration do
      let rs1 ← .work (vm.registers.readStateless vm.threads f.rs1P 0)
      let rs2 ← .work (vm.registers.readStateless vm.threads f.rs2P 0)
      pure (rs1, rs2)
    let p ← measureDuration (.work (prepareMultiple B vm.threads [u.1.1, u.1.2] [32, 32]))
    pure (u, p)
  pure (
    { rs1 := u.1.1, rs2 := u.1.2, rs1P := p.1.getD 0 B.pzero, rs2P := p.1.getD 1 B.pzero },
    { m with registers := registers, readRegisters := u.2, prepareRegisters := p.2 })

/-- `read_ram`, interpreter.rs:1017-1055. -/
def Interp.timedRam (vm : Interp B) (f : Fetch B) (s : Sources B) (m : Measurement) :
    Timed (RamRead B × Measurement) := do
  let ((addr, addrP, x), readRam) ← measureDuration do
    let addr ← measureDuration (.work (ramOffset B f.immP s.rs1P))
    let addrP ← measureDuration (pure (B.prepareCustom addr.1 0 (vm.ramBits + 2)))
    let x ← measureDuration (.work (vm.ram.readStatefull vm.threads addrP.1 2))
    pure (addr, addrP, x)
  pure (
    { addr := addr.1, addrP := addrP.1, val := x.1.2, ram := x.1.1 },
    { m with readRam := readRam, deriveAddr := addr.2, prepareAddr := addrP.2, readStatefull := x.2 })

/-- `update_registers`, interpreter.rs:1129-1200. -/
def Interp.timedUpdateRegisters (vm : Interp B) (ops : List RdUpdate) (f : Fetch B) (s : Sources B) (ramVal : B.Uint)
    (m : Measurement) : Timed ((B.Uint × Memory B) × Measurement) := do
  let ((rdMap, sel, rd, regs), updateRegisters) ← measureDuration do
    let rdMap ← measureDuration (.work (rdMap B ops s.rs1P s.rs2P f.immP f.pcP ramVal))
    let sel ← measureDuration (pure (B.select rdMap.1 f.rduP 0 (bitsFor ops.length)))
    let rd ← measureDuration (pure (refresh B sel.1))
    let regs ← measureDuration do
      let regs ← .work (vm.registers.write vm.threads rd.1 f.rdP 0)
      .work (regs.zero vm.threads 0)
    pure (rdMap, sel, rd, regs)
  pure ((rd.1, regs.1),
    { m with updateRegisters := updateRegisters, evaluateRd := rdMap.2, selectRd := sel.2, refreshRd := rd.2
             writeRd := regs.2 })

/-- `update_ram`, interpreter.rs:1275-1345. -/
def Interp.timedUpdateRam (vm : Interp B) (f : Fetch B) (s : Sources B) (q : RamRead B) (m : Measurement) :
    Timed ((B.Uint × Memory B) × Measurement) := do
  let ((map, sel, val, ram), updateRam) ← measureDuration do
    let map ← measureDuration (pure (ramUpdateOpList.map fun op =>
      (op.id.toNat, RamUpdate.evalEnc B op s.rs2 q.val q.addrP)))
    let sel ← measureDuration (pure (B.select map.1 f.muP 0 (bitsFor ramUpdateOpList.length)))
    let val ← measureDuration (pure (refresh B sel.1))
    let ram ← measureDuration (.work (q.ram.readStatefullRev vm.threads val.1 q.addrP 2))
    pure (map, sel, val, ram)
  pure ((val.1, ram.1),
    { m with updateRam := updateRam, evaluateRam := map.2, selectRam := sel.2, refreshRam := val.2
             writeRam := ram.2 })

/-- `update_pc`, interpreter.rs:1401-1414. -/
def timedUpdatePc (f : Fetch B) (s : Sources B) (m : Measurement) : Timed (B.Uint × Measurement) := do
  let (pc, updatePc) ← measureDuration (.work (Model.updatePc B s.rs1P s.rs2P f.pcP f.immP f.pcuP))
  pure (pc, { m with updatePc := updatePc })

/-- `cycle_internal`, interpreter.rs:518-618, up to the total time. -/
def Interp.timedTrace (vm : Interp B) (verbose : Bool) : Timed (Trace B × Measurement) := do
  let m := Measurement.new
  let start ← Timed.now
  let (pcP, m) ←
    if vm.cycle ≠ 0#32 then do
      let start ← if verbose then some <$> Timed.now else pure none
      let pcP := B.prepareCustom vm.pc 0 (vm.romBits + 2)
      if verbose then do
        let stop ← Timed.now
        let start ← .work start
        pure (pcP, { m with preparePc := stop - start })
      else pure (pcP, m)
    else pure (vm.pcP, m)
  let (f, m) ← vm.timedFetch pcP m
  let (s, m) ← vm.timedRegisters f m
  let (q, m) ← vm.timedRam f s m
  let (rd, m) ← vm.timedUpdateRegisters rdUpdateRv32iOpList f s q.val m
  let (st, m) ← vm.timedUpdateRam f s q m
  let (pc, m) ← timedUpdatePc f s m
  let stop ← Timed.now
  pure ({ f := f, s := s, q := q, rdVal := rd.1, registers := rd.2, ramVal := st.1, ram := st.2, pc := pc },
    { m with total := stop - start })

variable (B) in
/-- The interpreter with its switch `verbose_timings` and its log (interpreter.rs:45-47), and what was printed. -/
structure TimedVm where
  vm : Interp B
  verbose : Bool
  log : List Measurement
  printed : List Measurement

/-- `cycle_internal` to its end, interpreter.rs:518-627: the measurement is logged, then `print_timings`
(interpreter.rs:1432-1434) looks up the entry numbered by the cycle counter. -/
def TimedVm.cycle (v : TimedVm B) : Timed (TimedVm B) := do
  let (t, m) ← v.vm.timedTrace v.verbose
  let log := v.log ++ [m]
  let printed ←
    if v.verbose then do
      let this ← .work (log[v.vm.cycle.toNat]?)
      pure (v.printed ++ [this])
    else pure v.printed
  pure { v with vm := v.vm.next t, log := log, printed := printed }

/-- Several cycles. -/
def TimedVm.run : Nat → TimedVm B → Timed (TimedVm B)
  | 0, v => pure v
  | n + 1, v => do TimedVm.run n (← v.cycle)

/-- Nanoseconds that a `Duration` can hold: 64 bits of seconds. -/
def durationEnd : Nat := 2 ^ 64 * 1000000000

/-- The averages of measurements.rs:20-258, all of the form `sum::<Duration>() / len() as u32`: the sum panics when it
exceeds the range of `Duration`, the division when the divisor is zero. -/
def average (field : Measurement → Nat) (log : List Measurement) : Option Nat :=
  let sum := (log.map field).foldl (· + ·) 0
  if sum < durationEnd then
    if log.length % 2 ^ 32 = 0 then none else some (sum / (log.length % 2 ^ 32))
  else none

end Verif.Model
