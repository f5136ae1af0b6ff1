import Verif.Model.Bench
import Verif.Props.Host
import Verif.Props.Template
import Verif.Props.Oblivious
/-
  C75: the benchmark of one cycle.
-/
namespace Verif.Props
open Model Spec

/-- The program counter after `n` cycles over `m` instructions without jumps: it goes through all of them, and after the
last one it is the number of bytes of the program before it becomes 4 again. -/
def benchPc (m n : Nat) : Nat := if n = 0 then 0 else 4 * ((n - 1) % m + 1)

theorem system_entry (dbg : Bool) (ws : List U32) (hw : ∀ w ∈ ws, w.setWidth 7 = 0b1110011#7) (ds : List Decoded)
    (hds : ws.map (decodeWord dbg) = ds.map some) :
    ds = List.replicate ws.length ⟨0#32, 0#32, 0#32, 0#32, RdUpdate.NONE.id, RamUpdate.NONE.id, PcUpdate.NONE.id⟩ := by
  refine List.eq_replicate_iff.mpr ⟨by simpa using (congrArg List.length hds).symm, fun d hd => ?_⟩
  have : some d ∈ ws.map (decodeWord dbg) := by rw [hds]; exact List.mem_map.mpr ⟨d, hd, rfl⟩
  obtain ⟨w, hw', e⟩ := List.mem_map.mp this
  rw [C48_decode dbg w (hw w hw')] at e
  exact (Option.some.inj e).symm

theorem system_accepted (dbg : Bool) (ws : List U32) (hw : ∀ w ∈ ws, w.setWidth 7 = 0b1110011#7) (p : Parser) :
    ∃ q, p.addAll dbg ws = some q := by
  induction ws generalizing p with
  | nil => exact ⟨p, rfl⟩
  | cons w ws ih =>
    have h := (C06_parser_accepts dbg p w).mpr (.inr (.inr (.inr (by
      have := hw w (.head _)
      rw [← this]; ext i hi; simp))))
    obtain ⟨q, hq⟩ := Option.isSome_iff_exists.mp h
    obtain ⟨r, hr⟩ := ih (fun w' h' => hw w' (.tail _ h')) q
    exact ⟨r, by show (p.add dbg w).bind _ = _; rw [hq, Option.bind_some, hr]⟩

theorem benchPc_lt (m n : Nat) (hm : 0 < m) (h : 4 * m < 2 ^ 32) : benchPc m n < 2 ^ 32 := by
  unfold benchPc
  have := Nat.mod_lt (n - 1) hm
  split <;> omega

theorem benchPc_next (m n : Nat) : benchPc m (n + 1) = benchPc m n % (4 * m) + 4 := by
  unfold benchPc
  rw [if_neg (by omega), Nat.add_sub_cancel]
  cases n with
  | zero => rw [if_pos rfl, Nat.zero_mod, Nat.zero_mod]
  | succ n =>
    rw [if_neg (by omega), Nat.add_sub_cancel, Nat.mul_mod_mul_left, Nat.mod_add_mod]
    omega

theorem idle_cycles (k j n : Nat) (hk : 4 * 2 ^ k < 2 ^ 32) (d : Debug) (a : Nat)
    (hr : d.rom = List.replicate (2 ^ k) ⟨0#32, 0#32, 0#32, 0#32, RdUpdate.NONE.id, RamUpdate.NONE.id, PcUpdate.NONE.id⟩)
    (hj : d.ram.length = 2 ^ j) (hg : d.registers = List.replicate 32 0#32) (hp : d.pc = BitVec.ofNat 32 (benchPc (2 ^ k) a)) :
    ∃ d2, Spec.cycles n d = some d2 ∧ d2.registers = d.registers ∧ d2.ram = d.ram ∧
      d2.pc = BitVec.ofNat 32 (benchPc (2 ^ k) (a + n)) := by
  induction n generalizing d a with
  | zero => exact ⟨d, rfl, rfl, rfl, hp⟩
  | succ n ih =>
    obtain ⟨d1, e, e1, e2, e3⟩ := C29_total d k j (by rw [hr, List.length_replicate]) hj (by rw [hg]; rfl) (by
      intro i hi
      rw [hr] at hi
      rw [List.eq_of_mem_replicate hi]
      exact C29_decoded true 0x73#32 _ (C48_decode true 0x73#32 (by decide)) (by decide))
    obtain ⟨f1, f2, f3⟩ := C48_cycle d d1 0x73#32 true (by decide) (by rw [hg]; rfl) e (by
      intro i hi
      rw [hr] at hi
      rw [C48_decode true 0x73#32 (by decide), List.eq_of_mem_replicate (List.mem_of_getElem? hi)])
    have hpc : d1.pc = BitVec.ofNat 32 (benchPc (2 ^ k) (a + 1)) := by
      rw [f3, hp, hr, List.length_replicate, bitsFor_pow, BitVec.toNat_ofNat,
        Nat.mod_eq_of_lt (benchPc_lt _ a (Nat.two_pow_pos k) hk), benchPc_next, BitVec.ofNat_add,
        show 2 ^ (k + 2) = 4 * 2 ^ k from by rw [Nat.pow_add]; omega]
    obtain ⟨d2, g, g1, g2, g3⟩ := ih d1 (a + 1) (e1.trans hr) e2 (f1.trans hg) hpc
    refine ⟨d2, ?_, g1.trans f1, g2.trans f2, by rw [g3]; congr 2; omega⟩
    show (Spec.cycle d).bind _ = _
    rw [e, Option.bind_some, g]

/-- Under any correct library a program of system instructions changes nothing: for every number of cycles the closure of
the benchmark does not panic, all registers are zero, the RAM is as it was, and the program counter goes round.  The mirror
stays where it started. -/
theorem C75_idle (F : Fhe) (rand : Nat → Nat → Nat → F.C.Rand) (dbg : Bool) (threads k j n : Nat) (rom ram : List U32)
    (ht : 0 < threads) (hk : rom.length = 2 ^ k) (hk2 : 4 * 2 ^ k < 2 ^ 32) (hj : ram.length = 2 ^ j)
    (hw : ∀ w ∈ rom, w.setWidth 7 = 0b1110011#7) (hn : n < 2 ^ 32) :
    ∃ vm d, benchWith F.C rand dbg threads rom ram n = some (vm, d) ∧
      vm.registers.decrypt F.C (List.replicate 32 0#32) = some (List.replicate 32 0#32) ∧
      vm.decryptRam F.C (List.replicate (2 ^ j) 0#32) = some ram ∧
      (n ≠ 0 → F.decU vm.pc = BitVec.ofNat 32 (benchPc (2 ^ k) n)) ∧
      d.pc = 0#32 ∧ d.registers = List.replicate 32 0#32 ∧ d.ram = ram := by
  obtain ⟨p, hp⟩ := system_accepted dbg rom hw Parser.new
  obtain ⟨ds, hd, hds⟩ := decodeProgram_words dbg _ p hp
  have hl : ds.length = rom.length := by simpa using (congrArg List.length hds).symm
  have hde := system_entry dbg rom hw ds hds
  have h0 := Nat.two_pow_pos k
  have h1 := Nat.two_pow_pos j
  obtain ⟨vm, hv⟩ := load_total (C := F.C) (rand := rand) dbg rom.length ram.length threads p ds ram hd (by omega)
    (by omega) (by omega) (Nat.le_refl _)
  have hm := C29_start_mirror dbg p ds ram hd
  rw [hl] at hm
  obtain ⟨d2, e, e1, e2, e3⟩ := idle_cycles k j n hk2 (Debug.image rom.length ram.length ds ram) 0
    (by simp only [Debug.image, hl, Nat.sub_self, List.replicate_zero, List.append_nil]; rw [hde, hk])
    (by simp [Debug.image, hj]) rfl rfl
  have er : (Debug.image rom.length ram.length ds ram).ram = ram := by simp [Debug.image]
  obtain ⟨vm2, g, -, g1, g2, g3⟩ := C30_exact F rand dbg _ _ threads p ram vm ds ht hd hv n hn d2 e
  refine ⟨vm2, _, ?_, by rw [g1, e1]; rfl, ?_, fun h => by rw [g3 h, e3, Nat.zero_add], rfl, rfl, er⟩
  · unfold benchWith
    rw [hp, Option.bind_some, hv, Option.bind_some, hm, Option.bind_some, g, Option.map_some]
  · rw [e2, er, hj] at g2
    exact g2

/-- The benchmark of the crate. -/
theorem C75_bench (F : Fhe) (rand : Nat → Nat → Nat → F.C.Rand) (utf8 : List Byte → Bool) (env : Host.Env) (dbg : Bool) (n : Nat)
    (ht : 0 < Host.threads utf8 env 32) (hn : n < 2 ^ 32) :
    ∃ vm d, bench F.C rand utf8 env dbg n = some (vm, d) ∧
      vm.registers.decrypt F.C (List.replicate 32 0#32) = some (List.replicate 32 0#32) ∧
      vm.decryptRam F.C (List.replicate 64 0#32) = some (List.replicate 64 0#32) ∧
      (n ≠ 0 → F.decU vm.pc = BitVec.ofNat 32 (4 * ((n - 1) % 1024 + 1))) := by
  obtain ⟨vm, d, e, e1, e2, e3, -⟩ := C75_idle F rand dbg (Host.threads utf8 env 32) 10 6 n benchRom benchRam ht
    List.length_replicate (by omega) List.length_replicate
    (fun w hw => by rw [List.eq_of_mem_replicate hw]; decide) hn
  refine ⟨vm, d, e, e1, e2, fun h => ?_⟩
  rw [e3 h]
  unfold benchPc
  rw [if_neg h]; rfl

/-- With `PHANTOM_THREADS=0` the first call panics. -/
theorem C75_no_threads {B : Backend} (C : Cipher B) (rand : Nat → Nat → Nat → C.Rand) (utf8 : List Byte → Bool) (env : Host.Env)
    (dbg : Bool) (n : Nat) (ht : Host.threads utf8 env 32 = 0) (hn : 0 < n) : bench C rand utf8 env dbg n = none := by
  unfold bench benchWith
  cases Parser.new.addAll dbg benchRom with
  | none => rfl
  | some p =>
    rw [Option.bind_some]
    cases h : Interp.load C rand dbg benchRom.length benchRam.length (Host.threads utf8 env 32) p benchRam with
    | none => rfl
    | some vm =>
      have hr : vm.run n = none := by
        obtain ⟨m, rfl⟩ := Nat.exists_eq_succ_of_ne_zero (Nat.ne_of_gt hn)
        show vm.step.bind _ = none
        unfold Interp.step Interp.trace
        simp only [fetch_no_threads vm _ ((load_threads h).trans ht)]
        rfl
      rw [Option.bind_some, hr]
      cases ((Debug.new benchRom.length benchRam.length).setInstructions dbg p).bind fun d => d.setRam benchRam <;> rfl

/-- What is timed does not depend on the program: any other program and RAM of the same sizes makes the same library calls
on its own ciphertexts, cycle by cycle. -/
theorem C75_representative (B : Backend) (hB : B.Lawful) (C C' : Cipher B) (rand : Nat → Nat → Nat → C.Rand)
    (rand' : Nat → Nat → Nat → C'.Rand) (dbg dbg' : Bool) (threads : Nat) (rom ram rom' ram' : List U32)
    (h1 : rom.length = rom'.length) (h2 : ram.length = ram'.length) (x x' : Interp B × Debug)
    (h : benchWith C rand dbg threads rom ram 0 = some x) (h' : benchWith C' rand' dbg' threads rom' ram' 0 = some x') (n : Nat) :
    ∃ E : Option (Interp (terms B.logN)),
      benchWith C rand dbg threads rom ram n = E.map (fun e => (Interp.eval B x.1.inputs e, x.2)) ∧
      benchWith C' rand' dbg' threads rom' ram' n = E.map (fun e => (Interp.eval B x'.1.inputs e, x'.2)) := by
  unfold benchWith at *
  obtain ⟨p, hp, h⟩ := Option.bind_eq_some_iff.mp h
  obtain ⟨vm, hv, h⟩ := Option.bind_eq_some_iff.mp h
  obtain ⟨d, hd, h⟩ := Option.bind_eq_some_iff.mp h
  cases h
  obtain ⟨p', hp', h'⟩ := Option.bind_eq_some_iff.mp h'
  obtain ⟨vm', hv', h'⟩ := Option.bind_eq_some_iff.mp h'
  obtain ⟨d', hd', h'⟩ := Option.bind_eq_some_iff.mp h'
  cases h'
  obtain ⟨E, e, e'⟩ := C33_oblivious B hB C C' rand rand' dbg dbg' rom.length ram.length threads p p' ram ram' vm vm' hv
    (by rw [h1, h2]; exact hv') n
  refine ⟨E, ?_, ?_⟩
  · rw [hp, Option.bind_some, hv, Option.bind_some, hd, Option.bind_some, e, Option.map_map]; rfl
  · rw [hp', Option.bind_some, hv', Option.bind_some, hd', Option.bind_some, e', Option.map_map]; rfl

/-! ### With the debug comparison -/

theorem idle_step (d : Debug) (m j : Nat)
    (hr : d.rom = List.replicate m ⟨0#32, 0#32, 0#32, 0#32, RdUpdate.NONE.id, RamUpdate.NONE.id, PcUpdate.NONE.id⟩)
    (hj : d.ram.length = 2 ^ j) (hg : d.registers = List.replicate 32 0#32) :
    (m ≤ d.pc.toNat / 4 → d.step = none) ∧
    (d.pc.toNat / 4 < m → ∃ d1 d2, d.loaded = some d1 ∧ Supported d1 ∧ d.step = some d2 ∧ d2.rom = d.rom ∧
      d2.ram = d.ram ∧ d2.registers = d.registers ∧ d2.pc = d.pc + 4#32) := by
  have hs : (d.pc >>> 2).toNat = d.pc.toNat / 4 := toNat_shift2 d.pc
  constructor
  · intro h
    unfold Debug.step Debug.readInstructions
    rw [List.getElem?_eq_none_iff.mpr (by rw [hr, List.length_replicate, hs]; exact h)]
    rfl
  · intro h
    have hi : d.rom[(d.pc >>> 2).toNat]? =
        some ⟨0#32, 0#32, 0#32, 0#32, RdUpdate.NONE.id, RamUpdate.NONE.id, PcUpdate.NONE.id⟩ := by
      rw [hr, hs]; simp [h]
    have hreg : d.registers[(0#32).toNat]? = some 0#32 := by rw [hg]; rfl
    have hram : (((0#32 + 0#32 - (1#32 <<< 18)) >>> 2).toNat) % d.ram.length < d.ram.length :=
      Nat.mod_lt _ (by rw [hj]; exact Nat.two_pow_pos j)
    obtain ⟨d2, e⟩ := Debug.step_total (o := .NONE) (ro := .NONE) (po := .NONE) hi hreg hreg
      (List.getElem?_eq_getElem hram) (by decide) rfl rfl rfl (by rw [hg]; decide)
    obtain ⟨d1, i, a, b, v, r, o, ro, po, hl, c⟩ := Debug.step_inv e
    have hi' := c.ins
    rw [hi] at hi'
    cases hi'
    obtain ⟨f1, f2, f3⟩ := C48_mirror d d2 0x73#32 true (by decide) (by rw [hg]; rfl) e (by
      intro i hi
      rw [hr] at hi
      rw [C48_decode true 0x73#32 (by decide), List.eq_of_mem_replicate (List.mem_of_getElem? hi)])
    refine ⟨d1, d2, hl, ?_, e, ?_, f2, f1, f3⟩
    · rw [c.loaded]
      exact ⟨fun h => absurd h (show ¬ RdUpdate.NONE.id = RdUpdate.LB.id by decide), .inl rfl, .inl ⟨j, hj⟩⟩
    · rw [c.result, c.loaded]

theorem idle_debug (F : Fhe) (m j n a : Nat) (hm : 4 * m < 2 ^ 32) (vm : Interp F.B) (d : Debug) (h : F.Runs vm d)
    (hr : d.rom = List.replicate m ⟨0#32, 0#32, 0#32, 0#32, RdUpdate.NONE.id, RamUpdate.NONE.id, PcUpdate.NONE.id⟩)
    (hj : d.ram.length = 2 ^ j) (hg : d.registers = List.replicate 32 0#32) (ha : a ≤ m)
    (hp : d.pc = BitVec.ofNat 32 (4 * a)) (hc : vm.cycle.toNat + n < 2 ^ 32) :
    (debugCycles F.decU F.decP F.C n (vm, d)).isSome ↔ a + n ≤ m := by
  induction n generalizing vm d a with
  | zero => exact iff_of_true rfl ha
  | succ n ih =>
    have hpn : d.pc.toNat = 4 * a := by rw [hp, BitVec.toNat_ofNat, Nat.mod_eq_of_lt (by omega)]
    obtain ⟨h1, h2⟩ := idle_step d m j hr hj hg
    show ((cycleDebug F.decU F.decP F.C vm d).bind _).isSome ↔ _
    by_cases hlt : a < m
    · obtain ⟨d1, d2, e1, sup, e2, f1, f2, f3, f4⟩ := h2 (by omega)
      obtain ⟨vm2, e, r⟩ := C52_debug_passes F vm d d1 d2 h e2 e1 sup (by
        intro h0
        have := congrArg BitVec.toNat h0
        simp at this
        omega)
      have hcy : vm2.cycle = vm.cycle + 1#32 := by
        unfold cycleDebug at e
        obtain ⟨t, -, e⟩ := Option.bind_eq_some_iff.mp e
        obtain ⟨_, -, e⟩ := Option.bind_eq_some_iff.mp e
        obtain ⟨_, -, e⟩ := Option.bind_eq_some_iff.mp e
        split at e
        · cases e; rfl
        · cases e
      rw [e, Option.bind_some]
      rw [ih (a + 1) vm2 d2 r (f1.trans hr) (by rw [f2]; exact hj) (f3.trans hg) hlt
        (by rw [f4, hp, Nat.mul_add, BitVec.ofNat_add]) (by
          rw [hcy, BitVec.toNat_add, show (1#32).toNat = 1 from rfl]
          have := Nat.mod_le (vm.cycle.toNat + 1) (2 ^ 32)
          omega)]
      omega
    · have : cycleDebug F.decU F.decP F.C vm d = none := by
        unfold cycleDebug
        rw [h1 (by omega)]
        cases vm.trace <;> [rfl; cases d.loaded <;> rfl]
      rw [this]
      exact iff_of_false (by simp) (by omega)

/-- The closure must call `cycle` as it does: with `cycle_debug`, for which the interpreter has been set up, it would panic
at the end of the program, since the mirror's program counter does not go round. -/
theorem C75_debug (F : Fhe) (rand : Nat → Nat → Nat → F.C.Rand) (dbg : Bool) (threads n : Nat) (ht : 0 < threads)
    (hn : n < 2 ^ 32) : ∃ vm d, benchWith F.C rand dbg threads benchRom benchRam 0 = some (vm, d) ∧
      ((debugCycles F.decU F.decP F.C n (vm, d)).isSome ↔ n ≤ 1024) := by
  have hw : ∀ w ∈ benchRom, w.setWidth 7 = 0b1110011#7 := fun w hw => by rw [List.eq_of_mem_replicate hw]; decide
  obtain ⟨p, hp⟩ := system_accepted dbg benchRom hw Parser.new
  obtain ⟨ds, hd, hds⟩ := decodeProgram_words dbg _ p hp
  have hl : ds.length = benchRom.length := by simpa using (congrArg List.length hds).symm
  have hde := system_entry dbg benchRom hw ds hds
  have h1 : benchRom.length = 1024 := List.length_replicate
  have h2 : benchRam.length = 64 := List.length_replicate
  obtain ⟨vm, hv⟩ := load_total (C := F.C) (rand := rand) dbg benchRom.length benchRam.length threads p ds benchRam hd
    (by omega) (by omega) (by omega) (Nat.le_refl _)
  have hm := C29_start_mirror dbg p ds benchRam hd
  rw [hl] at hm
  obtain ⟨hr, hc⟩ := C29_start F rand dbg _ _ threads p _ vm ds ht hd hv
  refine ⟨vm, Debug.image benchRom.length benchRam.length ds benchRam, ?_, ?_⟩
  · unfold benchWith
    rw [hp, Option.bind_some, hv, Option.bind_some, hm, Option.bind_some]; rfl
  · rw [idle_debug F 1024 6 n 0 (by omega) vm _ hr
      (by simp only [Debug.image, hl, Nat.sub_self, List.replicate_zero, List.append_nil]; rw [hde, h1])
      (by simp [Debug.image, h2]) rfl (by omega) rfl (by rw [hc]; simpa using hn), Nat.zero_add]

/-! ### Sizes -/

theorem encrypt_bits {B : Backend} {C : Cipher B} {rand : Nat → Nat → C.Rand} {m m' : Memory B} {data : List Word}
    (h : m.encrypt C rand data = some m') (k b : Nat) (hm : ∀ x ∈ m.bits, x.data.length = k ∧ x.bitSize = b) :
    ∀ x ∈ m'.bits, x.data.length = k ∧ x.bitSize = b := by
  unfold Memory.encrypt at h
  split at h
  · cases h
  · split at h
    · cases h
      intro x hx
      obtain ⟨i, hi, rfl⟩ := List.mem_mapIdx.mp hx
      have := hm _ (List.getElem_mem hi)
      exact ⟨by simpa [BitArray.encrypt] using this.1, this.2⟩
    · cases h

theorem alloc_bits {B : Backend} {width size : Nat} {m : Memory B} (h : Memory.alloc B width size = some m) :
    ∀ x ∈ m.bits, x.data.length = divCeil size (2 ^ B.logN) ∧ x.bitSize = bitsFor size := by
  unfold Memory.alloc at h
  split at h
  · cases h
  · cases h
    intro x hx
    rw [List.eq_of_mem_replicate hx]
    exact ⟨List.length_replicate, rfl⟩

/-- What the sizes decide.  Every bit of a memory is one ciphertext for each 1024 words, and among several ciphertexts a
read selects by blind retrieval (`logN < bitSize`).  The benchmark (1024 instructions, 64 words of RAM) has one ciphertext
everywhere, as has the RAM of every guest (1024 words); it stands for guests of at most 1024 instructions.  It prepares
6 + 2 bits of the RAM address, a guest 10 + 2. -/
theorem C75_sizes {B : Backend} (C : Cipher B) (rand : Nat → Nat → Nat → C.Rand) (dbg : Bool) (hN : B.logN = 10)
    (romSize ramSize threads : Nat) (p : Parser) (data : List Word) (vm : Interp B)
    (h : Interp.load C rand dbg romSize ramSize threads p data = some vm) :
    (∀ m ∈ [vm.immRom, vm.rs1Rom, vm.rs2Rom, vm.rdRom, vm.rduRom, vm.muRom, vm.pcuRom], ∀ b ∈ m.bits,
      b.data.length = (romSize + 1023) / 1024 ∧ (B.logN < b.bitSize ↔ 1024 < romSize)) ∧
    (∀ b ∈ vm.ram.bits, b.data.length = (ramSize + 1023) / 1024 ∧ (B.logN < b.bitSize ↔ 1024 < ramSize)) ∧
    (∀ k, vm.romBits ≤ k ↔ romSize ≤ 2 ^ k) ∧ (∀ k, vm.ramBits ≤ k ↔ ramSize ≤ 2 ^ k) := by
  have hbits : ∀ size k, bitsFor size ≤ k ↔ size ≤ 2 ^ k := fun size k =>
    ⟨fun hk => Nat.le_trans (le_two_pow_bitsFor size) (Nat.pow_le_pow_right (by omega) hk), bitsFor_le size k⟩
  have hgap : ∀ size, 10 < bitsFor size ↔ 1024 < size := fun size => by
    have := hbits size 10
    omega
  unfold Interp.load at h
  obtain ⟨v1, h1, h⟩ := Option.bind_eq_some_iff.mp h
  obtain ⟨v2, h2, h⟩ := Option.bind_eq_some_iff.mp h
  obtain ⟨v3, h3, rfl⟩ := Option.map_eq_some_iff.mp h
  unfold Interp.new at h1
  obtain ⟨rom, hrom, h1⟩ := Option.bind_eq_some_iff.mp h1
  obtain ⟨_, -, h1⟩ := Option.bind_eq_some_iff.mp h1
  obtain ⟨ram, hram, rfl⟩ := Option.map_eq_some_iff.mp h1
  unfold Interp.encryptInstructions at h2
  split at h2
  · cases h2
  obtain ⟨_, -, h2⟩ := Option.bind_eq_some_iff.mp h2
  obtain ⟨_, k1, h2⟩ := Option.bind_eq_some_iff.mp h2
  obtain ⟨_, k2, h2⟩ := Option.bind_eq_some_iff.mp h2
  obtain ⟨_, k3, h2⟩ := Option.bind_eq_some_iff.mp h2
  obtain ⟨_, k4, h2⟩ := Option.bind_eq_some_iff.mp h2
  obtain ⟨_, k5, h2⟩ := Option.bind_eq_some_iff.mp h2
  obtain ⟨_, k6, h2⟩ := Option.bind_eq_some_iff.mp h2
  obtain ⟨_, k7, rfl⟩ := Option.map_eq_some_iff.mp h2
  unfold Interp.encryptRam at h3
  split at h3
  · obtain ⟨m, hm, rfl⟩ := Option.map_eq_some_iff.mp h3
    have fin : ∀ (x : BitArray B) (size : Nat), x.data.length = divCeil size (2 ^ B.logN) ∧ x.bitSize = bitsFor size →
        x.data.length = (size + 1023) / 1024 ∧ (B.logN < x.bitSize ↔ 1024 < size) := by
      rintro x size ⟨a1, a2⟩
      rw [a1, a2, hN]
      exact ⟨rfl, hgap size⟩
    refine ⟨?_, fun b hb => fin b _ (encrypt_bits hm _ _ (alloc_bits hram) b hb), hbits romSize, hbits ramSize⟩
    intro m hm b hb
    refine fin b _ ?_
    simp only [List.mem_cons, List.not_mem_nil, or_false] at hm
    rcases hm with rfl | rfl | rfl | rfl | rfl | rfl | rfl
    · exact encrypt_bits k4 _ _ (alloc_bits hrom) b hb
    · exact encrypt_bits k1 _ _ (alloc_bits hrom) b hb
    · exact encrypt_bits k2 _ _ (alloc_bits hrom) b hb
    · exact encrypt_bits k3 _ _ (alloc_bits hrom) b hb
    · exact encrypt_bits k5 _ _ (alloc_bits hrom) b hb
    · exact encrypt_bits k6 _ _ (alloc_bits hrom) b hb
    · exact encrypt_bits k7 _ _ (alloc_bits hrom) b hb
  · cases h3

/-! ### Examples -/

-- address bits of the benchmark's RAM, of a guest's RAM; ciphertexts per bit for a guest of 1025 instructions
example : bitsFor benchRam.length = 6 ∧ bitsFor 1024 = 10 ∧ (1025 + 1023) / 1024 = 2 := by decide +kernel

-- after the last instruction the program counter is the size of the program, then it starts again
example : benchPc 1024 1024 = 4096 := by decide
example : benchPc 1024 1025 = 4 := by decide
-- with the default of 32 threads, and with a setting of zero
example : Host.threads (fun _ => true) (fun _ => none) 32 = 32 := by decide
example : Host.threads (fun _ => true) (fun n => if n = "PHANTOM_THREADS" then some [0x30#8] else none) 32 = 0 := by
  decide +kernel
-- the comment in cycle.rs:49 says `THREADS=64`; that variable is not read
example (v : List Byte) : Host.threads (fun _ => true) (fun n => if n = "THREADS" then some v else none) 32 = 32 := by rfl
example : ∃ vm d, bench sampleFhe.C (fun _ _ _ => ()) (fun _ => true) (fun _ => none) true 5000 = some (vm, d) ∧
    sampleFhe.decU vm.pc = BitVec.ofNat 32 3616 := by
  obtain ⟨vm, d, e, -, -, h⟩ := C75_bench sampleFhe (fun _ _ _ => ()) (fun _ => true) (fun _ => none) true 5000 (by decide) (by omega)
  exact ⟨vm, d, e, h (by decide)⟩

end Verif.Props
