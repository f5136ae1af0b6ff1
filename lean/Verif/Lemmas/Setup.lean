import Verif.Lemmas.Mirror
import Verif.Lemmas.InterpSim
import Verif.Lemmas.Fhe
import Verif.Lemmas.Witness
import Verif.Props.Parser
/-
  The interpreter as set up from a program and RAM contents.
-/
namespace Verif.Model
open Verif Verif.Props

/-- The mirror whose program memory and RAM are the given ones, padded with zeros. -/
def Debug.image (romSize ramSize : Nat) (ds : List Decoded) (data : List (BitVec 32)) : Debug :=
  { Debug.new romSize ramSize with
    rom := ds ++ List.replicate (romSize - ds.length) Decoded.zero
    ram := data ++ List.replicate (ramSize - data.length) 0#32 }

theorem column_eq (n : Nat) (ds : List Decoded) (h : ds.length ≤ n) (f : Decoded → BitVec 32)
    (hf : f Decoded.zero = 0#32) :
    (List.range n).map (fun i => (ds[i]?).elim 0#32 f)
      = (ds ++ List.replicate (n - ds.length) Decoded.zero).map f := by
  apply List.ext_getElem?
  intro i
  rw [List.getElem?_map, List.getElem?_map]
  by_cases hi : i < n
  · rw [List.getElem?_range hi, Option.map_some]
    by_cases h2 : i < ds.length
    · rw [List.getElem?_append_left h2, List.getElem?_eq_getElem h2]
      rfl
    · rw [List.getElem?_append_right (by omega), List.getElem?_replicate, if_pos (by omega),
        List.getElem?_eq_none (by omega), Option.map_some, hf]
      rfl
  · rw [List.getElem?_eq_none (by simpa using hi), List.getElem?_eq_none]
    · rfl
    · simp; omega

theorem padTo_self (l : List (BitVec 32)) : padTo l.length l = l := by
  rw [padTo_eq _ _ (Nat.le_refl _)]; simp

section plain
variable {logN : Nat} {L : Lib (2 ^ logN)}

theorem length_collect {α : Type} : ∀ (l : List (Option α)) (r : List α), collect l = some r →
    r.length = l.length := by
  intro l
  induction l with
  | nil => intro r h; cases h; rfl
  | cons a l ih =>
    intro r h
    cases a with
    | none => cases h
    | some a =>
      obtain ⟨r', h', rfl⟩ := Option.map_eq_some_iff.mp h
      simp [ih r' h']

theorem mem_collect {α : Type} : ∀ (l : List (Option α)) (r : List α), collect l = some r →
    ∀ x ∈ r, some x ∈ l := by
  intro l
  induction l with
  | nil => intro r h; cases h; intro x hx; cases hx
  | cons a l ih =>
    intro r h
    cases a with
    | none => cases h
    | some a =>
      obtain ⟨r', h', rfl⟩ := Option.map_eq_some_iff.mp h
      intro x hx
      rcases List.mem_cons.mp hx with rfl | hx
      · exact List.mem_cons_self
      · exact List.mem_cons_of_mem _ (ih r' h' x hx)

theorem decodeWord_of_entry (dbg : Bool) (w : U32) (h : (entryOf dbg w).isSome = true) :
    (decodeWord dbg w).isSome = true := by
  unfold entryOf at h
  unfold decodeWord
  cases hr : getRegisters dbg w with
  | none => simp [hr] at h
  | some r =>
  cases ho : getOpid dbg w with
  | none => simp [hr, ho] at h
  | some o =>
  cases hi : getImm dbg w with
  | none => simp [hr, ho, hi] at h
  | some im => rfl

theorem range_getElem? {α : Type} (ws : List α) :
    (List.range ws.length).map (fun i => ws[i]?) = ws.map some := by
  apply List.ext_getElem?
  intro i
  rw [List.getElem?_map, List.getElem?_map]
  by_cases h : i < ws.length
  · rw [List.getElem?_range h, List.getElem?_eq_getElem h]; simp [h]
  · rw [List.getElem?_eq_none (by simpa using h), List.getElem?_eq_none (by simpa using h)]; rfl

/-- A parsed program always decodes, word by word. -/
theorem decodeProgram_words (dbg : Bool) (ws : List U32) (p : Parser)
    (h : Parser.new.addAll dbg ws = some p) :
    ∃ ds, decodeProgram dbg p = some ds ∧ ws.map (decodeWord dbg) = ds.map some := by
  obtain ⟨wf, hraw, -, hnew⟩ := addAll_spec dbg ws Parser.new p ⟨rfl, rfl⟩ h
  have hraw' : p.raw = ws := by simpa [Parser.new] using hraw
  have e : decodeProgram dbg p = collect (ws.map (decodeWord dbg)) := by
    unfold decodeProgram Parser.getRaw
    rw [wf.2, hraw']
    refine congrArg collect ?_
    rw [show (fun i => (ws[i]?).bind (decodeWord dbg)) = (fun o => Option.bind o (decodeWord dbg)) ∘ (fun i => ws[i]?) from rfl,
      ← List.map_map, range_getElem?, List.map_map]
    rfl
  have hs : ∀ w ∈ ws, (decodeWord dbg w).isSome = true := by
    intro w hw
    obtain ⟨i, hi⟩ := List.mem_iff_getElem?.mp hw
    exact decodeWord_of_entry dbg w (hnew i w hi).2
  have e2 := collect_map_some (decodeWord dbg) (fun w => (decodeWord dbg w).getD Decoded.zero) ws
    (by
      intro w hw
      obtain ⟨x, hx⟩ := Option.isSome_iff_exists.mp (hs w hw)
      rw [hx]; rfl)
  refine ⟨_, e.trans e2, ?_⟩
  rw [List.map_map]
  apply List.map_congr_left
  intro w hw
  obtain ⟨x, hx⟩ := Option.isSome_iff_exists.mp (hs w hw)
  simp [hx]

theorem length_decodeProgram (dbg : Bool) (p : Parser) (ds : List Decoded)
    (h : decodeProgram dbg p = some ds) : ds.length = p.instructions.length := by
  rw [length_collect _ _ h]; simp

theorem encrypt_column {rand : Nat → Nat → Unit} {size : Nat} {m0 m : Memory (plain logN L)}
    {l : List (BitVec 32)} (h0 : Memory.alloc (plain logN L) 32 size = some m0)
    (h : m0.encrypt (plainCipher logN L) rand l = some m) (hl : l.length = size) : m.Stores l := by
  have := Memory.encrypt_stores rand size l m0 m h0 h
  rw [← hl, padTo_self] at this
  exact this

theorem load_mirrors {rand : Nat → Nat → Nat → Unit} {dbg : Bool} {romSize ramSize threads : Nat}
    {p : Parser} {data : List (BitVec 32)} {vm : Interp (plain logN L)} {ds : List Decoded}
    (ht : 0 < threads) (hd : decodeProgram dbg p = some ds)
    (h : Interp.load (plainCipher logN L) rand dbg romSize ramSize threads p data = some vm) :
    Mirrors vm (Debug.image romSize ramSize ds data) ∧ vm.cycle = 0#32 := by
  unfold Interp.load at h
  obtain ⟨v0, h0, h⟩ := Option.bind_eq_some_iff.mp h
  obtain ⟨v1, h1, h⟩ := Option.bind_eq_some_iff.mp h
  obtain ⟨v2, h2, h⟩ := Option.map_eq_some_iff.mp h
  unfold Interp.new at h0
  obtain ⟨rom, e1, h0⟩ := Option.bind_eq_some_iff.mp h0
  obtain ⟨regs, e2, h0⟩ := Option.bind_eq_some_iff.mp h0
  obtain ⟨ram, e3, h0⟩ := Option.map_eq_some_iff.mp h0
  subst h0
  unfold Interp.encryptInstructions at h1
  split at h1
  · cases h1
  rename_i hlen
  rw [hd, Option.bind_some] at h1
  simp only at h1 hlen
  have hlen' : ds.length ≤ romSize := by rw [length_decodeProgram dbg p ds hd]; omega
  obtain ⟨m1, s1, h1⟩ := Option.bind_eq_some_iff.mp h1
  obtain ⟨m2, s2, h1⟩ := Option.bind_eq_some_iff.mp h1
  obtain ⟨m3, s3, h1⟩ := Option.bind_eq_some_iff.mp h1
  obtain ⟨m4, s4, h1⟩ := Option.bind_eq_some_iff.mp h1
  obtain ⟨m5, s5, h1⟩ := Option.bind_eq_some_iff.mp h1
  obtain ⟨m6, s6, h1⟩ := Option.bind_eq_some_iff.mp h1
  obtain ⟨m7, s7, h1⟩ := Option.map_eq_some_iff.mp h1
  subst h1
  unfold Interp.encryptRam at h2
  split at h2
  · rename_i hram
    obtain ⟨m8, s8, h2⟩ := Option.map_eq_some_iff.mp h2
    subst h2 h
    simp only at hram s8
    have hsz : ram.size = ramSize := by
      have := (Memory.alloc_stores _ _ e3).length
      simpa using this.symm
    rw [hsz] at hram
    have col : ∀ {f : Decoded → BitVec 32} {m : Memory (plain logN L)} {r : Nat → Nat → Unit},
        f Decoded.zero = 0#32 →
        rom.encrypt (plainCipher logN L) r
          ((List.range romSize).map fun i => (ds[i]?).elim 0#32 f) = some m →
        m.Stores ((ds ++ List.replicate (romSize - ds.length) Decoded.zero).map f) := by
      intro f m r hf hm
      have := encrypt_column e1 hm (by simp)
      rwa [column_eq romSize ds hlen' f hf] at this
    have rl : romSize = (Debug.image romSize ramSize ds data).rom.length := by
      simp [Debug.image]; omega
    have al : ramSize = (Debug.image romSize ramSize ds data).ram.length := by
      simp [Debug.image]; omega
    refine ⟨⟨ht, congrArg bitsFor rl, congrArg bitsFor al, al, col rfl s4, col rfl s1, col rfl s2,
      col rfl s3, col rfl s5, col rfl s6, col rfl s7, ?_, ?_, ?_, fun _ => ⟨rfl, Nat.two_pow_pos _⟩, fun h => absurd rfl h⟩,
      rfl⟩
    · exact Memory.alloc_stores _ _ e2
    · exact List.length_replicate
    · have := Memory.encrypt_stores (rand 7) ramSize data ram m8 e3 s8
      rw [padTo_eq _ _ hram] at this
      exact this
  · cases h2

end plain

section fhe
variable {F : Fhe}

theorem Interp.new_rel (romSize ramSize : Nat) :
    ORel (Interp.Rel F.sim) (Interp.new F.B romSize ramSize)
      (Interp.new (plain F.B.logN F.lib) romSize ramSize) := by
  unfold Interp.new
  refine ORel.bind (fun rom rom' hrom => ?_) (Memory.alloc_rel (S := F.sim) 32 romSize)
  refine ORel.bind (fun regs regs' hregs => ?_) (Memory.alloc_rel (S := F.sim) 32 32)
  refine ORel.map (fun ram ram' hram => ?_) (Memory.alloc_rel (S := F.sim) 32 ramSize)
  exact ⟨rfl, rfl, rfl, rfl, rfl, rfl, hrom, hrom, hrom, hrom, hrom, hrom, hrom, hregs, hram,
    F.sim.uzero, F.sim.pzero⟩

theorem Interp.Rel.encryptInstructions {vm : Interp F.B} {vm' : Interp (plain F.B.logN F.lib)}
    (h : Interp.Rel F.sim vm vm') (rand : Nat → Nat → Nat → F.C.Rand) (dbg : Bool) (p : Parser) :
    ORel (Interp.Rel F.sim) (vm.encryptInstructions F.C rand dbg p)
      (vm'.encryptInstructions (plainCipher F.B.logN F.lib) (fun _ _ _ => ()) dbg p) := by
  unfold Interp.encryptInstructions
  rw [h.romSize]
  split
  · trivial
  · refine ORel.bind (R := fun a b => a = b) (fun ds ds' hds => ?_) (ORel.refl (fun _ => rfl) _)
    subst hds
    refine ORel.bind (fun m1 m1' h1 => ?_) (Memory.encrypt_rel (rand 0) h.rs1Rom _)
    refine ORel.bind (fun m2 m2' h2 => ?_) (Memory.encrypt_rel (rand 1) h.rs2Rom _)
    refine ORel.bind (fun m3 m3' h3 => ?_) (Memory.encrypt_rel (rand 2) h.rdRom _)
    refine ORel.bind (fun m4 m4' h4 => ?_) (Memory.encrypt_rel (rand 3) h.immRom _)
    refine ORel.bind (fun m5 m5' h5 => ?_) (Memory.encrypt_rel (rand 4) h.rduRom _)
    refine ORel.bind (fun m6 m6' h6 => ?_) (Memory.encrypt_rel (rand 5) h.muRom _)
    refine ORel.map (fun m7 m7' h7 => ?_) (Memory.encrypt_rel (rand 6) h.pcuRom _)
    exact ⟨h.cycle, h.threads, rfl, h.ramSize, h.romBits, h.ramBits, h4, h1, h2, h3, h5, h6, h7,
      h.registers, h.ram, h.pc, h.pcP⟩

theorem Interp.Rel.encryptRam {vm : Interp F.B} {vm' : Interp (plain F.B.logN F.lib)}
    (h : Interp.Rel F.sim vm vm') (rand : Nat → Nat → F.C.Rand) (data : List (BitVec 32)) :
    ORel (Interp.Rel F.sim) (vm.encryptRam F.C rand data)
      (vm'.encryptRam (plainCipher F.B.logN F.lib) (fun _ _ => ()) data) := by
  unfold Interp.encryptRam
  rw [h.ram.size]
  split
  · refine ORel.map (fun m m' hm => ?_) (Memory.encrypt_rel rand h.ram _)
    exact ⟨h.cycle, h.threads, h.romSize, h.ramSize, h.romBits, h.ramBits, h.immRom, h.rs1Rom,
      h.rs2Rom, h.rdRom, h.rduRom, h.muRom, h.pcuRom, h.registers, hm, h.pc, h.pcP⟩
  · trivial

theorem Interp.load_rel (rand : Nat → Nat → Nat → F.C.Rand) (dbg : Bool)
    (romSize ramSize threads : Nat) (p : Parser) (data : List (BitVec 32)) :
    ORel (Interp.Rel F.sim) (Interp.load F.C rand dbg romSize ramSize threads p data)
      (Interp.load (plainCipher F.B.logN F.lib) (fun _ _ _ => ()) dbg romSize ramSize threads p data) := by
  unfold Interp.load
  refine ORel.bind (fun v v' hv => ?_) (Interp.new_rel romSize ramSize)
  refine ORel.bind (fun w w' hw => ?_) (hv.encryptInstructions rand dbg p)
  refine ORel.map (fun x x' h => ?_) (hw.encryptRam (rand 7) data)
  exact ⟨h.cycle, rfl, h.romSize, h.ramSize, h.romBits, h.ramBits, h.immRom, h.rs1Rom,
      h.rs2Rom, h.rdRom, h.rduRom, h.muRom, h.pcuRom, h.registers, h.ram, h.pc, h.pcP⟩

/-- The encrypted interpreter is in the state described by the mirror. -/
def Fhe.Runs (F : Fhe) (vm : Interp F.B) (d : Debug) : Prop :=
  ∃ vm', Interp.Rel F.sim vm vm' ∧ Mirrors vm' d

theorem Fhe.runs_of_load {rand : Nat → Nat → Nat → F.C.Rand} {dbg : Bool}
    {romSize ramSize threads : Nat} {p : Parser} {data : List (BitVec 32)} {vm : Interp F.B}
    {ds : List Decoded} (ht : 0 < threads) (hd : decodeProgram dbg p = some ds)
    (h : Interp.load F.C rand dbg romSize ramSize threads p data = some vm) :
    F.Runs vm (Debug.image romSize ramSize ds data) ∧ vm.cycle = 0#32 := by
  have r := Interp.load_rel (F := F) rand dbg romSize ramSize threads p data
  rw [h] at r
  obtain ⟨vm', e, r⟩ := r.of_some_left
  have := load_mirrors ht hd e
  exact ⟨⟨vm', r, this.1⟩, by rw [r.cycle]; exact this.2⟩

end fhe
end Verif.Model
