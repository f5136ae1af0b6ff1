import Verif.Spec.Profiles
import Verif.Props.Session
import Verif.Props.Host
import Verif.Model.GenTests
import Verif.Model.Template
/-
  C103: the debug profile (overflow checks, debug assertions) and the release profile.
-/
namespace Verif.Props

open Model Spec

section
variable {α β : Type}

theorem keeps_const (x : Option α) : Keeps fun _ => x := fun _ h => h

theorem keeps_bind {f : Bool → Option α} {g : Bool → α → Option β} (hf : Keeps f) (hg : ∀ a, Keeps fun c => g c a) :
    Keeps fun c => (f c).bind (g c) := by
  intro b h
  obtain ⟨a, h1, h2⟩ := Option.bind_eq_some_iff.mp h
  exact Option.bind_eq_some_iff.mpr ⟨a, hf a h1, hg a b h2⟩

theorem keeps_map {f : Bool → Option α} {g : α → β} (hf : Keeps f) : Keeps fun c => (f c).map g := by
  intro b h
  obtain ⟨a, h1, h2⟩ := Option.map_eq_some_iff.mp h
  exact Option.map_eq_some_iff.mpr ⟨a, hf a h1, h2⟩

theorem keeps_ite {p : Prop} [Decidable p] {f g : Bool → Option α} (hf : Keeps f) (hg : Keeps g) :
    Keeps fun c => if p then f c else g c := by
  by_cases h : p
  · simp only [h, if_true]; exact hf
  · simp only [h, if_false]; exact hg

theorem keeps_collect (l : List β) {f : Bool → β → Option α} (h : ∀ b, Keeps fun c => f c b) : Keeps fun c => collect (l.map (f c)) := by
  induction l with
  | nil => exact keeps_const _
  | cons b l ih =>
    intro r hr
    simp only [List.map_cons] at hr ⊢
    cases hb : f true b with
    | none => rw [hb] at hr; cases hr
    | some a =>
      rw [hb] at hr
      have hb' : f false b = some a := h b a hb
      rw [hb']
      obtain ⟨t, h1, h2⟩ := Option.map_eq_some_iff.mp hr
      exact Option.map_eq_some_iff.mpr ⟨t, ih t h1, h2⟩

end

/-! ### The test VM -/

theorem keeps_usizeSub (a b : Nat) : Keeps fun c => usizeSub c a b := by
  intro r h
  simp only [usizeSub] at *
  split at h
  · next hb => rw [if_pos hb]; exact h
  · cases h

theorem keeps_usizeAdd (a b : Nat) : Keeps fun c => usizeAdd c a b := by
  intro r h
  simp only [usizeAdd] at *
  split at h
  · next hb => rw [if_pos hb]; exact h
  · cases h

theorem keeps_incPc (vm : TestVM) : Keeps fun c => vm.incPc c := by
  intro r h
  simp only [TestVM.incPc] at *
  split at h
  · cases h
  · rw [if_neg (by simp)]; exact h

local macro "keeps" : tactic => `(tactic| repeat' (with_reducible first
  | exact keeps_const _
  | exact keeps_usizeSub _ _
  | exact keeps_usizeAdd _ _
  | exact keeps_incPc _
  | refine keeps_bind ?_ fun _ => ?_
  | refine keeps_map ?_
  | refine keeps_ite ?_ ?_))

theorem keeps_loadMemory (m : TMem) (a : Nat) (v : List Byte) : Keeps fun c => m.loadMemory c a v := by unfold TMem.loadMemory; keeps
theorem keeps_readByte (m : TMem) (a : Nat) : Keeps fun c => m.readByte c a := by unfold TMem.readByte; keeps
theorem keeps_readNth (m : TMem) (a i : Nat) : Keeps fun c => m.readNth c a i := by unfold TMem.readNth; keeps
theorem keeps_writeByte (m : TMem) (a : Nat) (v : Byte) : Keeps fun c => m.writeByte c a v := by unfold TMem.writeByte; keeps
theorem keeps_writeNth (m : TMem) (a i : Nat) (v : U32) : Keeps fun c => m.writeNth c a v i := by unfold TMem.writeNth; keeps

theorem keeps_readHalf (m : TMem) (a : Nat) : Keeps fun c => m.readHalf c a := by
  unfold TMem.readHalf
  repeat' (with_reducible first | exact keeps_readNth _ _ _ | exact keeps_const _ | refine keeps_bind ?_ fun _ => ?_ | refine keeps_map ?_ | refine keeps_ite ?_ ?_)
theorem keeps_readWord (m : TMem) (a : Nat) : Keeps fun c => m.readWord c a := by
  unfold TMem.readWord
  repeat' (with_reducible first | exact keeps_readNth _ _ _ | exact keeps_const _ | refine keeps_bind ?_ fun _ => ?_ | refine keeps_map ?_ | refine keeps_ite ?_ ?_)
theorem keeps_writeHalf (m : TMem) (a : Nat) (v : BitVec 16) : Keeps fun c => m.writeHalf c a v := by
  unfold TMem.writeHalf
  exact keeps_bind (keeps_writeNth _ _ _ _) fun _ => keeps_writeNth _ _ _ _
theorem keeps_writeWord (m : TMem) (a : Nat) (v : U32) : Keeps fun c => m.writeWord c a v := by
  unfold TMem.writeWord
  exact keeps_bind (keeps_writeNth _ _ _ _) fun _ => keeps_bind (keeps_writeNth _ _ _ _) fun _ =>
    keeps_bind (keeps_writeNth _ _ _ _) fun _ => keeps_writeNth _ _ _ _

theorem keeps_finish (vm : TestVM) (rd : RegIdx) (v : U32) : Keeps fun c => vm.finish c rd v := by unfold TestVM.finish; keeps

theorem keeps_exec (vm : TestVM) (i : TInst) : Keeps fun c => vm.exec c i := by
  cases i <;> simp only [TestVM.exec, TestVM.regImm, TestVM.regReg, TestVM.branch] <;>
    repeat' (with_reducible first
      | exact keeps_const _
      | exact keeps_incPc _
      | exact keeps_finish _ _ _
      | exact keeps_readByte _ _
      | exact keeps_readHalf _ _
      | exact keeps_readWord _ _
      | exact keeps_writeByte _ _ _
      | exact keeps_writeHalf _ _ _
      | exact keeps_writeWord _ _ _
      | refine keeps_bind ?_ fun _ => ?_
      | refine keeps_map ?_
      | refine keeps_ite ?_ ?_)

theorem keeps_run (vm : TestVM) : Keeps fun c => vm.run c := by
  unfold TestVM.run
  exact keeps_bind (keeps_readWord _ _) fun _ => keeps_bind (keeps_const _) fun _ => keeps_bind (keeps_exec _ _) fun _ => keeps_const _

theorem keeps_steps (n : Nat) (vm : TestVM) : Keeps fun c => vm.steps c n := by
  induction n generalizing vm with
  | zero => exact keeps_const _
  | succ n ih => exact keeps_bind (keeps_run vm) ih

theorem keeps_execute (vm : TestVM) : Keeps fun c => vm.execute c := keeps_steps _ vm

theorem keeps_readInputTape (vm : TestVM) (t : List Byte) : Keeps fun c => vm.readInputTape c t := by
  unfold TestVM.readInputTape
  exact keeps_ite (keeps_map (keeps_loadMemory _ _ _)) (keeps_const _)

theorem keeps_outputTape (vm : TestVM) : Keeps fun c => vm.outputTape c :=
  keeps_collect _ fun _ => keeps_bind (keeps_usizeAdd _ _) fun _ => keeps_readByte _ _

theorem keeps_testVm (p : Phantom) (n : Nat) : Keeps fun c => p.testVm c n :=
  keeps_bind (keeps_loadMemory _ _ _) fun _ => keeps_map (keeps_loadMemory _ _ _)

/-- The test VM with overflow checks, made from any loaded file, with any calls in any order: whatever it returns, it returns without the
checks, and it is left in the same state. -/
theorem C103_testvm (p : Phantom) (n : Nat) (cs : List VmCall) : Keeps fun chk => (p.testVm chk n).bind fun vm => vm.session chk cs := by
  refine keeps_bind (keeps_testVm p n) fun vm => ?_
  induction cs generalizing vm with
  | nil => exact keeps_const _
  | cons c cs ih =>
    cases c with
    | tape t => exact keeps_bind (keeps_readInputTape vm t) ih
    | run => exact keeps_bind (keeps_run vm) ih
    | execute => exact keeps_bind (keeps_execute vm) ih
    | output => exact keeps_bind (keeps_outputTape vm) fun _ => keeps_map (ih vm)

/-- How the runs of the test VM with and without overflow checks differ: a run without them is also one with them, or there is a first step
at which the checks stop it, and it is a load or store below the RAM or an instruction that moves the program counter past the end of the
address space. -/
theorem C103_first {fetch : Word → Option Instr} {base : Nat} {step : Instr → Arch → Arch} {n : Nat} {s s' : Arch}
    (h : RunsIf fetch (fun i s => ¬ stuck i s false base) step n s s') :
    RunsIf fetch (fun i s => ¬ stuck i s true base) step n s s' ∨
    ∃ m t i, m < n ∧ RunsIf fetch (fun i s => ¬ stuck i s true base) step m s t ∧ fetch t.pc = some i ∧
      (i.belowWindow t base ∨ i.fallsOff t) := by
  induction h with
  | zero s => exact Or.inl (.zero s)
  | @succ n i s s' hi ho _ ih =>
    by_cases hs : stuck i s true base
    · refine Or.inr ⟨0, s, i, by omega, .zero s, hi, ?_⟩
      rcases hs with h | h | h | ⟨-, h⟩
      · exact absurd (Or.inl h) ho
      · exact absurd (Or.inr (Or.inl h)) ho
      · exact absurd (Or.inr (Or.inr (Or.inl h))) ho
      · exact h
    · rcases ih with h | ⟨m, t, j, h1, h2, h3⟩
      · exact Or.inl (.succ hi hs h)
      · exact Or.inr ⟨m + 1, t, j, by omega, .succ hi hs h2, h3⟩

/-! ### Decoding and the encrypted VM -/

theorem getRegisters_dbg (w : U32) : getRegisters true w = getRegisters false w := by
  unfold getRegisters
  cases h : getType w with
  | none => rfl
  | some t =>
    cases t <;> simp [getRs2, getRs1, getRd, guardTy, h, okRs1, okRs2, okRd]

theorem getImm_dbg (w : U32) : getImm true w = getImm false w := by
  unfold getImm
  cases h : getType w with
  | none => rfl
  | some t =>
    cases t <;> simp [getFunct3, getShamt, guardTy, h, okFunct3, okShamt]

theorem getOpid_dbg (w : U32) : getOpid true w = getOpid false w := by
  unfold getOpid
  cases h : getType w with
  | none => rfl
  | some t =>
    cases t <;> simp [getFunct3, getFunct7, opidOpImm, guardTy, h, okFunct3, okGetFunct7]

/-- The parser reads every program alike with and without its debug assertions: they never fail in it. -/
theorem C103_parser (p : Parser) (ws : List U32) : p.addAll true ws = p.addAll false ws := by
  induction ws generalizing p with
  | nil => rfl
  | cons w ws ih =>
    unfold Parser.addAll
    have : p.add true w = p.add false w := by
      unfold Parser.add
      rw [getRegisters_dbg, getOpid_dbg, getImm_dbg]
    rw [this]
    exact congrArg _ (funext fun q => ih q)

theorem decodeProgram_dbg (p : Parser) : decodeProgram true p = decodeProgram false p := by
  have : decodeWord true = decodeWord false := by
    funext w
    unfold decodeWord
    rw [getRegisters_dbg, getOpid_dbg, getImm_dbg]
  unfold decodeProgram
  rw [this]

/-- The encrypted VM is set up alike, for any program, tape and library, with and without the mirror. -/
theorem C103_encrypted {B : Backend} (C : Cipher B) (rand : Nat → Nat → Nat → C.Rand) (phantomDebug : Bool) (threads : Nat) (p : Phantom)
    (tape : List Byte) (n : Nat) :
    p.encryptedVm C rand true phantomDebug threads tape n = p.encryptedVm C rand false phantomDebug threads tape n := by
  unfold Phantom.encryptedVm Interp.load Interp.encryptInstructions Debug.setInstructions
  simp only [C103_parser, decodeProgram_dbg]

theorem keeps_encOutput {B : Backend} (C : Cipher B) (vm : EncVM B) : Keeps fun chk => vm.outputTape C chk := by
  unfold EncVM.outputTape
  exact keeps_bind (keeps_const _) fun _ => keeps_collect _ fun _ => keeps_bind (keeps_usizeAdd _ _) fun _ =>
    keeps_bind (keeps_usizeSub _ _) fun _ => keeps_const _

/-! ### Builder, guests, hosts -/

theorem keeps_guard (ok : Ty → Bool) (w : U32) : Keeps fun dbg => guardTy dbg ok w := by
  intro a h
  rfl

theorem keeps_setImm (w v : U32) : Keeps fun dbg => setImm dbg w v := by
  have key : setImm true w v = setImm false w v := by
    unfold setImm
    cases h : getType w with
    | none => rfl
    | some t =>
      cases t <;> simp [getFunct3, setShamt, guardTy, h, okFunct3, okShamt]
  intro a h
  exact key.symm.trans h

/-- The instruction builder: a chain of setters that passes the debug assertions builds the same word without them. -/
theorem C103_builder (w : U32) (ss : List Setter) : Keeps fun dbg => chain dbg w ss := by
  induction ss generalizing w with
  | nil => exact keeps_const _
  | cons s ss ih =>
    refine keeps_bind (f := fun dbg => s.apply dbg w) ?_ ih
    cases s with
    | rd v => exact keeps_map (keeps_guard _ _)
    | rs1 v => exact keeps_map (keeps_guard _ _)
    | rs2 v => exact keeps_map (keeps_guard _ _)
    | imm v => exact keeps_setImm w v

theorem keeps_add (a b : BitVec 32) : Keeps fun c => Guest.add c a b := by
  intro r h
  simp only [Guest.add] at *
  split at h
  · cases h
  · exact h

theorem keeps_sub (a b : BitVec 32) : Keeps fun c => Guest.sub c a b := by
  intro r h
  simp only [Guest.sub] at *
  split at h
  · cases h
  · exact h

theorem keeps_mul (a b : BitVec 32) : Keeps fun c => Guest.mul c a b := by
  intro r h
  simp only [Guest.mul] at *
  split at h
  · cases h
  · exact h

theorem keeps_poly (x : BitVec 32) (cs : List (BitVec 32)) (e p : BitVec 32) : Keeps fun c => Guest.polyLoop c x cs e p := by
  induction cs generalizing e p with
  | nil => exact keeps_const _
  | cons k cs ih =>
    exact keeps_bind (keeps_mul _ _) fun m => keeps_bind (keeps_add _ _) fun e' => keeps_bind (keeps_mul _ _) fun p' => ih e' p'

theorem keeps_foldlM {α β : Type} (f : Bool → β → α → Option β) (h : ∀ b a, Keeps fun c => f c b a) (l : List α) (b : β) :
    Keeps fun c => l.foldlM (f c) b := by
  induction l generalizing b with
  | nil => exact keeps_const _
  | cons a l ih => exact keeps_bind (h b a) ih

theorem keeps_test1 (a : BitVec 32) (b : Bool) : Keeps fun c => Guest.test1 c a b := by
  unfold Guest.test1
  refine keeps_ite ?_ ?_
  · exact keeps_foldlM (fun c acc v => (Guest.add c acc a).bind fun s => Guest.add c s v)
      (fun _ _ => keeps_bind (keeps_add _ _) fun _ => keeps_add _ _) _ _
  · exact keeps_foldlM (fun c acc v => (Guest.mul c a v).bind fun m => Guest.add c acc m)
      (fun _ _ => keeps_bind (keeps_mul _ _) fun _ => keeps_add _ _) _ _

theorem keeps_swap (pool : Guest.Pool) (trade : Guest.Trade) (account : Guest.Account) : Keeps fun c => Guest.swap c pool trade account := by
  unfold Guest.swap
  refine keeps_ite (keeps_ite (keeps_const _) ?_) (keeps_ite (keeps_const _) ?_) <;>
    exact keeps_bind (keeps_const _) fun _ => keeps_bind (keeps_sub _ _) fun _ => keeps_bind (keeps_sub _ _) fun _ =>
      keeps_bind (keeps_add _ _) fun _ => keeps_bind (keeps_sub _ _) fun _ => keeps_bind (keeps_add _ _) fun _ => keeps_const _

theorem keeps_want (pool : Guest.Pool) (trade : Guest.Trade) (account : Guest.Account) : Keeps fun c => Host.wantSwap c pool trade account := by
  unfold Host.wantSwap
  refine keeps_ite ?_ ?_ <;>
    exact keeps_bind (keeps_const _) fun _ => keeps_bind (keeps_sub _ _) fun _ => keeps_bind (keeps_sub _ _) fun _ =>
      keeps_bind (keeps_add _ _) fun _ => keeps_bind (keeps_sub _ _) fun _ => keeps_bind (keeps_add _ _) fun _ => keeps_const _

/-- The guests, executed natively: the output tape with overflow checks is that without. -/
theorem C103_guests (tape : List Byte) :
    (Keeps fun chk => Guest.swapMain chk tape) ∧ (Keeps fun chk => Guest.polyMain chk tape) ∧ Keeps fun chk => Guest.test1Main chk tape :=
  ⟨keeps_map (keeps_swap _ _ _), keeps_map (keeps_poly _ _ _ _), keeps_map (keeps_test1 _ _)⟩

section
variable {B : Backend} (C : Cipher B) (rand : Nat → Nat → Nat → C.Rand) (decU : B.Uint → U32) (decP : B.Prep → U32)

/-- What the hosts have in common: whatever tape a debug build finds on both VMs, a release build finds too. -/
theorem C103_both (phantomDebug : Bool) (threads : Nat) (p : Phantom) (tape : List Byte) (n : Nat) :
    Keeps fun c => Host.bothTapes C rand decU decP c c phantomDebug threads p tape n := by
  intro out h
  have h := (C74_equal C rand decU decP true true phantomDebug threads p tape out n).mp h
  obtain ⟨⟨ev, ev2, h1, h2, h3⟩, vm0, vm1, vm2, h4, h5, h6, h7⟩ := h
  rw [C103_encrypted] at h1
  exact (C74_equal C rand decU decP false false phantomDebug threads p tape out n).mpr ⟨⟨ev, ev2, h1, h2, keeps_encOutput C ev2 _ h3⟩, vm0, vm1,
    vm2, keeps_testVm p n _ h4, keeps_readInputTape vm0 tape _ h5, keeps_execute vm1 _ h6, keeps_outputTape vm2 _ h7⟩

/-- The four hosts: whatever a debug build prints (after all its assertions), a release build prints, for every environment, guest file and
input. -/
theorem C103_hosts (utf8 : List Byte → Bool) (env : Host.Env) (cpus : Nat) (p : Phantom) :
    (∀ s, Keeps fun c => Host.matchHost C rand decU decP utf8 env cpus c c p s) ∧
    (∀ x, Keeps fun c => Host.polyHost C rand decU decP utf8 env cpus c c p x) ∧
    (∀ pad pool trade account, Keeps fun c => Host.swapHost C rand decU decP utf8 env cpus c c pad p pool trade account) ∧
    ∀ mid window volatility amount k, Keeps fun c => Host.otcHost C rand decU decP utf8 env cpus c c p mid window volatility amount k := by
  have hr (tape : List Byte) (n : Nat) : Keeps fun c => Host.runGuest C rand decU decP utf8 env cpus c c p tape n :=
    C103_both C rand decU decP _ _ p tape _
  refine ⟨fun s => ?_, fun x => ?_, fun pad pool trade account => ?_, fun _ _ _ _ _ => hr _ _⟩
  · unfold Host.matchHost
    exact keeps_bind (keeps_const _) fun _ => keeps_bind (hr _ _) fun _ => keeps_const _
  · unfold Host.polyHost
    exact keeps_bind (hr _ _) fun _ => keeps_bind (keeps_poly _ _ _ _) fun _ => keeps_const _
  · unfold Host.swapHost
    exact keeps_bind (hr _ _) fun _ => keeps_bind (keeps_want _ _ _) fun _ => keeps_const _

end

/-! ### A guest for which the builds differ -/

/-- `lui x2, 0x3F; lw x1, 0(x2); lui x3, 0x40; sw x1, 4(x3); j .`: reads its input one RAM size below. -/
def belowCode : List Instr := [.lui 2 0x3F, .load .lw 1 2 0, .lui 3 0x40, .store .sw 3 1 4, .jal 0 0]

def belowElf : Elf :=
  { bytes := wordBytes [0x0003F137#32, 0x00012083#32, 0x000401B7#32, 0x0011A223#32, 0x0000006F#32] ++ List.replicate 8 0#8
    segments := [⟨1, 5, 0, 0, 20, 20⟩, ⟨1, 6, 20, 0x40000, 8, 8⟩]
    sections := [(".inpdata", ⟨0x40000, 4⟩), (".outdata", ⟨0x40004, 4⟩)] }

def belowGuest : Phantom := (Phantom.fromElf belowElf).getD ⟨⟨[], 0, 0⟩, ⟨[], 0, 0⟩, ⟨0, 0⟩, ⟨0, 0⟩⟩

theorem below_elf : Phantom.fromElf belowElf = some belowGuest := by
  obtain ⟨x, hx⟩ := Option.isSome_iff_exists.mp (show (Phantom.fromElf belowElf).isSome = true by decide +kernel)
  unfold belowGuest
  rw [hx]; rfl

theorem below_words (k : Nat) (hk : k < 5) : ∃ i w, belowCode[k]? = some i ∧ TestReads w i ∧ TestWord belowGuest.bootRom.data (4 * k) w ∧
    alwaysSame i := by
  have : k = 0 ∨ k = 1 ∨ k = 2 ∨ k = 3 ∨ k = 4 := by omega
  rcases this with rfl | rfl | rfl | rfl | rfl <;>
    exact ⟨_, _, rfl, .own _, testWord_of _ (by decide +kernel), by simp [alwaysSame]⟩

theorem below_fetch {fetch : Word → Option Instr} (hf : FetchTest belowGuest.bootRom.data fetch) (k : Nat) (hk : k < 5) :
    fetch (BitVec.ofNat 32 (4 * k)) = belowCode[k]? := by
  obtain ⟨i, w, h1, h2, h3, -⟩ := below_words k hk
  have e : (BitVec.ofNat 32 (4 * k)).toNat = 4 * k := by rw [BitVec.toNat_ofNat, Nat.mod_eq_of_lt (by omega)]
  rw [h1]
  exact (hf _ _).mpr ⟨by rw [e]; omega, w, by rw [e]; exact h3, h2⟩

/-- The load below the RAM reads the input. -/
theorem below_load {bytes : List Byte} {x : Word} (hin : Placed belowGuest.bootRam.data (belowGuest.input.startAddr - ramBase) (fourBytes x) bytes) :
    LoadOp.lw.eval (fun b => (startState bytes).mem (ramByte ramBase 4096 b)) 0x3F000#32 = x := by
  have h0 : belowGuest.input.startAddr - ramBase = 0 := by decide +kernel
  rw [h0] at hin
  refine Eq.trans ?_ (word_load (m := (startState bytes).mem) (x := x) fun i b hb => ?_)
  · have r0 : ramByte ramBase 4096 0x3F000#32 = 0x40000#32 := by decide
    have r1 : ramByte ramBase 4096 0x3F001#32 = 0x40001#32 := by decide
    have r2 : ramByte ramBase 4096 0x3F002#32 = 0x40002#32 := by decide
    have r3 : ramByte ramBase 4096 0x3F003#32 = 0x40003#32 := by decide
    generalize (startState bytes).mem = m
    show BitVec.ofNat 32 ((m (ramByte ramBase 4096 0x3F000#32)).toNat + 256 * ((m (ramByte ramBase 4096 0x3F001#32)).toNat + 256 *
      ((m (ramByte ramBase 4096 0x3F002#32)).toNat + 256 * ((m (ramByte ramBase 4096 0x3F003#32)).toNat + 256 * 0)))) = _
    rw [r0, r1, r2, r3]
    rfl
  · have hi : i < 4 := (List.getElem?_eq_some_iff.mp hb).1
    rw [show (0x40000 + i) = ramBase + i from rfl, startState_mem _ _ (by unfold ramBase; omega), List.getD_eq_getElem?_getD]
    have := hin.2.2.1 i hi
    rw [Nat.zero_add] at this
    rw [this, hb]; rfl

theorem below_run {fetch : Word → Option Instr} {bytes : List Byte} {x : Word} (hf : FetchTest belowGuest.bootRom.data fetch)
    (hin : Placed belowGuest.bootRam.data (belowGuest.input.startAddr - ramBase) (fourBytes x) bytes) (n : Nat) :
    ∃ s, RunsIf fetch (fun i s => (¬ stuck i s false ramBase ∧ s.pc.toNat < belowGuest.bootRom.data.length) ∧ sameStep i s)
      (execTest ramBase 4096) (4 + n) (startState bytes) s ∧ ramBytes s 4 4 = fourBytes x := by
  have hrl : belowGuest.bootRom.data.length = 20 := by decide +kernel
  rw [hrl]
  have hl := below_load hin
  generalize hok : (fun (i : Instr) (s : Arch) => (¬ stuck i s false ramBase ∧ s.pc.toNat < 20) ∧ sameStep i s) = ok
  have f0 : fetch 0#32 = some (.lui 2 0x3F) := below_fetch hf 0 (by decide)
  have f1 : fetch 4#32 = some (.load .lw 1 2 0) := below_fetch hf 1 (by decide)
  have f2 : fetch 8#32 = some (.lui 3 0x40) := below_fetch hf 2 (by decide)
  have f3 : fetch 12#32 = some (.store .sw 3 1 4) := below_fetch hf 3 (by decide)
  have f4 : fetch 16#32 = some (.jal 0 0) := below_fetch hf 4 (by decide)
  have q0 : (startState bytes).pc = 0#32 := rfl
  generalize startState bytes = s0 at *
  obtain ⟨s1, e1⟩ : ∃ s, s = execTest ramBase 4096 (.lui 2 0x3F) s0 := ⟨_, rfl⟩
  obtain ⟨s2, e2⟩ : ∃ s, s = execTest ramBase 4096 (.load .lw 1 2 0) s1 := ⟨_, rfl⟩
  obtain ⟨s3, e3⟩ : ∃ s, s = execTest ramBase 4096 (.lui 3 0x40) s2 := ⟨_, rfl⟩
  obtain ⟨s4, e4⟩ : ∃ s, s = execTest ramBase 4096 (.store .sw 3 1 4) s3 := ⟨_, rfl⟩
  have q1 : s1.pc = 4#32 := by rw [e1]; show s0.pc + 4#32 = _; rw [q0]; rfl
  have q2 : s2.pc = 8#32 := by rw [e2]; show s1.pc + 4#32 = _; rw [q1]; rfl
  have q3 : s3.pc = 12#32 := by rw [e3]; show s2.pc + 4#32 = _; rw [q2]; rfl
  have q4 : s4.pc = 16#32 := by rw [e4]; show s3.pc + 4#32 = _; rw [q3]; rfl
  have x1 : s1.x 2 = 0x3F000#32 := by rw [e1]; rfl
  have a1 : s1.x 2 + immI 0 = 0x3F000#32 := by rw [x1]; rfl
  have x2 : s2.x 1 = x := by
    rw [e2]
    show LoadOp.lw.eval (fun b => s1.mem (ramByte ramBase 4096 b)) (s1.x 2 + immI 0) = x
    rw [a1, e1]
    exact hl
  have x3 : s3.x 3 = 0x40000#32 := by rw [e3]; rfl
  have y3 : s3.x 1 = x := by rw [e3]; exact x2
  have a3 : s3.x 3 + immI 4 = 0x40004#32 := by rw [x3]; rfl
  have r1 : RunsIf fetch ok (execTest ramBase 4096) 1 s0 s1 := by
    rw [e1]
    subst hok
    refine .succ (i := (.lui 2 0x3F)) (by rw [q0]; exact f0) ⟨⟨?_, by rw [q0]; decide⟩, trivial⟩ (.zero _)
    rintro (⟨t, h, -⟩ | h | h | ⟨h, -⟩)
    · cases h
    · exact h
    · exact h
    · cases h
  have r2 : RunsIf fetch ok (execTest ramBase 4096) 1 s1 s2 := by
    rw [e2]
    subst hok
    refine .succ (i := (.load .lw 1 2 0)) (by rw [q1]; exact f1) ⟨⟨?_, by rw [q1]; decide⟩, Or.inr trivial⟩ (.zero _)
    rintro (⟨t, h, -⟩ | h | h | ⟨h, -⟩)
    · cases h
    · have h : (s1.x 2 + immI 0).toNat % 4 ≠ 0 := h
      rw [a1] at h
      exact h (by decide)
    · exact h
    · cases h
  have r3 : RunsIf fetch ok (execTest ramBase 4096) 1 s2 s3 := by
    rw [e3]
    subst hok
    refine .succ (i := (.lui 3 0x40)) (by rw [q2]; exact f2) ⟨⟨?_, by rw [q2]; decide⟩, trivial⟩ (.zero _)
    rintro (⟨t, h, -⟩ | h | h | ⟨h, -⟩)
    · cases h
    · exact h
    · exact h
    · cases h
  have r4 : RunsIf fetch ok (execTest ramBase 4096) 1 s3 s4 := by
    rw [e4]
    subst hok
    refine .succ (i := (.store .sw 3 1 4)) (by rw [q3]; exact f3) ⟨⟨?_, by rw [q3]; decide⟩, trivial⟩ (.zero _)
    rintro (⟨t, h, -⟩ | h | h | ⟨h, -⟩)
    · cases h
    · have h : (s3.x 3 + immI 4).toNat % 4 ≠ 0 := h
      rw [a3] at h
      exact h (by decide)
    · exact h
    · cases h
  have r5 (n : Nat) : RunsIf fetch ok (execTest ramBase 4096) n s4 s4 := by
    induction n with
    | zero => exact .zero _
    | succ n ih =>
      subst hok
      refine .succ (i := (.jal 0 0)) (by rw [q4]; exact f4) ⟨⟨spin_fine (by rw [q4]; decide), by rw [q4]; decide⟩, (⟨by decide, by decide⟩ : _ ∧ _)⟩ ?_
      rw [show execTest ramBase 4096 (.jal 0 0) s4 = s4 from spin_stays]
      exact ih
  refine ⟨s4, runsIf_append (a := 4) (runsIf_append (a := 3) (runsIf_append (a := 2) (runsIf_append (a := 1) r1 r2) r3) r4) (r5 n), ?_⟩
  refine List.map_congr_left fun q hq => ?_
  have hw : execTest ramBase 4096 (.store .sw 3 1 4) s3 = exec (.store .sw 3 1 4) s3 := C97_window _ _ _ _ (by decide) (by
    intro a k h
    cases h
    rw [a3]; decide)
  rw [e4, hw, show ramBase + (4 + q) = 0x40004 + q by unfold ramBase; omega]
  show storeBytes s3.mem (s3.x 3 + immI 4) (s3.x 1) 4 _ = _
  rw [a3, y3]
  exact out_store _ _ q (List.mem_range.mp hq)

/-- For every input and number of cycles from four on: a release build of a host finds the input as the output of both VMs; in a debug build
the test VM panics. -/
theorem C103_below (F : Fhe) (rand : Nat → Nat → Nat → F.C.Rand) (phantomDebug : Bool) (threads n : Nat) (ht : 0 < threads) (h4 : 4 ≤ n)
    (hn : n < 2 ^ 32) (x : Word) :
    Host.bothTapes F.C rand F.decU F.decP false false false threads belowGuest (fourBytes x) n = some (fourBytes x) ∧
    Host.bothTapes F.C rand F.decU F.decP true true phantomDebug threads belowGuest (fourBytes x) n = none := by
  have hl : (fourBytes x).length = 4 := rfl
  constructor
  · obtain ⟨q, hq⟩ : ∃ q, Parser.new.addAll false (packWords belowGuest.bootRom.data) = some q := by
      rw [← Option.isSome_iff_exists]; decide +kernel
    obtain ⟨ev, hev⟩ := C42_setup F rand false false threads n belowElf belowGuest (fourBytes x) q below_elf
      (by decide +kernel) (by decide +kernel) hq (hl.trans (by decide +kernel)) (by decide +kernel) (by decide +kernel)
    obtain ⟨fetch, bytes, hf, hin, hall⟩ := C99_output F rand false false threads n belowElf belowGuest (fourBytes x) ev
      (by decide +kernel) below_elf ht hn hev (by decide +kernel) (hl.trans (by decide +kernel)) (by decide +kernel) (by decide +kernel)
      (by decide +kernel) (by decide +kernel)
    obtain ⟨s, hr, ho⟩ := below_run hf hin (n - 4)
    rw [show 4 + (n - 4) = n by omega] at hr
    obtain ⟨vm0, vm1, vm2, ev2, e0, e1, e2, e3, o1, o2⟩ := hall s hr
    rw [show belowGuest.output.startAddr - ramBase = 4 by decide +kernel, show belowGuest.output.size = 4 by decide +kernel, ho] at o1 o2
    exact (C74_equal _ _ _ _ _ _ _ _ _ _ _ _).mpr ⟨⟨ev, ev2, hev, e3, o2⟩, vm0, vm1, vm2, e0, e1, e2, o1⟩
  · cases hb : Host.bothTapes F.C rand F.decU F.decP true true phantomDebug threads belowGuest (fourBytes x) n with
    | none => rfl
    | some out =>
      obtain ⟨-, vm0, vm1, vm2, h0, h1, h2, -⟩ := (C74_equal _ _ _ _ _ _ _ _ _ _ _ _).mp hb
      obtain ⟨fetch, bytes, wm0, wm1, hf, hin, e0, e1, hx, -⟩ := C97_testvm true n belowElf belowGuest (fourBytes x) (by decide +kernel) below_elf
        (by decide +kernel) (hl.trans (by decide +kernel)) (by decide +kernel) (by decide +kernel) (by decide +kernel) (by decide +kernel)
      have w0 := Option.some.inj (e0.symm.trans h0)
      rw [w0] at e1
      have w1 := Option.some.inj (e1.symm.trans h1)
      rw [w1] at hx
      obtain ⟨s', hr⟩ := hx.mp ⟨vm2, h2⟩
      have f0 : fetch 0#32 = some (.lui 2 0x3F) := below_fetch hf 0 (by decide)
      have f1 : fetch 4#32 = some (.load .lw 1 2 0) := below_fetch hf 1 (by decide)
      have q0 : (startState bytes).pc = 0#32 := rfl
      generalize startState bytes = s0 at *
      obtain ⟨m, rfl⟩ : ∃ m, n = m + 1 + 1 := ⟨n - 2, by omega⟩
      cases hr with
      | succ h0 _ hr =>
        rw [q0, f0] at h0
        cases h0
        cases hr with
        | succ h1 hok _ =>
          have q1 : (execTest ramBase 4096 (.lui 2 0x3F) s0).pc = 4#32 := by show s0.pc + 4#32 = _; rw [q0]; rfl
          rw [q1, f1] at h1
          cases h1
          refine absurd (Or.inr (Or.inr (Or.inr ⟨rfl, Or.inl ⟨_, _, rfl, ?_⟩⟩))) hok
          have a1 : (execTest ramBase 4096 (.lui 2 0x3F) s0).x 2 + immI 0 = 0x3F000#32 := rfl
          rw [a1]; decide

/-- A chain of setters that only a release build gets through: `set_rs2` on an I-type word. -/
example : chain true Template.ADDI.new [.rs2 3#32] = none ∧ (chain false Template.ADDI.new [.rs2 3#32]).isSome = true := by decide +kernel

/-- The guest of the AMM, where the balance of the account overflows: with checks it panics, without them the balance wraps. -/
example : ∃ tape, Guest.swapMain true tape = none ∧ (Guest.swapMain false tape).isSome = true :=
  ⟨Guest.swapInput ⟨100#32, 500#32⟩ ⟨50#32, true⟩ ⟨60#32, 0xFFFFFFFF#32⟩ [0, 0, 0], by decide +kernel, by decide +kernel⟩

/-- A session with overflow checks that completes, and so does the same without. -/
example : ∃ r, ((downGuest.testVm true 100).bind fun vm => vm.session true [.tape (fourBytes 3#32), .execute, .output, .tape (fourBytes 5#32),
      .execute, .output]) = some r ∧
    ((downGuest.testVm false 100).bind fun vm => vm.session false [.tape (fourBytes 3#32), .execute, .output, .tape (fourBytes 5#32),
      .execute, .output]) = some r := by
  obtain ⟨vm0, vm, h0, h1⟩ := C102_countdown true 100 1 3 5 (by decide) (by decide)
  have h : ((downGuest.testVm true 100).bind fun vm => vm.session true [.tape (fourBytes 3#32), .execute, .output, .tape (fourBytes 5#32),
      .execute, .output]) = some (vm, [fourBytes 3#32, fourBytes 3#32]) := by rw [h0]; exact h1
  exact ⟨_, h, C103_testvm downGuest 100 _ _ h⟩

end Verif.Props
