import Verif.Props.Divergent
/-
  C93: what a cycle limit below the length of the program does.  Neither VM has a notion of the program being finished: `execute` of
  both (compiler/src/interpreter/testvm.rs:404-411, compiler/src/interpreter.rs:121-138) counts to the limit, and the
  output is whatever is then in the output section.
-/
namespace Verif.Props
open Model Model.Link Spec Boot ElfFile

/-- Every guest from object files, for every limit up to the length of a run on which the manual's machine and the interpreter agree:
neither VM fails, both return the output section as it is at that moment; up to the seventh cycle that is what the file holds there. -/
theorem C93_prefix (F : Fhe) (rand : Nat → Nat → Nat → F.C.Rand) (chk dbg phantomDebug : Bool) (threads N : Nat) (hth : 0 < threads)
    {gc : Bool} {rust : ObjSec} {rt : Nat} {gs : List ObjSec} {r : Linked} (hrt : 0 < rt)
    (hr : rust.sym = startRustSec rt) (hdef : rust.defs = [("_start_rust", 0)]) (hv : ∀ s ∈ gs, Piece.Valid s.sym.piece)
    (hfree : ∀ s ∈ gs, ∀ n ∈ scriptSymbols, n ∉ s.defs.map (·.1)) (h : linkObjs gc (guestObjs rust gs) = some r)
    {c : Contents} (hh : Holds r.secs r.layout r.places r.bytes c) {e : Elf} {k : Kinds}
    (he : LldFile e r.layout k c) (hi : k.inp ≠ none) (ho : k.out ≠ none) (hne : ∃ s ∈ r.layout.ramSections, 0 < s.size)
    (hfile : e.bytes.length < 2 ^ 63) (hpa : (Parser.new.addAll dbg (packWords c.text)).isSome = true)
    (tape : List Byte) (hlen : tape.length = r.layout.inp.size) (fetch : Word → Option Instr) (hf : FetchFrom c.text fetch)
    (hrun : ∀ entry s, (1, entry) ∈ r.places → Entered r.layout c (BitVec.ofNat 32 entry) tape s → ∃ s', Runs fetch Alike N s s') :
    ∃ p, Phantom.fromElf e = some p ∧ ∀ n, n ≤ N + 7 → n < 2 ^ 32 → ∃ out,
    (∃ vm0 vm1 vm2, p.testVm chk n = some vm0 ∧ vm0.readInputTape chk tape = some vm1 ∧ vm1.execute chk = some vm2 ∧
      vm2.outputTape chk = some out) ∧
    (∃ ev ev2, p.encryptedVm F.C rand dbg phantomDebug threads tape n = some ev ∧
      ev.execute F.C F.decU F.decP = some ev2 ∧ ev2.outputTape F.C chk = some out) ∧
    (n ≤ 7 → out = c.out) ∧
    (7 ≤ n → ∃ entry s s', (1, entry) ∈ r.places ∧ Entered r.layout c (BitVec.ofNat 32 entry) tape s ∧ Runs fetch Alike (n - 7) s s' ∧
      out = ramBytes s' (r.layout.out.addr - ramBase) r.layout.out.size) := by
  obtain ⟨p, hp, hlow, entry, s0, s1, hentry, q1, hout, hin, both⟩ := objects_start F rand chk dbg phantomDebug threads hth hrt hr hdef hv
    hfree h hh he hi ho hne hfile hpa tape hlen fetch hf
  refine ⟨p, hp, fun n hn hn' => ?_⟩
  by_cases h7 : n < 7
  · obtain ⟨b, hb⟩ : ∃ b, 7 = n + b := ⟨7 - n, by omega⟩
    rw [hb] at q1
    obtain ⟨t, h1, h2⟩ := runs_take n _ q1
    have h1 : Runs fetch Alike n s0 t := h1.mono (fun _ _ h => h) fun _ _ => harmless_alike
    obtain ⟨g1, g2⟩ := both n t t hn' (alike_test hlow chk h1) (alike_enc h1)
    refine ⟨_, g1, g2, fun _ => ?_, fun h => by omega⟩
    rw [← hout]
    unfold ramBytes
    rw [runs_mem (fun _ _ h => harmless_mem h.1) h2]
  · have q1 : Runs fetch Alike 7 s0 s1 := q1.mono (fun _ _ h => h) fun _ _ => harmless_alike
    obtain ⟨s', hs'⟩ := hrun entry s1 hentry hin
    obtain ⟨m, rfl⟩ : ∃ m, n = 7 + m := ⟨n - 7, by omega⟩
    obtain ⟨b, rfl⟩ : ∃ b, N = m + b := ⟨N - m, by omega⟩
    obtain ⟨t, h1, -⟩ := runs_take m _ hs'
    have h2 := runs_append q1 h1
    obtain ⟨g1, g2⟩ := both (7 + m) t t hn' (alike_test hlow chk h2) (alike_enc h2)
    refine ⟨_, g1, g2, fun h => ?_, fun _ => ⟨entry, s1, t, hentry, hin, by rw [Nat.add_sub_cancel_left]; exact h1, rfl⟩⟩
    obtain rfl : m = 0 := by omega
    cases h1
    exact hout

/-- Whatever the guest: with a limit of at most seven cycles both VMs return what the file holds in the output section. -/
theorem C93_early (F : Fhe) (rand : Nat → Nat → Nat → F.C.Rand) (chk dbg phantomDebug : Bool) (threads n : Nat) (hth : 0 < threads)
    (hn : n ≤ 7) {gc : Bool} {rust : ObjSec} {rt : Nat} {gs : List ObjSec} {r : Linked} (hrt : 0 < rt)
    (hr : rust.sym = startRustSec rt) (hdef : rust.defs = [("_start_rust", 0)]) (hv : ∀ s ∈ gs, Piece.Valid s.sym.piece)
    (hfree : ∀ s ∈ gs, ∀ n ∈ scriptSymbols, n ∉ s.defs.map (·.1)) (h : linkObjs gc (guestObjs rust gs) = some r)
    {c : Contents} (hh : Holds r.secs r.layout r.places r.bytes c) {e : Elf} {k : Kinds}
    (he : LldFile e r.layout k c) (hi : k.inp ≠ none) (ho : k.out ≠ none) (hne : ∃ s ∈ r.layout.ramSections, 0 < s.size)
    (hfile : e.bytes.length < 2 ^ 63) (hpa : (Parser.new.addAll dbg (packWords c.text)).isSome = true)
    (tape : List Byte) (hlen : tape.length = r.layout.inp.size) :
    ∃ p, Phantom.fromElf e = some p ∧
    (∃ vm0 vm1 vm2, p.testVm chk n = some vm0 ∧ vm0.readInputTape chk tape = some vm1 ∧ vm1.execute chk = some vm2 ∧
      vm2.outputTape chk = some c.out) ∧
    ∃ ev ev2, p.encryptedVm F.C rand dbg phantomDebug threads tape n = some ev ∧
      ev.execute F.C F.decU F.decP = some ev2 ∧ ev2.outputTape F.C chk = some c.out := by
  obtain ⟨fetch, hf⟩ := C90_fetch c.text
  obtain ⟨p, hp, q⟩ := C93_prefix F rand chk dbg phantomDebug threads 0 hth hrt hr hdef hv hfree h hh he hi ho hne hfile hpa tape hlen fetch
    hf (fun _ s _ _ => ⟨s, .zero s⟩)
  obtain ⟨out, q1, q2, q3, -⟩ := q n (by omega) (by omega)
  cases q3 hn
  exact ⟨p, hp, q1, q2⟩

/-- The template stopped after five cycles: no error, and zero for an output whatever the point. -/
example (dbg : Bool) (tape : List Byte) (hl : tape.length = 4) : ∃ (r : Linked) (e : Elf) (p : Phantom),
    linkObjs true (guestObjs rustObj polyObjs) = some r ∧ Phantom.fromElf e = some p ∧
    ∃ vm0 vm1 vm2, p.testVm true 5 = some vm0 ∧ vm0.readInputTape true tape = some vm1 ∧ vm1.execute true = some vm2 ∧
      vm2.outputTape true = some [0#8, 0#8, 0#8, 0#8] := by
  obtain ⟨r, h1, h2, h3⟩ := C91_poly_linked
  have he := lldElf_is polyLayout polyKinds polyContents
  rw [← h2] at he
  obtain ⟨p, g1, g2, -⟩ := C93_early sampleFhe (fun _ _ _ => ()) true dbg true 3 5 (by decide) (by decide) (rt := 8) (by decide) rfl rfl
    (by unfold Piece.Valid; decide +kernel) (by decide) h1 ((h3 _).mpr rfl) he (by decide) (by decide)
    ⟨r.layout.inp, by simp [Layout.ramSections], by rw [h2]; decide⟩ (by rw [h2]; decide +kernel) (by cases dbg <;> decide +kernel) tape
    (by rw [h2]; exact hl)
  exact ⟨r, _, p, h1, g1, g2⟩

/-! ### string-match -/

/-- string-match with byte loads for every limit: 156 cycles are needed, with fewer both VMs say that nothing matches. -/
theorem C93_match_bytes (F : Fhe) (rand : Nat → Nat → Nat → F.C.Rand) (chk dbg phantomDebug : Bool) (threads n : Nat) (ht : 0 < threads)
    (hn' : n < 2 ^ 32) (r : Linked) (hr : linkObjs true (guestObjs rustObj (matchObjs .lbu 1)) = some r)
    (c : Contents) (hc : Holds r.secs r.layout r.places r.bytes c) (e : Elf) (he : LldFile e r.layout matchKinds c)
    (hfile : e.bytes.length < 2 ^ 63) (tape : List Byte) (hlen : tape.length = 20) :
    ∃ p, Phantom.fromElf e = some p ∧
    (∃ vm0 vm1 vm2, p.testVm chk n = some vm0 ∧ vm0.readInputTape chk tape = some vm1 ∧ vm1.execute chk = some vm2 ∧
      vm2.outputTape chk = some [if 156 ≤ n ∧ tape = secret then 1#8 else 0#8]) ∧
    ∃ ev ev2, p.encryptedVm F.C rand dbg phantomDebug threads tape n = some ev ∧
      ev.execute F.C F.decU F.decP = some ev2 ∧
      ev2.outputTape F.C chk = some [if 156 ≤ n ∧ ∀ k, k < 5 → tape[4 * k]? = secret[4 * k]? then 1#8 else 0#8] :=
  match_output .lbu 1 1 20 (by decide) (by decide) rfl rfl (by decide +kernel) C92_match_linked.1
    (match_entry _ _ (by decide +kernel)) (by unfold Piece.Valid; decide +kernel) F rand chk dbg phantomDebug threads n ht hn' r hr c hc e
    he hfile tape hlen _ _ (fun _ => seen_bytes tape hlen) (fun _ => seen_firsts tape)

/-- With word loads 51 cycles are needed. -/
theorem C93_match_words (F : Fhe) (rand : Nat → Nat → Nat → F.C.Rand) (chk dbg phantomDebug : Bool) (threads n : Nat) (ht : 0 < threads)
    (hn' : n < 2 ^ 32) (r : Linked) (hr : linkObjs true (guestObjs rustObj (matchObjs .lw 4)) = some r)
    (c : Contents) (hc : Holds r.secs r.layout r.places r.bytes c) (e : Elf) (he : LldFile e r.layout matchKinds c)
    (hfile : e.bytes.length < 2 ^ 63) (tape : List Byte) (hlen : tape.length = 20) :
    ∃ p, Phantom.fromElf e = some p ∧
    (∃ vm0 vm1 vm2, p.testVm chk n = some vm0 ∧ vm0.readInputTape chk tape = some vm1 ∧ vm1.execute chk = some vm2 ∧
      vm2.outputTape chk = some [if 51 ≤ n ∧ tape = secret then 1#8 else 0#8]) ∧
    ∃ ev ev2, p.encryptedVm F.C rand dbg phantomDebug threads tape n = some ev ∧
      ev.execute F.C F.decU F.decP = some ev2 ∧ ev2.outputTape F.C chk = some [if 51 ≤ n ∧ tape = secret then 1#8 else 0#8] :=
  match_output .lw 4 4 5 (by decide) (by decide) rfl rfl (by decide +kernel) C92_match_linked.2
    (match_entry _ _ (by decide +kernel)) (by unfold Piece.Valid; decide +kernel) F rand chk dbg phantomDebug threads n ht hn' r hr c hc e
    he hfile tape hlen _ _ (fun _ a b => seen_words tape hlen a b id fun _ _ _ => rfl)
    (fun _ a b => seen_words tape hlen a b _ fun k h1 h2 => by rw [ramWord_eq k h1, show 4 * (k / 4) = k by omega])

/-- The host of string-match under a limit that is too low: its assertions fail exactly for the string that matches; for every other
string it gets through, although the program was cut off before it looked at all of the string. -/
theorem C93_match_host (F : Fhe) (rand : Nat → Nat → Nat → F.C.Rand) (utf8 : List Byte → Bool) (env : Host.Env) (cpus : Nat)
    (chk dbg : Bool) (ht : 0 < Host.threads utf8 env cpus) (r : Linked) (c : Contents)
    (hc : Holds r.secs r.layout r.places r.bytes c) (e : Elf) (he : LldFile e r.layout matchKinds c) (hfile : e.bytes.length < 2 ^ 63)
    (hlow : Host.maxCycles utf8 env 100 < 51 ∧ linkObjs true (guestObjs rustObj (matchObjs .lw 4)) = some r ∨
      Host.maxCycles utf8 env 100 < 156 ∧ linkObjs true (guestObjs rustObj (matchObjs .lbu 1)) = some r) :
    ∃ p, Phantom.fromElf e = some p ∧ ∀ s, s.length ≤ 20 → Host.matchHost F.C rand F.decU F.decP utf8 env cpus chk dbg p s =
      if s ++ List.replicate (20 - s.length) 0#8 = secret then none else some false := by
  have len : ∀ s : List Byte, s.length ≤ 20 → (s ++ List.replicate (20 - s.length) 0#8).length = 20 := by
    intro s hs; simp; omega
  have key : ∃ p, Phantom.fromElf e = some p ∧ ∀ tape : List Byte, tape.length = 20 →
      (∃ vm0 vm1 vm2, p.testVm chk (Host.maxCycles utf8 env 100) = some vm0 ∧ vm0.readInputTape chk tape = some vm1 ∧
        vm1.execute chk = some vm2 ∧ vm2.outputTape chk = some [if False then 1#8 else 0#8]) ∧
      ∃ ev ev2, p.encryptedVm F.C rand dbg (Host.flag utf8 env "PHANTOM_DEBUG") (Host.threads utf8 env cpus) tape
          (Host.maxCycles utf8 env 100) = some ev ∧
        ev.execute F.C F.decU F.decP = some ev2 ∧ ev2.outputTape F.C chk = some [if False then 1#8 else 0#8] := by
    rcases hlow with ⟨hn, hr⟩ | ⟨hn, hr⟩
    · have run := C93_match_words F rand chk dbg (Host.flag utf8 env "PHANTOM_DEBUG") (Host.threads utf8 env cpus) _ ht
        (show Host.maxCycles utf8 env 100 < 2 ^ 32 by omega) r hr c hc e he hfile
      obtain ⟨p, hp, -⟩ := run secret (by decide)
      refine ⟨p, hp, fun tape hl => ?_⟩
      obtain ⟨p', hp', q⟩ := run tape hl
      cases Option.some.inj (hp.symm.trans hp')
      simpa only [show ¬ 51 ≤ Host.maxCycles utf8 env 100 by omega, false_and] using q
    · have run := C93_match_bytes F rand chk dbg (Host.flag utf8 env "PHANTOM_DEBUG") (Host.threads utf8 env cpus) _ ht
        (show Host.maxCycles utf8 env 100 < 2 ^ 32 by omega) r hr c hc e he hfile
      obtain ⟨p, hp, -⟩ := run secret (by decide)
      refine ⟨p, hp, fun tape hl => ?_⟩
      obtain ⟨p', hp', q⟩ := run tape hl
      cases Option.some.inj (hp.symm.trans hp')
      simpa only [show ¬ 156 ≤ Host.maxCycles utf8 env 100 by omega, false_and] using q
  obtain ⟨p, hp, q⟩ := key
  refine ⟨p, hp, fun s hs => ?_⟩
  obtain ⟨hT, hE⟩ := q _ (len s hs)
  rw [matchHost_of F rand utf8 env cpus chk dbg p s hs _ _ hT hE]
  by_cases h : s ++ List.replicate (20 - s.length) 0#8 = secret
  · rw [if_pos h, if_neg (fun q => q.1.mpr h)]
  · rw [if_neg h, if_pos ⟨⟨False.elim, h⟩, ⟨False.elim, h⟩⟩, decide_eq_false h]

/-- The limit of string-match's host, 100, is too low for the guest with byte loads: its host rejects "mississippi" and accepts
"not-mississippi". -/
example (dbg : Bool) : ∃ (r : Linked) (e : Elf) (p : Phantom), linkObjs true (guestObjs rustObj (matchObjs .lbu 1)) = some r ∧
    Phantom.fromElf e = some p ∧
    Host.matchHost sampleFhe.C (fun _ _ _ => ()) sampleFhe.decU sampleFhe.decP (fun _ => true) (fun _ => none) 4 true dbg p
      Guest.hidden = none ∧
    Host.matchHost sampleFhe.C (fun _ _ _ => ()) sampleFhe.decU sampleFhe.decP (fun _ => true) (fun _ => none) 4 true dbg p
      Host.notMississippi = some false := by
  obtain ⟨r, h1, h2, h3⟩ := C92_match_linked.1
  have he := lldElf_is matchLayout matchKinds (matchContents .lbu 1)
  rw [← h2] at he
  obtain ⟨p, g1, g2⟩ := C93_match_host sampleFhe (fun _ _ _ => ()) (fun _ => true) (fun _ => none) 4 true dbg (by decide) r _
    ((h3 _).mpr rfl) _ he (by rw [h2]; decide +kernel) (.inr ⟨by decide, h1⟩)
  refine ⟨r, _, p, h1, g1, ?_, ?_⟩
  · rw [g2 _ (by decide), if_pos (by decide +kernel)]
  · rw [g2 _ (by decide), if_neg (by decide +kernel)]

/-- One cycle decides: with 155 the matching string is not recognised, with 156 it is. -/
example (dbg : Bool) : ∃ (e : Elf) (p : Phantom), Phantom.fromElf e = some p ∧ ∀ n b, (n, b) ∈ [(155, 0#8), (156, 1#8)] →
    ∃ vm0 vm1 vm2, p.testVm true n = some vm0 ∧ vm0.readInputTape true secret = some vm1 ∧ vm1.execute true = some vm2 ∧
      vm2.outputTape true = some [b] := by
  obtain ⟨r, h1, h2, h3⟩ := C92_match_linked.1
  have he := lldElf_is matchLayout matchKinds (matchContents .lbu 1)
  rw [← h2] at he
  have run := fun n hn => C93_match_bytes sampleFhe (fun _ _ _ => ()) true dbg true 3 n (by decide) hn r h1 _ ((h3 _).mpr rfl) _ he
    (by rw [h2]; decide +kernel) secret (by decide)
  obtain ⟨p, g1, g2, -⟩ := run 155 (by decide)
  obtain ⟨p', g1', g2', -⟩ := run 156 (by decide)
  cases Option.some.inj (g1.symm.trans g1')
  refine ⟨_, p, g1, fun n b h => ?_⟩
  simp only [List.mem_cons, Prod.mk.injEq, List.not_mem_nil, or_false] at h
  rcases h with ⟨rfl, rfl⟩ | ⟨rfl, rfl⟩
  · rwa [if_neg (by decide)] at g2
  · rwa [if_pos (by decide)] at g2'

end Verif.Props
