import Verif.Props.Bound
import Verif.Props.LinkedGuests
/-
  Properties C107 and C108 for the files the linker writes.
-/
namespace Verif.Props
open Model Spec Model.Link

/-- What the two theorems need of such a file. -/
theorem linked_image {g : Guest} {l : Layout} {k : Kinds} {c : ElfFile.Contents} {e : Elf} (hv : Guest.Valid g) (hl : link g = some l)
    (hof : c.Of l) (he : LldFile e l k c) (hi : k.inp ≠ none) (ho : k.out ≠ none) (hne : ∃ s ∈ l.ramSections, 0 < s.size)
    {words : List Word} (htext : c.text = wordBytes words) {code : List Instr} (hc0 : code ≠ []) {T : Table} (htx : T.text code words = true) :
    ∃ p, Phantom.fromElf e = some p ∧ p.bootRom.data = wordBytes words ∧ code.length < 2 ^ 30 ∧ p.bootRam.offset = ramBase ∧
      p.input.size = l.inp.size ∧ ramBase ≤ p.input.startAddr ∧ p.input.startAddr + p.input.size ≤ ramBase + 4096 ∧
      ramBase ≤ p.output.startAddr ∧ p.output.startAddr + p.output.size ≤ ramBase + 4096 := by
  have hw : l.text.size = 4 * code.length := by rw [← hof.1, htext, wordBytes_length, text_length htx]
  have h0 : 0 < code.length := List.length_pos_iff.mpr hc0
  obtain ⟨p, hp, h1, h2, -, h4, h5, -⟩ := C82_loads hv hl hof he (by omega) hi ho hne
  obtain ⟨r1, r2, -, r4, -⟩ := C64_ram hv hl
  have a := r1 l.inp (by simp [Layout.ramSections])
  have b := r1 l.out (by simp [Layout.ramSections])
  refine ⟨p, hp, h1.trans htext, by omega, h2, by rw [h4], ?_⟩
  rw [h4, h5]
  refine ⟨a.2.1, ?_, b.2.1, ?_⟩
  · show l.inp.addr + l.inp.size ≤ 0x40000 + 4096
    omega
  · show l.out.addr + l.out.size ≤ 0x40000 + 4096
    omega

/-- A guest that is linked with the script of the repository and whose text passes the check: the file is loaded, and for every tape and number of
cycles both VMs run to the end and return the same output. -/
theorem C107_linked (F : Fhe) (rand : Nat → Nat → Nat → F.C.Rand) (chk dbg win : Bool) (threads n : Nat) {g : Guest} {l : Layout} {k : Kinds}
    {c : ElfFile.Contents} {e : Elf} (hv : Guest.Valid g) (hl : link g = some l) (hof : c.Of l) (he : LldFile e l k c) (hi : k.inp ≠ none)
    (ho : k.out ≠ none) (hne : ∃ s ∈ l.ramSections, 0 < s.size) (hfile : e.bytes.length < 2 ^ 63) (ht : 0 < threads) (hn : n < 2 ^ 32)
    (words : List Word) (htext : c.text = wordBytes words) (hpa : (Parser.new.addAll dbg words).isSome = true) (code : List Instr) (hc0 : code ≠ [])
    (T : Table) (htx : T.text code words = true) (hc : checkProgram win code T = true) (hw : chk = true → win = true) :
    ∃ p, Phantom.fromElf e = some p ∧ ∀ tape : List Byte, tape.length = l.inp.size →
      ∃ out, Host.bothTapes F.C rand F.decU F.decP chk dbg false threads p tape n = some out := by
  obtain ⟨p, hp, h1, h2, h3, h4, h5, h6, h7, h8⟩ := linked_image hv hl hof he hi ho hne htext hc0 htx
  exact ⟨p, hp, fun tape hlen => C107_complete F rand chk dbg win threads n e p code T tape hfile hp ht hn words h1 htx hc0 h2 hpa h3
    (hlen.trans h4.symm) h5 h6 h7 h8 hc hw⟩

/-- And if it also passes the check of the number of cycles: one output for every tape. -/
theorem C108_linked (win : Bool) (b : Nat) {g : Guest} {l : Layout} {k : Kinds} {c : ElfFile.Contents} {e : Elf} (hv : Guest.Valid g)
    (hl : link g = some l) (hof : c.Of l) (he : LldFile e l k c) (hi : k.inp ≠ none) (ho : k.out ≠ none)
    (hne : ∃ s ∈ l.ramSections, 0 < s.size) (hfile : e.bytes.length < 2 ^ 63) (words : List Word) (htext : c.text = wordBytes words)
    (hpa : ∀ dbg, (Parser.new.addAll dbg words).isSome = true) (code : List Instr) (hc0 : code ≠ []) (T : Table) (G : BGraph)
    (htx : T.text code words = true) (hc : checkProgram win code T = true) (hg : checkBound code T G b = true) :
    ∃ p, Phantom.fromElf e = some p ∧ ∀ tape : List Byte, tape.length = l.inp.size →
      ∃ out, ∀ (F : Fhe) (rand : Nat → Nat → Nat → F.C.Rand) (chk dbg : Bool) (threads n : Nat), 0 < threads → (chk = true → win = true) →
        b ≤ n → n < 2 ^ 32 → Host.bothTapes F.C rand F.decU F.decP chk dbg false threads p tape n = some out := by
  obtain ⟨p, hp, h1, h2, h3, h4, h5, h6, h7, h8⟩ := linked_image hv hl hof he hi ho hne htext hc0 htx
  exact ⟨p, hp, fun tape hlen => C108_enough win b e p code T G tape hfile hp words h1 htx hc0 h2 hpa h3 (hlen.trans h4.symm) h5 h6 h7 h8 hc hg⟩

/-! ### The guests of C89 and C90 -/

-- template and guest-test1 as linked, without the condition on the RAM
def polyLinked : List Instr := linkedCode 0x40824#32 0x41000#32 poly
def sumsLinked : List Instr := linkedCode 0x4080c#32 0x41000#32 sums
theorem polyLinked_checked : checkProgram false polyLinked (tableOf polyLinked 12) = true := by decide +kernel
theorem sumsLinked_checked : checkProgram false sumsLinked (tableOf sumsLinked 6) = true := by decide +kernel
theorem polyLinked_text : (tableOf polyLinked 12).text polyLinked (programWords 0x40824#32 0x41000#32 poly) = true := by decide +kernel
theorem sumsLinked_text : (tableOf sumsLinked 6).text sumsLinked (programWords 0x4080c#32 0x41000#32 sums) = true := by decide +kernel

-- the theorem applies to template: every tape, every number of cycles, in a release build
example (F : Fhe) (rand : Nat → Nat → Nat → F.C.Rand) (dbg : Bool) (n : Nat) (hn : n < 2 ^ 32) :
    ∃ p, Phantom.fromElf (lldElf polyLayout polyKinds polyContents) = some p ∧ ∀ tape : List Byte, tape.length = 4 →
      ∃ out, Host.bothTapes F.C rand F.decU F.decP false dbg false 32 p tape n = some out := by
  have hv := resolved_valid (by unfold Piece.Valid; decide +kernel) poly_links.1
  obtain ⟨g, hg, hl, -⟩ := placements_inv hv poly_links.2.1
  exact C107_linked F rand false dbg false 32 n (select_valid hv hg) hl (holds_of_check poly_links.2.2).1 (lldElf_is _ _ _) (by decide) (by decide)
    ⟨polyLayout.inp, by decide, by decide⟩ (by decide +kernel) (by decide) hn _ rfl (by cases dbg <;> decide +kernel) polyLinked
    (by decide +kernel) _ polyLinked_text polyLinked_checked fun h => by cases h

-- and C108 to uniswap
example : ∃ p, Phantom.fromElf (lldElf ammLayout ammKinds ammContents) = some p ∧ ∀ tape : List Byte, tape.length = 24 →
    ∃ out, ∀ (F : Fhe) (rand : Nat → Nat → Nat → F.C.Rand) (chk dbg : Bool) (threads n : Nat), 0 < threads → (chk = true → true = true) →
      657 ≤ n → n < 2 ^ 32 → Host.bothTapes F.C rand F.decU F.decP chk dbg false threads p tape n = some out :=
  C108_linked true 657 amm_guest.2.2 amm_guest.2.1 amm_contents (lldElf_is _ _ _) (by decide) (by decide) ⟨ammLayout.inp, by decide, by decide⟩
    (by decide +kernel) ammText rfl (fun dbg => by cases dbg <;> decide +kernel) ammLinked (by decide +kernel) _ _ linked_text linked_checked
    linked_bound

end Verif.Props
