import Verif.Spec.Cargo
/-
  C78: building a guest.
-/
namespace Verif.Props
open Model.Build Spec.Cargo

theorem split_ne (sep : Char) (x : Str) (h : sep ∉ x) : split sep x = [x] := by
  induction x with
  | nil => rfl
  | cons c cs ih =>
    simp only [List.mem_cons, not_or] at h
    unfold split
    rw [if_neg fun e => h.1 e.symm, ih h.2]

theorem split_append (sep : Char) (x y : Str) (h : sep ∉ x) : split sep (x ++ sep :: y) = x :: split sep y := by
  induction x with
  | nil => show split sep (sep :: y) = _; rw [split, if_pos rfl]
  | cons c cs ih =>
    simp only [List.mem_cons, not_or] at h
    rw [List.cons_append, split, if_neg fun e => h.1 e.symm, ih h.2]

/-- Joined strings without the separator are split again as they were. -/
theorem split_join (sep : Char) (xs : List Str) (h0 : xs ≠ []) (h : ∀ x ∈ xs, sep ∉ x) : split sep (join sep xs) = xs := by
  induction xs with
  | nil => exact absurd rfl h0
  | cons x xs ih =>
    cases xs with
    | nil => exact split_ne sep x (h x List.mem_cons_self)
    | cons y ys =>
      rw [show join sep (x :: y :: ys) = x ++ sep :: join sep (y :: ys) from rfl,
        split_append sep x _ (h x List.mem_cons_self), ih (List.cons_ne_nil _ _) fun z hz => h z (List.mem_cons_of_mem _ hz)]

theorem split_no_sep (sep : Char) (x : Str) : ∀ y ∈ split sep x, sep ∉ y := by
  induction x with
  | nil => intro y hy; simp [split] at hy; subst hy; simp
  | cons c cs ih =>
    intro y hy
    unfold split at hy
    by_cases hc : c = sep
    · rw [if_pos hc] at hy
      rcases List.mem_cons.mp hy with rfl | hy
      · simp
      · exact ih y hy
    · rw [if_neg hc] at hy
      cases hs : split sep cs with
      | nil => rw [hs] at hy; simp at hy; subst hy; simpa using fun e => hc e.symm
      | cons z zs =>
        rw [hs] at hy ih
        rcases List.mem_cons.mp hy with rfl | hy
        · simpa using ⟨fun e => hc e.symm, ih z List.mem_cons_self⟩
        · exact ih y (List.mem_cons_of_mem _ hy)

/-- The four flags arrive as they are meant exactly if the path of the linker script does not contain the separator. -/
theorem C78_flags (linker : Str) : split unitSep (encodedFlags linker) = flags linker ↔ unitSep ∉ linker := by
  constructor
  · intro h hl
    have := split_no_sep unitSep (encodedFlags linker)
    rw [h] at this
    exact this ("link-arg=-T".toList ++ linker) (by simp [flags]) (List.mem_append_right _ hl)
  · intro h
    refine split_join _ _ (by simp [flags]) fun x hx => ?_
    simp only [flags, List.mem_cons, List.not_mem_nil, or_false] at hx
    rcases hx with rfl | rfl | rfl | rfl
    · decide
    · rw [List.mem_append, not_or]; exact ⟨by decide, h⟩
    · decide
    · decide

/-- With a cargo that keeps its promise, `build` returns the binary of the program, compiled for the target with the
linker script and `panic=abort`, or panics; it returns nothing else, whatever files lay there before. -/
theorem C78_build (cargo : Cargo) (artifact : Request → List (BitVec 8)) (hc : Honest cargo artifact) (linker : Str)
    (hl : unitSep ∉ linker) (fs : Files) (program name : Str) :
    build (some cargo) (some linker) fs program name =
      if (cargo (encodedFlags linker) (args program name) fs).1 then
        some (artifact ⟨flags linker, program, program, "riscv32i-unknown-none-elf".toList, "release".toList⟩)
      else none := by
  unfold build
  simp only [Option.bind_some]
  by_cases h : (cargo (encodedFlags linker) (args program name) fs).1 = true
  · rw [if_pos h, if_pos h]
    have := hc (encodedFlags linker) (args program name) [("--profile".toList, profile), ("--target".toList, target),
      ("--package".toList, program), ("--bin".toList, program), ("--target-dir".toList, destination name)] fs program program
      target profile (destination name) rfl rfl rfl rfl rfl rfl h
    rw [show split (Char.ofNat 0x1f) (encodedFlags linker) = flags linker from (C78_flags linker).mpr hl] at this
    exact this
  · rw [if_neg h, if_neg h]

/-- Without linker script or cargo there is a panic. -/
theorem C78_missing (cargo : Option Cargo) (linker : Option Str) (fs : Files) (program name : Str)
    (h : cargo = none ∨ linker = none) : build cargo linker fs program name = none := by
  unfold build
  rcases h with rfl | rfl
  · cases linker <;> rfl
  · rfl

theorem append_last {x y p q : Str} (hp : '/' ∉ p) (hq : '/' ∉ q) (h : x ++ '/' :: p = y ++ '/' :: q) : x = y ∧ p = q := by
  induction x generalizing y with
  | nil =>
    cases y with
    | nil => exact ⟨rfl, (List.cons.inj h).2⟩
    | cons c y =>
      have := (List.cons.inj h).2
      exact absurd (this ▸ List.mem_append_right _ List.mem_cons_self) hp
  | cons c x ih =>
    cases y with
    | nil =>
      have := (List.cons.inj h).2
      exact absurd (this ▸ List.mem_append_right _ List.mem_cons_self) hq
    | cons d y =>
      obtain ⟨h1, h2⟩ := List.cons.inj h
      obtain ⟨h3, h4⟩ := ih h2
      exact ⟨by rw [h1, h3], h4⟩

/-- Builds with different destinations or programs read different files. -/
theorem C78_apart (program name program' name' : Str) (h : '/' ∉ program) (h' : '/' ∉ program')
    (e : elfPath program name = elfPath program' name') : program = program' ∧ name = name' := by
  unfold elfPath at e
  obtain ⟨e1, e2⟩ := append_last h h' e
  refine ⟨e2, ?_⟩
  have := List.append_cancel_right e1
  have := List.append_cancel_right this
  exact List.append_cancel_left this

/-! ### Non-vacuity -/

/-- A cargo that succeeds if the options are there, with the characters of package and last flag as artifact. -/
def sampleCargo : Cargo := fun env as fs =>
  match options as with
  | none => (false, fs)
  | some os =>
    match os.lookup "--package".toList, os.lookup "--bin".toList, os.lookup "--target".toList, os.lookup "--profile".toList,
      os.lookup "--target-dir".toList with
    | some package, some bin, some target, some profile, some dir =>
      (true, fun p => if p = dir ++ '/' :: target ++ '/' :: profile ++ '/' :: bin then
        some ((package ++ (split (Char.ofNat 0x1f) env).getLast!).map fun c => BitVec.ofNat 8 c.toNat) else fs p)
    | _, _, _, _, _ => (false, fs)

theorem sampleCargo_honest :
    Honest sampleCargo fun r => (r.package ++ r.flags.getLast!).map fun c => BitVec.ofNat 8 c.toNat := by
  intro env as os fs package bin target profile dir h1 h2 h3 h4 h5 h6 _
  unfold sampleCargo
  rw [h1]
  simp only [h2, h3, h4, h5, h6, if_true]

example : build (some sampleCargo) (some "/repo/default.x".toList) (fun _ => none) "guest".toList "test".toList =
    some ("guestpanic=abort".toList.map fun c => BitVec.ofNat 8 c.toNat) := by
  rw [C78_build _ _ sampleCargo_honest _ (by decide)]
  rfl

example : elfPath "guest".toList "test".toList =
    "/tmp/vm-experiments/test/riscv32i-unknown-none-elf/release/guest".toList := by decide +kernel

/-- With the separator in the path the flags are others. -/
example : split unitSep (encodedFlags "a\x1fb".toList) ≠ flags "a\x1fb".toList := by decide +kernel

end Verif.Props
