import Verif.Spec.Symbols
import Verif.Spec.Segments
import Verif.Props.Select
import Verif.Props.Segments
/-
  C85: symbols, the runtime and the macro `entry`.
-/
namespace Verif.Props
open Model Model.Link Spec

theorem definition_some {is : List SymSec} {n : String} {j : Nat} (h : definition is n = some j) : Defines is j n := by
  obtain ⟨hj, hp, -⟩ := List.findIdx?_eq_some_iff_getElem.mp h
  exact ⟨is[j], List.getElem?_eq_getElem hj, by simpa using hp⟩

theorem definition_none {is : List SymSec} {n : String} : definition is n = none ↔ ∀ t ∈ is, n ∉ t.defs := by
  unfold definition
  rw [List.findIdx?_eq_none_iff]
  constructor
  · intro h t ht hn
    have := h t ht
    simp [hn] at this
  · intro h t ht
    simpa using h t ht

theorem defines_unique : ∀ {is : List SymSec}, OneDefinition is → ∀ {n : String} {j j' : Nat}, Defines is j n →
    Defines is j' n → j = j'
  | [], _, _, _, _, ⟨_, h, _⟩, _ => by simp at h
  | s :: is, hd, n, j, j', ⟨t, ht, hn⟩, ⟨t', ht', hn'⟩ => by
    unfold OneDefinition at hd
    rw [List.flatMap_cons, List.nodup_append] at hd
    obtain ⟨-, hd2, hd3⟩ := hd
    cases j with
    | zero => cases j' with
      | zero => rfl
      | succ j' =>
        simp only [List.getElem?_cons_zero, Option.some.injEq] at ht
        simp only [List.getElem?_cons_succ] at ht'
        subst ht
        exact absurd rfl (hd3 n hn n (List.mem_flatMap.mpr ⟨t', List.mem_of_getElem? ht', hn'⟩))
    | succ j => cases j' with
      | zero =>
        simp only [List.getElem?_cons_zero, Option.some.injEq] at ht'
        simp only [List.getElem?_cons_succ] at ht
        subst ht'
        exact absurd rfl (hd3 n hn' n (List.mem_flatMap.mpr ⟨t, List.mem_of_getElem? ht, hn⟩))
      | succ j' =>
        simp only [List.getElem?_cons_succ] at ht ht'
        rw [defines_unique (is := is) hd2 ⟨t, ht, hn⟩ ⟨t', ht', hn'⟩]

theorem definition_iff {is : List SymSec} (hd : OneDefinition is) {n : String} {j : Nat} :
    definition is n = some j ↔ Defines is j n := by
  constructor
  · exact definition_some
  · rintro ⟨t, ht, hn⟩
    cases h : definition is n with
    | none => exact absurd hn (definition_none.mp h t (List.mem_of_getElem? ht))
    | some i => rw [defines_unique hd (definition_some h) ⟨t, ht, hn⟩]

theorem numbered_get (is : List SymSec) (k : Nat) :
    (numbered is)[k]? = is[k]?.map fun s => ⟨s.name, s.piece, s.refs.filterMap (definition is), s.defs.contains "_start"⟩ := by
  unfold numbered
  rw [List.getElem?_map]

theorem numbered_length (is : List SymSec) : (numbered is).length = is.length := by
  unfold numbered
  rw [List.length_map]

/-- References go to the section that defines the symbol; names, sizes and alignments are as they were. -/
theorem C85_resolved {gc : Bool} {is : List SymSec} {js : List InSec} (h : resolve gc is = some js) :
    js.length = is.length ∧ OneDefinition is ∧ ∀ (k : Nat) (s : SymSec), is[k]? = some s → ∃ r e, js[k]? = some ⟨s.name, s.piece, r, e⟩ ∧
      (∀ j, j ∈ r ↔ ∃ n ∈ s.refs, Defines is j n) ∧ (e = true ↔ "_start" ∈ s.defs) := by
  unfold resolve at h
  split at h
  · cases h
  · rename_i hd
    have hd : OneDefinition is := Classical.byContradiction hd
    split at h
    · cases h
    · cases h
      refine ⟨numbered_length is, hd, fun k s hs => ⟨_, _, by rw [numbered_get, hs]; rfl, fun j => ?_, by simp⟩⟩
      rw [List.mem_filterMap]
      simp only [definition_iff hd]

theorem reached_numbered {is : List SymSec} (hd : OneDefinition is) {k : Nat} : Needed (numbered is) k ↔ Reached is k := by
  constructor
  · intro h
    induction h with
    | @root k s hs hm =>
      rw [numbered_get] at hs
      obtain ⟨t, ht, rfl⟩ := Option.map_eq_some_iff.mp hs
      exact .root ht (hm.imp id fun h => by simpa using h)
    | @ref j k s _ hs hk ih =>
      rw [numbered_get] at hs
      obtain ⟨t, ht, rfl⟩ := Option.map_eq_some_iff.mp hs
      obtain ⟨n, hn, hdn⟩ := List.mem_filterMap.mp hk
      exact .use ih ⟨t, ht, hn⟩ (definition_some hdn)
  · intro h
    induction h with
    | @root k s hs hm =>
      exact .root (s := ⟨s.name, s.piece, s.refs.filterMap (definition is), s.defs.contains "_start"⟩) (by rw [numbered_get, hs]; rfl)
        (hm.imp id fun h => by simpa using h)
    | @use k j n _ hm hdn ih =>
      obtain ⟨s, hs, hn⟩ := hm
      exact .ref ih (s := ⟨s.name, s.piece, s.refs.filterMap (definition is), s.defs.contains "_start"⟩) (by rw [numbered_get, hs]; rfl)
        (List.mem_filterMap.mpr ⟨n, hn, (definition_iff hd).mpr hdn⟩)

/-- What the collector keeps is what can be reached by names from the start-up code and the tapes. -/
theorem C85_reached {gc : Bool} {is : List SymSec} {js : List InSec} (h : resolve gc is = some js) (k : Nat) :
    k ∈ live true js ↔ Reached is k := by
  obtain ⟨-, hd, -⟩ := C85_resolved h
  have : js = numbered is := by
    unfold resolve at h
    split at h
    · cases h
    · split at h <;> cases h
      rfl
  rw [this, C84_live, reached_numbered hd]

/-- Resolution fails exactly if some symbol has two definitions, or a section that goes into the program mentions a symbol that
neither another section nor the script defines. -/
theorem C85_refused (gc : Bool) (is : List SymSec) : resolve gc is = none ↔
    ¬ OneDefinition is ∨ ∃ (k : Nat) (s : SymSec) (n : String), is[k]? = some s ∧ (gc = true → Reached is k) ∧
      ¬ Named s.name .discard ∧ n ∈ s.refs ∧ n ≠ "_stack_start" ∧ n ≠ "__global_pointer$" ∧ n ≠ "_end" ∧
      ∀ t ∈ is, n ∉ t.defs := by
  have hdisc : ∀ (k : Nat) (s : SymSec), is[k]? = some s → (discarded (numbered is) k = true ↔ Named s.name .discard) := by
    intro k s hs
    unfold discarded
    rw [numbered_get, hs]
    show (partOf s.name == some .discard) = true ↔ _
    rw [beq_iff_eq, partOf_named]
  have hdang : ∀ n, dangling is n = true ↔ (∀ t ∈ is, n ∉ t.defs) ∧ n ≠ "_stack_start" ∧ n ≠ "__global_pointer$" ∧ n ≠ "_end" := by
    intro n
    unfold dangling
    rw [Bool.and_eq_true, Option.isNone_iff_eq_none, definition_none]
    simp [scriptSymbols]
  unfold resolve
  by_cases hd : OneDefinition is
  · have hd' : ¬ ¬ (is.flatMap (·.defs)).Nodup := not_not_intro hd
    rw [if_neg hd']
    have hst : ∀ k < is.length, (k ∈ live gc (numbered is) ↔ (gc = true → Reached is k)) := by
      intro k hk
      rw [mem_live (by rw [numbered_length]; exact hk)]
      unfold Stays
      rw [reached_numbered hd]
    split
    · rename_i h
      refine ⟨fun _ => .inr ?_, fun _ => rfl⟩
      obtain ⟨k, hk, h⟩ := List.any_eq_true.mp h
      rw [List.mem_range] at hk
      rw [Bool.and_eq_true, Bool.and_eq_true, decide_eq_true_eq] at h
      obtain ⟨⟨h1, h2⟩, h3⟩ := h
      have hs : is[k]? = some is[k] := List.getElem?_eq_getElem hk
      rw [hs] at h3
      obtain ⟨n, hn, hdn⟩ := List.any_eq_true.mp h3
      obtain ⟨g1, g2, g3, g4⟩ := (hdang n).mp hdn
      refine ⟨k, is[k], n, hs, (hst k hk).mp h1, fun hc => ?_, hn, g2, g3, g4, g1⟩
      rw [(hdisc k _ hs).mpr hc] at h2
      exact absurd h2 (by decide)
    · rename_i h
      refine ⟨fun hc => absurd hc (by simp), fun hc => absurd ?_ h⟩
      rcases hc with hc | ⟨k, s, n, hs, h1, h2, h3, h4, h5, h6, h7⟩
      · exact absurd hd hc
      · have hk := (List.getElem?_eq_some_iff.mp hs).1
        refine List.any_eq_true.mpr ⟨k, List.mem_range.mpr hk, ?_⟩
        rw [Bool.and_eq_true, Bool.and_eq_true, decide_eq_true_eq]
        refine ⟨⟨(hst k hk).mpr h1, ?_⟩, ?_⟩
        · cases hx : discarded (numbered is) k with
          | false => rfl
          | true => exact absurd ((hdisc k s hs).mp hx) h2
        · rw [hs]
          exact List.any_eq_true.mpr ⟨n, h3, (hdang n).mpr ⟨h7, h4, h5, h6⟩⟩
  · have hd' : ¬ (is.flatMap (·.defs)).Nodup := hd
    rw [if_pos hd']
    exact ⟨fun _ => .inl hd, fun _ => rfl⟩

/-! ### The runtime -/

theorem runtime_get (rt : Nat) (gs : List SymSec) :
    (runtimeSecs rt ++ gs)[0]? = some startSec ∧ (runtimeSecs rt ++ gs)[1]? = some (startRustSec rt) ∧
    (runtimeSecs rt ++ gs)[2]? = some onceSec ∧ ∀ k, (runtimeSecs rt ++ gs)[k + 3]? = gs[k]? := by
  refine ⟨rfl, rfl, rfl, fun k => ?_⟩
  show (startSec :: startRustSec rt :: onceSec :: gs)[k + 3]? = _
  simp

/-- A guest with the runtime that links has a function `main`; the start-up code finds it, it is defined once, outside the
runtime, and the collector keeps it. -/
theorem C85_main {gc : Bool} {rt : Nat} {gs : List SymSec} {js : List InSec} (h : resolve gc (runtimeSecs rt ++ gs) = some js) :
    ∃ (m : Nat) (t : SymSec), gs[m]? = some t ∧ "main" ∈ t.defs ∧ (∀ m', Defines gs m' "main" → m' = m) ∧
      (∃ r, js[1]? = some ⟨".init.rust", ⟨rt, 4⟩, r, false⟩ ∧ ∀ j, j ∈ r ↔ j = m + 3) ∧
      (∃ r, js[0]? = some ⟨".init", ⟨36, 4⟩, r, true⟩ ∧ 1 ∈ r) ∧
      m + 3 ∈ live gc js := by
  obtain ⟨hlen, hd, hr⟩ := C85_resolved h
  obtain ⟨g0, g1, g2, g3⟩ := runtime_get rt gs
  have hreach : Reached (runtimeSecs rt ++ gs) 1 := .root g1 (.inl (.inr (.inl rfl)))
  have hnd : ¬ Named (startRustSec rt).name .discard := fun hn =>
    Part.noConfusion (named_unique hn (show Named (startRustSec rt).name .initRust from rfl))
  have hdef : ∃ t ∈ runtimeSecs rt ++ gs, "main" ∈ t.defs := by
    apply Classical.byContradiction
    intro hc
    have : resolve gc (runtimeSecs rt ++ gs) = none :=
      (C85_refused _ _).mpr (.inr ⟨1, _, "main", g1, fun _ => hreach, hnd, by simp [startRustSec], by decide, by decide, by decide, fun t ht hm => hc ⟨t, ht, hm⟩⟩)
    rw [h] at this
    cases this
  obtain ⟨t, ht, hm⟩ := hdef
  have htg : t ∈ gs := by
    rcases List.mem_append.mp ht with ht | ht
    · simp only [runtimeSecs, List.mem_cons, List.not_mem_nil, or_false] at ht
      rcases ht with rfl | rfl | rfl <;> exact absurd hm (by simp [startSec, startRustSec, onceSec])
    · exact ht
  obtain ⟨m, hmt⟩ := List.getElem?_of_mem htg
  have hD : Defines (runtimeSecs rt ++ gs) (m + 3) "main" := ⟨t, by rw [g3]; exact hmt, hm⟩
  refine ⟨m, t, hmt, hm, fun m' ⟨t', ht', hm'⟩ => ?_, ?_, ?_, ?_⟩
  · have := defines_unique hd hD ⟨t', by rw [g3 m']; exact ht', hm'⟩
    omega
  · obtain ⟨r, e, h1, h2, h3⟩ := hr 1 _ g1
    cases e with
    | true => exact absurd (h3.mp rfl) (by simp [startRustSec])
    | false => ?_
    refine ⟨r, h1, fun j => ?_⟩
    rw [h2]
    constructor
    · rintro ⟨n, hn, hj⟩
      simp only [startRustSec, List.mem_singleton] at hn
      subst hn
      exact defines_unique hd hj hD
    · rintro rfl
      exact ⟨"main", by simp [startRustSec], hD⟩
  · obtain ⟨r, e, h1, h2, h3⟩ := hr 0 _ g0
    cases h3.mpr (by simp [startSec])
    exact ⟨r, h1, (h2 1).mpr ⟨"_start_rust", by simp [startSec], _, g1, by simp [startRustSec]⟩⟩
  · cases gc with
    | true => exact (C85_reached h _).mpr (.use hreach ⟨_, g1, by simp [startRustSec]⟩ hD)
    | false =>
      have hk := (List.getElem?_eq_some_iff.mp (show (runtimeSecs rt ++ gs)[m + 3]? = some t by rw [g3]; exact hmt)).1
      rw [← hlen] at hk
      exact (mem_live hk).mpr fun e => Bool.noConfusion e

/-- A guest: `main` mentions a helper and the tapes. -/
def exObjects : List SymSec :=
  [⟨".text.main", ⟨120, 4⟩, ["main"], ["helper", "INPUT", "OUTPUT"]⟩, ⟨".text.unused", ⟨16, 4⟩, ["unused"], ["nowhere"]⟩,
   ⟨".text.helper", ⟨40, 4⟩, ["helper"], []⟩, ⟨".inpdata", ⟨8, 4⟩, ["INPUT"], []⟩, ⟨".outdata", ⟨8, 4⟩, ["OUTPUT"], []⟩]

/-- It links: the reference to a symbol that does not exist is in a section that is not needed.  Without the collector it does not. -/
example : (resolve true (runtimeSecs 40 ++ exObjects)).map (fun js => (live true js, (placements true js).map (·.2))) =
    some ([7, 6, 5, 3, 1, 0], some [(0, 0), (1, 36), (3, 76), (5, 196), (6, 0x40000), (7, 0x40008)]) ∧
    (resolve false (runtimeSecs 40 ++ exObjects)).isNone := by decide +kernel

/-- Without a function `main` there is no program. -/
theorem C85_no_main (gc : Bool) (rt : Nat) (gs : List SymSec) (h : ∀ t ∈ gs, "main" ∉ t.defs) :
    resolve gc (runtimeSecs rt ++ gs) = none := by
  cases hr : resolve gc (runtimeSecs rt ++ gs) with
  | none => rfl
  | some js =>
    obtain ⟨m, t, ht, hm, -⟩ := C85_main hr
    exact absurd hm (h t (List.mem_of_getElem? ht))

/-- Two copies of the runtime do not link, whatever else there is and in whatever order. -/
theorem C85_twice (gc : Bool) (rt rt' : Nat) (is xs ys zs : List SymSec)
    (h : is.Perm (runtimeSecs rt ++ xs ++ (runtimeSecs rt' ++ ys) ++ zs)) : resolve gc is = none := by
  refine (C85_refused gc is).mpr (.inl fun hd => ?_)
  unfold OneDefinition at hd
  rw [(h.flatMap_right _).nodup_iff] at hd
  simp [runtimeSecs, startSec] at hd

/-- The variable `__ONCE__` of the runtime never reaches a program made with the collector, unless something mentions its name:
it is there for the name alone. -/
theorem C85_once {rt : Nat} {gs : List SymSec} {js : List InSec} (h : resolve true (runtimeSecs rt ++ gs) = some js)
    (hg : ∀ s ∈ gs, "error: rt appears more than once" ∉ s.refs) : 2 ∉ live true js := by
  intro hc
  obtain ⟨-, hd, -⟩ := C85_resolved h
  obtain ⟨g0, g1, g2, g3⟩ := runtime_get rt gs
  have hr := (C85_reached h _).mp hc
  generalize hx : 2 = x at hr
  cases hr with
  | root hs hm =>
    rw [← hx, g2] at hs
    cases hs
    revert hm
    show ¬ (MustStay ".rodata.once" ∨ "_start" ∈ onceSec.defs)
    rintro ((h | h | h | h | h | ⟨t, h⟩) | h)
    · exact absurd h (by decide)
    · exact absurd h (by decide)
    · exact absurd h (by decide)
    · exact absurd h (by decide)
    · exact absurd h (by decide)
    · exact absurd h (by simp)
    · exact absurd h (by simp [onceSec])
  | use _ hm hdn =>
    rw [← hx] at hdn
    obtain ⟨t, ht, hn⟩ := hdn
    rw [g2] at ht
    cases ht
    simp only [onceSec, List.mem_singleton] at hn
    subst hn
    obtain ⟨s, hs, hns⟩ := hm
    rcases List.mem_append.mp (List.mem_of_getElem? hs) with h | h
    · simp only [runtimeSecs, List.mem_cons, List.not_mem_nil, or_false] at h
      rcases h with rfl | rfl | rfl <;> exact absurd hns (by simp [startSec, startRustSec, onceSec])
    · exact hg s h hns

/-- In the program: the start-up code is at address 0, and a function `main` in a section with a name of the kind rustc gives
it is in `.text`, behind it. -/
theorem C85_program {gc : Bool} {rt : Nat} {gs : List SymSec} {js : List InSec} {l : Layout} {pl : List (Nat × Nat)}
    (hv : ∀ s ∈ runtimeSecs rt ++ gs, Piece.Valid s.piece) (h : resolve gc (runtimeSecs rt ++ gs) = some js)
    (hp : placements gc js = some (l, pl)) :
    (0, 0) ∈ pl ∧ ∃ (m : Nat) (t : SymSec), gs[m]? = some t ∧ "main" ∈ t.defs ∧ (Family ".text" t.name → 0 < t.piece.size →
      ∃ a, (m + 3, a) ∈ pl ∧ 36 ≤ a ∧ a + t.piece.size ≤ l.text.size) := by
  obtain ⟨m, t, hmt, hm, -, -, -, hlive⟩ := C85_main h
  obtain ⟨hlen, -, hr⟩ := C85_resolved h
  obtain ⟨g0, -, -, g3⟩ := runtime_get rt gs
  have hvj : ∀ t ∈ js, Piece.Valid t.piece := by
    intro t ht
    obtain ⟨k, hk⟩ := List.getElem?_of_mem ht
    have hl : k < (runtimeSecs rt ++ gs).length := by rw [← hlen]; exact (List.getElem?_eq_some_iff.mp hk).1
    obtain ⟨r, e, h1, -⟩ := hr k _ (List.getElem?_eq_getElem hl)
    rw [h1] at hk
    cases hk
    exact hv _ (List.getElem_mem hl)
  obtain ⟨r0, e0, hj0, -⟩ := hr 0 _ g0
  have h0 : (0, 0) ∈ pl := C84_start hvj hp 0 _ hj0 rfl fun _ _ _ _ => Nat.zero_le _
  refine ⟨h0, m, t, hmt, hm, fun hf hpos => ?_⟩
  obtain ⟨rm, em, hjm, -⟩ := hr (m + 3) t (by rw [g3]; exact hmt)
  obtain ⟨p1, p2, p3, p4, -⟩ := C84_placed hvj hp
  have hk := (List.getElem?_eq_some_iff.mp hjm).1
  obtain ⟨a, ha⟩ := p2 (m + 3) _ .text l.text hjm ((mem_live hk).mp hlive) hf rfl
  obtain ⟨s, q, S, hs, -, hq, hS, -, -, hhi⟩ := p1 _ _ ha
  rw [hjm] at hs
  cases hs
  cases named_unique hq (show Named t.name .text from hf)
  cases hS
  obtain ⟨g, hg, hl, -⟩ := placements_inv hvj hp
  have haddr : l.text.addr = 0 := (C64_text (select_valid hvj hg) hl).1
  refine ⟨a, ha, ?_, by rw [haddr] at hhi; simpa using hhi⟩
  rcases p4 0 (m + 3) 0 a _ _ (by omega) h0 ha hj0 hjm with h | h
  · simpa [startSec] using h
  · simp only at h
    omega

example : resolve true (runtimeSecs 40 ++ exObjects ++ runtimeSecs 40) = none := C85_twice _ 40 40 _ exObjects [] [] (by simp)

/-! ### The macro -/

/-- `#[entry]` takes functions only; it changes neither name nor body nor the attributes that were there.  On `riscv32` the
symbol of the function is its name; elsewhere the macro makes no difference. -/
theorem C85_entry (f : FnItem) (text : String) (mangle : String → String) :
    entryMacro (.other text) = none ∧ ∃ f', entryMacro (.fn f) = some f' ∧ f'.name = f.name ∧ f'.rest = f.rest ∧
      (∃ new, f'.attrs = new ++ f.attrs) ∧ symbolOf "riscv32" mangle f' = f.name ∧
      ∀ arch, arch ≠ "riscv32" → symbolOf arch mangle f' = symbolOf arch mangle f := by
  refine ⟨rfl, _, rfl, rfl, rfl, ⟨[.noMangleOn "riscv32", .allowUnused], rfl⟩, ?_, fun arch h => ?_⟩
  · simp [symbolOf]
  · simp [symbolOf, h]

/-- The attribute is what makes the program: a guest whose function `main` has it links (if its own parts do), and the function is
in the program; without it, and with a compiler that mangles names, the guest does not link. -/
theorem C85_marked (gc : Bool) (rt : Nat) (f : FnItem) (mangle : String → String) (code : Piece) (refs : List String)
    (others : List SymSec) (hf : f.name = "main") (ho : ∀ s ∈ others, "main" ∉ s.defs) :
    (∀ f' js, entryMacro (.fn f) = some f' → resolve gc (guestWith rt f' "riscv32" mangle code refs others) = some js →
      3 ∈ live gc js ∧ ∃ r, js[1]? = some ⟨".init.rust", ⟨rt, 4⟩, r, false⟩ ∧ ∀ j, j ∈ r ↔ j = 3) ∧
    (.noMangleOn "riscv32" ∉ f.attrs → mangle "main" ≠ "main" →
      resolve gc (guestWith rt f "riscv32" mangle code refs others) = none) := by
  constructor
  · intro f' js he h
    obtain ⟨-, f'', he', hn, -, -, hs, -⟩ := C85_entry f "" mangle
    rw [he] at he'
    cases he'
    obtain ⟨m, t, hm, -, hu, h1, -, h2⟩ := C85_main h
    have : 0 = m := hu 0 ⟨_, rfl, by rw [hs, hf]; simp⟩
    subst this
    exact ⟨h2, h1⟩
  · intro ha hm
    refine C85_no_main gc rt _ fun t ht => ?_
    rcases List.mem_cons.mp ht with rfl | ht
    · simp only [symbolOf, ha, if_false, hf, List.mem_singleton]
      exact fun e => hm e.symm
    · exact ho t ht

/-- `main` of a guest, with the attribute and without. -/
example :
    let f : FnItem := ⟨[], "main", "(_: u32, _: u32, _: u32) -> u32 { 0 }"⟩
    let mangle := fun n => "_ZN5guest" ++ n ++ "E"
    ((entryMacro (.fn f)).bind fun f => (resolve true (guestWith 40 f "riscv32" mangle ⟨8, 4⟩ [] [])).map (live true)) =
      some [3, 1, 0] ∧ (resolve true (guestWith 40 f "riscv32" mangle ⟨8, 4⟩ [] [])).isNone := by decide +kernel

/-! ### Without the runtime -/

theorem not_reached {is : List SymSec} (h : ∀ s ∈ is, MustStay s.name → s.refs = []) (hn : ∀ s ∈ is, "_start" ∉ s.defs) {k : Nat} (hr : Reached is k) :
    ∃ s, is[k]? = some s ∧ MustStay s.name := by
  induction hr with
  | root hs hm => exact ⟨_, hs, hm.resolve_right (hn _ (List.mem_of_getElem? hs))⟩
  | use _ hm _ ih =>
    obtain ⟨s, hs, hn⟩ := hm
    obtain ⟨s', hs', hms⟩ := ih
    rw [hs] at hs'
    cases hs'
    rw [h s (List.mem_of_getElem? hs) hms] at hn
    cases hn

/-- A guest without the runtime still links, the missing entry symbol is only a warning; but the collector leaves nothing of its
code, and `Phantom::from_elf` refuses the file. -/
theorem C85_no_runtime {is : List SymSec} {js : List InSec} {l : Layout} {pl : List (Nat × Nat)}
    (hv : ∀ s ∈ is, Piece.Valid s.piece) (hrt : ∀ s ∈ is, s.name ≠ ".init" ∧ s.name ≠ ".init.rust" ∧ "_start" ∉ s.defs)
    (hrefs : ∀ s ∈ is, MustStay s.name → s.refs = []) (h : resolve true is = some js) (hp : placements true js = some (l, pl)) :
    l.text.size = 0 ∧ ∀ (e : Elf) (k : Kinds) (c : ElfFile.Contents), LldFile e l k c → Phantom.fromElf e = none := by
  obtain ⟨hlen, hd, hr⟩ := C85_resolved h
  have hback : ∀ (k : Nat) t, js[k]? = some t → ∃ s, is[k]? = some s ∧ t.name = s.name ∧ t.piece = s.piece := by
    intro k t ht
    have hk : k < is.length := by rw [← hlen]; exact (List.getElem?_eq_some_iff.mp ht).1
    have hs : is[k]? = some is[k] := List.getElem?_eq_getElem hk
    obtain ⟨r, e, h1, -⟩ := hr k _ hs
    rw [h1] at ht
    cases ht
    exact ⟨_, hs, rfl, rfl⟩
  have hvj : ∀ t ∈ js, Piece.Valid t.piece := by
    intro t ht
    obtain ⟨k, hk⟩ := List.getElem?_of_mem ht
    obtain ⟨s, hs, -, e⟩ := hback k t hk
    rw [e]
    exact hv s (List.mem_of_getElem? hs)
  have hnone : ∀ p, p = .init ∨ p = .initRust ∨ p = .text → taken true js p = [] := by
    intro p hp
    apply List.eq_nil_iff_forall_not_mem.mpr
    intro k hk
    obtain ⟨t, ht, hst, hn⟩ := mem_taken.mp hk
    obtain ⟨s, hs, e, -⟩ := hback k t ht
    have hreach := (C85_reached h k).mp ((C84_live js k).mpr (hst rfl))
    obtain ⟨s', hs', hm⟩ := not_reached hrefs (fun s hs => (hrt s hs).2.2) hreach
    rw [hs] at hs'
    cases hs'
    obtain ⟨n1, n2, -⟩ := hrt s (List.mem_of_getElem? hs)
    rw [e] at hn
    rcases hm with hm | hm | hm | hm | hm
    · exact n1 hm
    · exact n2 hm
    · have := named_unique hn (show Named s.name .inp from hm)
      subst this
      exact absurd hp (by decide)
    · have := named_unique hn (show Named s.name .out from hm)
      subst this
      exact absurd hp (by decide)
    · have := named_unique hn (show Named s.name .got from hm)
      subst this
      exact absurd hp (by decide)
  obtain ⟨g, hg, hl, -⟩ := placements_inv hvj hp
  have e := select_inv hg
  have hpn : ∀ p, p = .init ∨ p = .initRust ∨ p = .text → pieces true js p = [] := by
    intro p hp
    unfold pieces
    rw [hnone p hp]
    rfl
  have hsize : l.text.size = 0 := by
    rw [(link_inv hl).1, e]
    simp only [textSection, hpn _ (.inl rfl), hpn _ (.inr (.inl rfl)), hpn _ (.inr (.inr rfl))]
    decide
  refine ⟨hsize, fun e k c hf => ?_⟩
  have : e.textHeader = none := by
    unfold Elf.textHeader
    rw [hf.table, List.find?_eq_none]
    intro ph hph
    rw [List.mem_filter] at hph
    unfold segments at hph
    rw [if_pos hsize, List.nil_append] at hph
    rcases List.mem_append.mp hph.1 with hq | hq
    · intro hx
      rcases (ramSeg_of (select_valid hvj hg) hl k _ ph hq).ram.2 with hr | hr <;> rw [hr] at hx <;> exact absurd hx (by decide)
    · rw [List.mem_singleton.mp hq]
      decide
  unfold Phantom.fromElf
  rw [this]
  rfl

example : ((resolve true exObjects).bind fun js => (placements true js).map fun x => (x.1.text, x.2)) =
    some (⟨0, 0⟩, [(3, 0x40000), (4, 0x40008)]) ∧ (∀ s ∈ exObjects, MustStay s.name → s.refs = []) := by
  refine ⟨by decide +kernel, fun s hs hm => ?_⟩
  simp only [exObjects, List.mem_cons, List.not_mem_nil, or_false] at hs
  rcases hs with rfl | rfl | rfl | rfl | rfl
  all_goals first | rfl | simp [MustStay, Family] at hm

end Verif.Props
