import Verif.Spec.RustConst
import Verif.Props.Guests
/-
  C77: the generator of test files.
-/
namespace Verif.Props
open Model Model.Gen Spec.RustConst

theorem parse_u8s (l : List (BitVec 8)) (r : List Tok) :
    ∀ f, l.length + 1 ≤ f → parseList f (sep (l.map fun b => [.u8 b]) ++ .rbra :: r) = some (l.map .u8, r) := by
  induction l with
  | nil =>
    intro f hf
    obtain ⟨f, rfl⟩ : ∃ g, f = g + 1 := ⟨f - 1, by simp at hf; omega⟩
    simp [sep, parseList]
  | cons b l ih =>
    intro f hf
    rw [List.length_cons] at hf
    obtain ⟨f, rfl⟩ : ∃ g, f = g + 2 := ⟨f - 2, by omega⟩
    cases l with
    | nil => simp [sep, parseList, parseExpr]
    | cons b' l =>
      have := ih (f + 1) (by omega)
      simp only [List.map_cons] at this ⊢
      simp only [sep, List.cons_append, List.nil_append] at this ⊢
      rw [parseList]
      · simp only [parseExpr]
        rw [this]; rfl
      · intro r h; cases h

theorem parse_array (l : List (BitVec 8)) (r : List Tok) (f : Nat) (hf : l.length + 2 ≤ f) :
    parseExpr f (arrayOf l ++ r) = some (.arr (l.map .u8), r) := by
  obtain ⟨f, rfl⟩ : ∃ g, f = g + 1 := ⟨f - 1, by omega⟩
  simp only [arrayOf, List.cons_append, List.append_assoc, List.nil_append]
  rw [parseExpr, parse_u8s l r f (by omega)]
  rfl

theorem parse_slice (l : List (BitVec 8)) (r : List Tok) (f : Nat) (hf : l.length + 4 ≤ f) :
    parseExpr f ([.amp, .lpar] ++ arrayOf l ++ [.rpar] ++ r) = some (.ref (.arr (l.map .u8)), r) := by
  obtain ⟨f, rfl⟩ : ∃ g, f = g + 2 := ⟨f - 2, by omega⟩
  simp only [List.cons_append, List.append_assoc, List.nil_append]
  rw [parseExpr, parseExpr, parse_array l _ f (by omega)]
  rfl

theorem parse_slices (ls : List (List (BitVec 8))) (r : List Tok) :
    ∀ f, (∀ l ∈ ls, l.length + ls.length + 4 ≤ f) → 1 ≤ f →
      parseList f (sep (ls.map fun l => [.amp, .lpar] ++ arrayOf l ++ [.rpar]) ++ .rbra :: r) =
        some (ls.map fun l => .ref (.arr (l.map .u8)), r) := by
  induction ls with
  | nil =>
    intro f _ hf
    obtain ⟨f, rfl⟩ : ∃ g, f = g + 1 := ⟨f - 1, by omega⟩
    simp [sep, parseList]
  | cons l ls ih =>
    intro f hf _
    have h0 := hf l List.mem_cons_self
    rw [List.length_cons] at h0
    obtain ⟨f, rfl⟩ : ∃ g, f = g + 1 := ⟨f - 1, by omega⟩
    have hp := fun r => parse_slice l r f (by omega)
    have ne : ∀ x r', [Tok.amp, .lpar] ++ arrayOf l ++ [.rpar] ++ x ≠ Tok.rbra :: r' := fun x r' h => by cases h
    cases ls with
    | nil =>
      simp only [List.map_cons, List.map_nil, sep]
      rw [parseList.eq_3 _ _ (fun r' h => ne _ r' h), hp]
    | cons l' ls =>
      have := ih f (fun x hx => by
        have := hf x (List.mem_cons_of_mem _ hx)
        simp only [List.length_cons] at this ⊢
        omega) (by omega)
      rw [List.map_cons, show ∀ y : List Tok, sep (y :: (l' :: ls).map _) = y ++ .comma :: sep ((l' :: ls).map _) from fun _ => rfl,
        List.append_assoc]
      rw [parseList.eq_3 _ _ (fun r' h => ne _ r' h), hp]
      simp only [List.cons_append]
      simp only [List.cons_append] at this
      rw [this]
      rfl

theorem eval_u8s (l : List (BitVec 8)) : evalAll .u8 (l.map .u8) = some (l.map .u8) := by
  induction l with
  | nil => rfl
  | cons b l ih => simp [evalAll, eval, ih]

theorem eval_slices (ls : List (List (BitVec 8))) :
    evalAll (.ref (.slice .u8)) (ls.map fun l => .ref (.arr (l.map .u8))) = some (ls.map bytes) := by
  induction ls with
  | nil => rfl
  | cons l ls ih =>
    simp only [List.map_cons, evalAll, eval, eval_u8s, ih, Option.map_some, bytes]

theorem constants_usize (s : String) (n : Nat) (r : List Tok) (f : Nat) :
    constants (f + 1) (constUsize s n ++ r) = (constants f r).map fun x => ((s, .usize n) :: x.1, x.2) := by
  simp only [constUsize, List.cons_append, List.nil_append, constants, parseTy, parseExpr, eval]
  cases constants f r <;> rfl

theorem constants_bytes (s : String) (l : List (BitVec 8)) (r : List Tok) (f : Nat) (hf : l.length + 1 ≤ f) :
    constants (f + 1) (constBytes s l.length l ++ r) = (constants f r).map fun x => ((s, bytes l) :: x.1, x.2) := by
  obtain ⟨f, rfl⟩ : ∃ g, f = g + 1 := ⟨f - 1, by omega⟩
  simp only [constBytes, List.cons_append, List.nil_append, List.append_assoc, constants, parseTy, parseExpr]
  rw [parse_u8s l _ (f + 1) hf]
  simp only [Option.map_some, eval, List.length_map, if_true, eval_u8s]
  cases constants (f + 1) r <;> rfl

theorem constants_slices (s : String) (ls : List (List (BitVec 8))) (r : List Tok) (f : Nat)
    (hf : ∀ l ∈ ls, l.length + ls.length + 5 ≤ f) (hf1 : 4 ≤ f) :
    constants (f + 1) (constSlices s (ls.map arrayOf) ++ r) =
      (constants f r).map fun x => ((s, .list (ls.map bytes)) :: x.1, x.2) := by
  obtain ⟨f, rfl⟩ : ∃ g, f = g + 4 := ⟨f - 4, by omega⟩
  have := parse_slices ls (.semi :: r) (f + 3) (fun l hl => by have := hf l hl; omega) (by omega)
  simp only [constSlices, List.cons_append, List.nil_append, List.append_assoc, List.map_map, Function.comp_def] at this ⊢
  simp only [constants, parseTy, parseExpr, Option.map_some]
  rw [this]
  simp only [Option.map_some, eval, eval_slices]
  cases constants (f + 4) r <;> rfl

/-- The generated file reads as the constants of the `Phantom` and the test cases, with the types that are declared. -/
theorem C77_reads (p : Phantom) (cases : List (List (BitVec 8) × List (BitVec 8))) (fuel : Nat)
    (hf : (codegen p cases).length ≤ fuel) :
    constants fuel (codegen p cases) = some ([
      ("BOOT_ROM_OFFSET", .usize p.bootRom.offset), ("BOOT_ROM_SIZE", .usize p.bootRom.size),
      ("BOOT_ROM_DATA", bytes p.bootRom.data),
      ("BOOT_RAM_OFFSET", .usize p.bootRam.offset), ("BOOT_RAM_SIZE", .usize p.bootRam.size),
      ("BOOT_RAM_DATA", bytes p.bootRam.data),
      ("INPUT_START_ADDR", .usize p.input.startAddr), ("INPUT_SIZE", .usize p.input.size),
      ("OUTPUT_START_ADDR", .usize p.output.startAddr), ("OUTPUT_SIZE", .usize p.output.size),
      ("TEST_CASES_COUNT", .usize cases.length),
      ("TEST_CASE_INPUTS", .list (cases.map fun c => bytes c.1)),
      ("TEST_CASE_OUTPUTS", .list (cases.map fun c => bytes c.2))], getTestCasesToks) := by
  have sepLen : ∀ l : List (BitVec 8), l.length ≤ (sep (l.map fun b => [Tok.u8 b])).length := by
    intro l
    induction l with
    | nil => exact Nat.zero_le _
    | cons b l ih =>
      cases l with
      | nil => simp [sep]
      | cons b' l => simp only [List.map_cons, sep, List.length_append, List.length_cons] at ih ⊢; omega
  have sepLen2 : ∀ ls : List (List Tok), (∀ l ∈ ls, 3 ≤ l.length) → ∀ l ∈ ls, l.length + ls.length ≤ (sep ls).length + 1 := by
    intro ls
    induction ls with
    | nil => intro _ l hl; cases hl
    | cons a ls ih =>
      intro h3 l hl
      cases ls with
      | nil => simp [sep]; simp at hl; subst hl; omega
      | cons b ls =>
        have ha := h3 a List.mem_cons_self
        have ih := ih fun x hx => h3 x (List.mem_cons_of_mem _ hx)
        rw [show sep (a :: b :: ls) = a ++ .comma :: sep (b :: ls) from rfl]
        simp only [List.length_append, List.length_cons] at ih ⊢
        rcases List.mem_cons.mp hl with rfl | hl
        · have := ih b List.mem_cons_self
          have := h3 b (List.mem_cons_of_mem _ List.mem_cons_self)
          omega
        · have := ih l hl
          omega
  have slLen : ∀ s (ls : List (List (BitVec 8))), ∀ l ∈ ls, l.length + ls.length + 10 ≤ (constSlices s (ls.map arrayOf)).length := by
    intro s ls l hl
    have := sepLen2 (ls.map fun l => [.amp, .lpar] ++ arrayOf l ++ [.rpar]) (by
      intro x hx
      obtain ⟨y, -, rfl⟩ := List.mem_map.mp hx
      simp) _ (List.mem_map_of_mem hl)
    have h2 := sepLen l
    simp only [constSlices, arrayOf, List.map_map, Function.comp_def, List.length_append, List.length_cons, List.length_nil,
      List.length_map] at this ⊢
    omega
  have e1 := slLen "TEST_CASE_INPUTS" (cases.map Prod.fst)
  have e2 := slLen "TEST_CASE_OUTPUTS" (cases.map Prod.snd)
  have r1 := sepLen p.bootRom.data
  have r2 := sepLen p.bootRam.data
  have hx : (cases.map fun c => arrayOf c.1) = (cases.map Prod.fst).map arrayOf := by rw [List.map_map]; rfl
  have hy : (cases.map fun c => arrayOf c.2) = (cases.map Prod.snd).map arrayOf := by rw [List.map_map]; rfl
  have total : (constSlices "TEST_CASE_INPUTS" (cases.map fun c => arrayOf c.1)).length +
      (constSlices "TEST_CASE_OUTPUTS" (cases.map fun c => arrayOf c.2)).length +
      (sep (p.bootRom.data.map fun b => [Tok.u8 b])).length + (sep (p.bootRam.data.map fun b => [Tok.u8 b])).length + 60 ≤ fuel := by
    refine Nat.le_trans ?_ hf
    simp only [codegen, constUsize, constBytes, List.length_append, List.length_cons, List.length_nil]
    omega
  obtain ⟨f, rfl⟩ : ∃ g, fuel = g + 13 := ⟨fuel - 13, by omega⟩
  rw [hx, hy] at total
  unfold codegen
  rw [hx, hy]
  simp only [List.append_assoc]
  rw [constants_usize, constants_usize, constants_bytes _ _ _ _ (by omega), constants_usize, constants_usize,
    constants_bytes _ _ _ _ (by omega), constants_usize, constants_usize, constants_usize, constants_usize, constants_usize,
    constants_slices _ _ _ _ (fun l hl => by have := e1 l hl; omega) (by omega),
    constants_slices _ _ _ _ (fun l hl => by have := e2 l hl; omega) (by omega)]
  have last : constants f getTestCasesToks = some ([], getTestCasesToks) := by
    unfold getTestCasesToks
    cases f <;> rfl
  rw [last]
  simp only [Option.map_some, List.map_map]
  rfl

/-- The function at the end of the file is `get_test_cases` and returns the test cases. -/
theorem C77_get (p : Phantom) (cases : List (List (BitVec 8) × List (BitVec 8))) (fuel : Nat) (hf : (codegen p cases).length ≤ fuel) :
    ∃ cs ts, constants fuel (codegen p cases) = some (cs, ts) ∧
      returns cs ts = some ("get_test_cases", cases.map fun c => (bytes c.1, bytes c.2)) := by
  refine ⟨_, _, C77_reads p cases fuel hf, ?_⟩
  have hz : (cases.map fun c => bytes c.1).zip (cases.map fun c => bytes c.2) = cases.map fun c => (bytes c.1, bytes c.2) := List.zip_map'
  have hp : pairFn getTestCasesToks = some ("get_test_cases", "TEST_CASE_INPUTS", "TEST_CASE_OUTPUTS", true, false) := by decide +kernel
  unfold returns
  rw [hp]
  show some ("get_test_cases", List.map _ (List.zip _ _)) = _
  rw [hz, List.map_map]
  rfl

/-- The reader is not lenient: a wrong length in the type of an array is an error. -/
theorem C77_length (s : String) (n : Nat) (l : List (BitVec 8)) (r : List Tok) (fuel : Nat) (hf : l.length < fuel)
    (h : n ≠ l.length) : constants (fuel + 1) (constBytes s n l ++ r) = none := by
  obtain ⟨f, rfl⟩ : ∃ g, fuel = g + 1 := ⟨fuel - 1, by omega⟩
  simp only [constBytes, List.cons_append, List.nil_append, List.append_assoc, constants, parseTy, parseExpr]
  rw [parse_u8s l _ (f + 1) hf]
  simp only [Option.map_some, eval, List.length_map]
  rw [if_neg fun e => h e.symm]

theorem test1_runs (k : Bool) : Guest.test1 k 10#32 true = some 140#32 ∧ Guest.test1 k 10#32 false = some 1000#32 ∧
    Guest.test1 k 20#32 true = some 180#32 ∧ Guest.test1 k 20#32 false = some 2000#32 ∧
    Guest.test1 k 30#32 true = some 220#32 ∧ Guest.test1 k 30#32 false = some 3000#32 := by
  revert k; decide +kernel

theorem testCases_eq (chk : Bool) (pad : BitVec 32 → Bool → List (BitVec 8)) : testCases chk pad = some
    [(inputBytes (pad 10 true) 10 true, Guest.putWord 140), (inputBytes (pad 10 false) 10 false, Guest.putWord 1000),
      (inputBytes (pad 20 true) 20 true, Guest.putWord 180), (inputBytes (pad 20 false) 20 false, Guest.putWord 2000),
      (inputBytes (pad 30 true) 30 true, Guest.putWord 220), (inputBytes (pad 30 false) 30 false, Guest.putWord 3000)] := by
  obtain ⟨a1, a2, a3, a4, a5, a6⟩ := test1_runs chk
  simp only [testCases, List.flatMap_cons, List.flatMap_nil, List.map_cons, List.map_nil, List.cons_append, List.nil_append,
    List.mapM_cons, List.mapM_nil, a1, a2, a3, a4, a5, a6, Option.map_some]
  rfl

theorem test1Main_input (chk : Bool) (p : List (BitVec 8)) (a : BitVec 32) (b : Bool) :
    Guest.test1Main chk (inputBytes p a b) = (Guest.test1 chk a b).map Guest.putWord := by
  unfold Guest.test1Main
  have h1 : Guest.getWord (inputBytes p a b) 0 = a := getWord_at [] _ rfl rfl
  have h2 : Guest.getBool (inputBytes p a b) 4 = b := by cases b <;> rfl
  rw [h1, h2]

/-- The six test cases of guest-test1, with and without overflow checks and whatever the padding holds: each consists of an
input tape and what the guest writes for it. -/
theorem C77_cases (chk chk' : Bool) (pad : BitVec 32 → Bool → List (BitVec 8)) :
    ∃ cs, testCases chk pad = some cs ∧ cs.length = 6 ∧ (∀ c ∈ cs, Guest.test1Main chk' c.1 = some c.2) ∧
      cs.map Prod.snd = [140#32, 1000#32, 180#32, 2000#32, 220#32, 3000#32].map Guest.putWord := by
  obtain ⟨b1, b2, b3, b4, b5, b6⟩ := test1_runs chk'
  refine ⟨_, testCases_eq chk pad, rfl, ?_, rfl⟩
  intro c hc
  simp only [List.mem_cons, List.not_mem_nil, or_false] at hc
  rcases hc with rfl | rfl | rfl | rfl | rfl | rfl <;> simp only <;> rw [test1Main_input]
  · exact congrArg (Option.map Guest.putWord) b1
  · exact congrArg (Option.map Guest.putWord) b2
  · exact congrArg (Option.map Guest.putWord) b3
  · exact congrArg (Option.map Guest.putWord) b4
  · exact congrArg (Option.map Guest.putWord) b5
  · exact congrArg (Option.map Guest.putWord) b6

/-- What the cases miss: a guest that reads only one byte of its number passes all of them, and is wrong on the first number
above 255. -/
theorem C77_misses (chk : Bool) (pad : BitVec 32 → Bool → List (BitVec 8)) :
    let guest := fun tape : List (BitVec 8) => Guest.test1Main chk (tape.take 1 ++ [0, 0, 0] ++ tape.drop 4)
    (∀ cs, testCases chk pad = some cs → ∀ c ∈ cs, guest c.1 = some c.2) ∧
    guest (inputBytes [0, 0, 0] 256#32 true) = some (Guest.putWord 100#32) ∧
    Guest.test1Main chk (inputBytes [0, 0, 0] 256#32 true) = some (Guest.putWord 1124#32) := by
  intro guest
  refine ⟨fun cs hcs c hc => ?_, by cases chk <;> decide +kernel, by cases chk <;> decide +kernel⟩
  obtain ⟨cs', h1, -, h2, -⟩ := C77_cases chk chk pad
  obtain rfl := Option.some.inj (hcs.symm.trans h1)
  have : ∃ p a b, a ∈ [10#32, 20#32, 30#32] ∧ c.1 = inputBytes p a b := by
    rw [testCases_eq] at hcs
    rw [← Option.some.inj hcs] at hc
    simp only [List.mem_cons, List.not_mem_nil, or_false] at hc
    rcases hc with rfl | rfl | rfl | rfl | rfl | rfl
    all_goals exact ⟨_, _, _, by decide, rfl⟩
  obtain ⟨p, a, b, ha, hx⟩ := this
  rw [← h2 c hc]
  simp only [guest]
  rw [hx]
  simp only [List.mem_cons, List.not_mem_nil, or_false] at ha
  rcases ha with rfl | rfl | rfl <;> rfl

/-! ### Non-vacuity -/

/-- A small file: ten bytes of program, two cases, one of them empty. -/
example :
    let p : Phantom := ⟨⟨[1, 2], 0, 8⟩, ⟨[3], 4, 12⟩, ⟨16, 2⟩, ⟨20, 3⟩⟩
    (constants 200 (codegen p [([7, 8], [9]), ([], [])])).map (fun x => x.1.map Prod.fst) = some
      ["BOOT_ROM_OFFSET", "BOOT_ROM_SIZE", "BOOT_ROM_DATA", "BOOT_RAM_OFFSET", "BOOT_RAM_SIZE", "BOOT_RAM_DATA",
       "INPUT_START_ADDR", "INPUT_SIZE", "OUTPUT_START_ADDR", "OUTPUT_SIZE", "TEST_CASES_COUNT", "TEST_CASE_INPUTS",
       "TEST_CASE_OUTPUTS"] ∧ (codegen p [([7, 8], [9]), ([], [])]).length ≤ 250 := by
  decide +kernel

end Verif.Props
