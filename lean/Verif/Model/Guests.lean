/-
  Models of the example guest programs under compiler-tests: the body of each `main` between the
  reading of the input tape and the writing of the output tape, together with the layout of the
  `repr(C)` structures on the tapes (little endian, `bool` one byte, three bytes of padding where a
  `u32` follows it).

  Guests are built in the release profile (compiler/src/lib.rs:27), where `+`, `-` and `*` on `u32`
  wrap; the hosts repeat the same computation for comparison and may be built with overflow checks.
  `chk` says whether overflow is checked; `none` = panic (a guest then loops forever in its panic
  handler and never writes its output).

  The guest `otc`, which computes with `f32`, is in Model/Otc.lean.
-/
namespace Verif.Model.Guest

/-- `a + b` on `u32`. -/
def add (chk : Bool) (a b : BitVec 32) : Option (BitVec 32) :=
  if chk && decide (2 ^ 32 ≤ a.toNat + b.toNat) then none else some (a + b)

/-- `a - b` on `u32`. -/
def sub (chk : Bool) (a b : BitVec 32) : Option (BitVec 32) :=
  if chk && decide (a.toNat < b.toNat) then none else some (a - b)

/-- `a * b` on `u32`. -/
def mul (chk : Bool) (a b : BitVec 32) : Option (BitVec 32) :=
  if chk && decide (2 ^ 32 ≤ a.toNat * b.toNat) then none else some (a * b)

/-- `a.div(b)` on `u32`. -/
def div (a b : BitVec 32) : Option (BitVec 32) := if b = 0 then none else some (a / b)

/-- A `u32` of a structure on a tape. -/
def putWord (w : BitVec 32) : List (BitVec 8) :=
  [w.extractLsb' 0 8, w.extractLsb' 8 8, w.extractLsb' 16 8, w.extractLsb' 24 8]

/-- A `bool`. -/
def putBool (b : Bool) : BitVec 8 := if b then 1 else 0

/-- `u32` at offset `o` of a tape. -/
def getWord (t : List (BitVec 8)) (o : Nat) : BitVec 32 :=
  (t.getD o 0).setWidth 32 ||| (t.getD (o + 1) 0).setWidth 32 <<< 8 |||
    (t.getD (o + 2) 0).setWidth 32 <<< 16 ||| (t.getD (o + 3) 0).setWidth 32 <<< 24

/-- `bool` at offset `o`.  A byte other than 0 and 1 is undefined behaviour; it is read as `true`. -/
def getBool (t : List (BitVec 8)) (o : Nat) : Bool := t.getD o 0 != 0

/-! ### uniswap -/

/-- `Pool`, uniswap/src/guest/src/main.rs:14-17. -/
structure Pool where
  t0 : BitVec 32
  t1 : BitVec 32
  deriving DecidableEq

/-- `Trade`, main.rs:26-31. -/
structure Trade where
  amount : BitVec 32
  direction : Bool
  deriving DecidableEq

/-- `Account`, main.rs:34-37. -/
structure Account where
  t0Balance : BitVec 32
  t1Balance : BitVec 32
  deriving DecidableEq

/-- Lines 65-93 of `main`. -/
def swap (chk : Bool) (pool : Pool) (trade : Trade) (account : Account) : Option (Pool × Account) :=
  let k := pool.t0 * pool.t1
  if trade.direction then
    if account.t0Balance < trade.amount then none else do
    let q ← div k (pool.t0 + trade.amount)
    let t1Out ← sub chk pool.t1 q
    let p1 ← sub chk pool.t1 t1Out
    let p0 ← add chk pool.t0 trade.amount
    let a0 ← sub chk account.t0Balance trade.amount
    let a1 ← add chk account.t1Balance t1Out
    pure (⟨p0, p1⟩, ⟨a0, a1⟩)
  else
    if account.t1Balance < trade.amount then none else do
    let q ← div k (pool.t1 + trade.amount)
    let t0Out ← sub chk pool.t0 q
    let p0 ← sub chk pool.t0 t0Out
    let p1 ← add chk pool.t1 trade.amount
    let a1 ← sub chk account.t1Balance trade.amount
    let a0 ← add chk account.t0Balance t0Out
    pure (⟨p0, p1⟩, ⟨a0, a1⟩)

/-- The bytes of `Input` (main.rs:40-44) as the host writes them, with `pad` in the padding. -/
def swapInput (pool : Pool) (trade : Trade) (account : Account) (pad : List (BitVec 8)) :
    List (BitVec 8) :=
  putWord pool.t0 ++ putWord pool.t1 ++ putWord trade.amount ++ [putBool trade.direction] ++ pad ++
    putWord account.t0Balance ++ putWord account.t1Balance

/-- `main`, main.rs:56-106, from input tape to output tape. -/
def swapMain (chk : Bool) (tape : List (BitVec 8)) : Option (List (BitVec 8)) :=
  (swap chk ⟨getWord tape 0, getWord tape 4⟩ ⟨getWord tape 8, getBool tape 12⟩
    ⟨getWord tape 16, getWord tape 20⟩).map fun o =>
    putWord o.1.t0 ++ putWord o.1.t1 ++ putWord o.2.t0Balance ++ putWord o.2.t1Balance

/-! ### string-match -/

/-- `MAX_LENGTH`, string-match/src/guest/src/main.rs:20. -/
def MAX_LENGTH : Nat := 20

/-- `UpperBoundedString::new`, main.rs:27-36. -/
def boundedString (s : List (BitVec 8)) : Option (List (BitVec 8)) :=
  if MAX_LENGTH < s.length then none
  else some (s.zipIdx.foldl (fun cs (x : BitVec 8 × Nat) => cs.set x.2 x.1) (List.replicate MAX_LENGTH 0))

/-- The loop of `eq`, main.rs:38-45, from index `i` on with `fuel` rounds left. -/
def boundedEqFrom (a b : List (BitVec 8)) : Nat → Nat → Bool
  | _, 0 => true
  | i, fuel + 1 => if a[i]? ≠ b[i]? then false else boundedEqFrom a b (i + 1) fuel

/-- `UpperBoundedString::eq`. -/
def boundedEq (a b : List (BitVec 8)) : Bool := boundedEqFrom a b 0 MAX_LENGTH

/-- The hidden string `"mississippi"`, main.rs:72. -/
def hidden : List (BitVec 8) :=
  [0x6d, 0x69, 0x73, 0x73, 0x69, 0x73, 0x73, 0x69, 0x70, 0x70, 0x69]

/-- `main`, main.rs:65-88, from input tape (20 bytes) to output tape. -/
def matchMain (tape : List (BitVec 8)) : Option (List (BitVec 8)) :=
  (boundedString hidden).map fun h => [putBool (boundedEq h (tape.take MAX_LENGTH))]

/-! ### template -/

/-- The coefficients, template/src/guest/src/main.rs:55. -/
def coefficients : List (BitVec 32) := [123#32, 456#32, 789#32, 12#32, 3456#32, 7#32, 89#32]

/-- The loop of lines 57-62. -/
def polyLoop (chk : Bool) (point : BitVec 32) : List (BitVec 32) → BitVec 32 → BitVec 32 →
    Option (BitVec 32)
  | [], evaluation, _ => some evaluation
  | c :: cs, evaluation, pow => do
    let m ← mul chk c pow
    let e ← add chk evaluation m
    let p ← mul chk pow point
    polyLoop chk point cs e p

/-- `main`, main.rs:43-77. -/
def polyMain (chk : Bool) (tape : List (BitVec 8)) : Option (List (BitVec 8)) :=
  (polyLoop chk (getWord tape 0) coefficients 0#32 1#32).map putWord

/-! ### guest-test1 -/

/-- `HARDCODED_VALUE`, gen-tests/src/guest-test1/src/main.rs:25. -/
def hardcoded : List (BitVec 32) := [10#32, 20#32, 30#32, 40#32]

/-- Lines 42-48 of `main`; also `run`, gen-tests/src/guest_test1.rs:20-30. -/
def test1 (chk : Bool) (inA : BitVec 32) (branch : Bool) : Option (BitVec 32) :=
  if branch then
    hardcoded.foldlM (fun acc v => (add chk acc inA).bind fun s => add chk s v) 0#32
  else hardcoded.foldlM (fun acc v => (mul chk inA v).bind fun m => add chk acc m) 0#32

/-- `main`, main.rs:37-61. -/
def test1Main (chk : Bool) (tape : List (BitVec 8)) : Option (List (BitVec 8)) :=
  (test1 chk (getWord tape 0) (getBool tape 4)).map putWord

end Verif.Model.Guest
