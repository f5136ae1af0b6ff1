import Verif.Model.ElfBytes
import Verif.Model.Guests
import Verif.Model.Otc
/-
  Models of the host programs compiler-tests/{string-match,template,uniswap,otc}/src/main.rs, and of the settings
  that they and `Phantom::encrypted_vm` take from the environment.

  `none` = panic (a failed `assert_eq!` included).  The guest is given by what `Phantom::from_elf` makes of
  its file (Model/Loader.lean, Model/ElfBytes.lean); the building itself is not modelled, nor is printing.

  `chk` and `dbg`: overflow checks and debug assertions, as everywhere.

  `from_u8_slice::<T>` (string-match/src/main.rs:9-11, likewise in each host) reads the first `size_of::<T>()` bytes of the tape.  A tape that
  is shorter is undefined behaviour, as is a `bool` other than 0 and 1; the model reads missing bytes as zero, and
  any other byte as `true`.  `to_u8_slice` of a structure with padding (uniswap only) shows bytes that the language
  leaves open: they are a parameter.
-/
namespace Verif.Model.Host

/-! ### Settings -/

/-- Value of an ASCII digit: `char::to_digit(10)`. -/
def toDigit (b : BitVec 8) : Option (BitVec 64) :=
  if 48#8 ≤ b ∧ b ≤ 57#8 then some ((b - 48#8).setWidth 64) else none

/-- The loop of `from_str_radix` without checks, used for at most 16 digits: arithmetic on `u64`. -/
def fastLoop : List (BitVec 8) → BitVec 64 → Option (BitVec 64)
  | [], r => some r
  | c :: cs, r => (toDigit c).bind fun x => fastLoop cs (r * 10#64 + x)

/-- The loop with `checked_mul` and `checked_add`. -/
def slowLoop : List (BitVec 8) → BitVec 64 → Option (BitVec 64)
  | [], r => some r
  | c :: cs, r => (toDigit c).bind fun x =>
    if 2 ^ 64 ≤ r.toNat * 10 then none
    else if 2 ^ 64 ≤ (r * 10#64).toNat + x.toNat then none
    else slowLoop cs (r * 10#64 + x)

/-- The digits of the text: an optional `+` is skipped; a lone sign is not a number.  (`-` is no sign of an unsigned
type; it is then refused as a digit.) -/
def digits (v : List (BitVec 8)) : Option (List (BitVec 8)) :=
  if v = [] ∨ v = [0x2B#8] ∨ v = [0x2D#8] then none
  else if v.head? = some 0x2B#8 then some v.tail
  else some v

/-- `str::parse::<usize>`, i.e. `from_str_radix(_, 10)` of the standard library, on 64-bit machines; `none` = `Err`. -/
def parseUsize (v : List (BitVec 8)) : Option Nat :=
  (digits v).bind fun ds =>
  (if ds.length ≤ 16 then fastLoop ds 0#64 else slowLoop ds 0#64).map fun r => r.toNat

/-- The environment: the bytes of each variable that is set. -/
abbrev Env := String → Option (List (BitVec 8))

/-- `env::var`: only values that are Unicode; `utf8` says which byte strings are. -/
def Env.var (utf8 : List (BitVec 8) → Bool) (env : Env) (name : String) : Option (List (BitVec 8)) :=
  (env name).filter utf8

/-- `MAX_CYCLES` with a default, e.g. string-match/src/main.rs:56-59. -/
def maxCycles (utf8 : List (BitVec 8) → Bool) (env : Env) (default : Nat) : Nat :=
  ((env.var utf8 "MAX_CYCLES").bind parseUsize).getD default

/-- `PHANTOM_THREADS`, compiler/src/interpreter.rs:341-344; `cpus` is `num_cpus::get_physical()`. -/
def threads (utf8 : List (BitVec 8) → Bool) (env : Env) (cpus : Nat) : Nat :=
  match env.var utf8 "PHANTOM_THREADS" with
  | some v => (parseUsize v).getD cpus
  | none => cpus

/-- `u8::to_ascii_lowercase`. -/
def toLower (b : BitVec 8) : BitVec 8 := if 65#8 ≤ b ∧ b ≤ 90#8 then b ||| 0x20#8 else b

/-- `str::eq_ignore_ascii_case`. -/
def eqIgnoreCase (a b : List (BitVec 8)) : Bool :=
  decide (a.length = b.length) && (a.zip b).all fun x => toLower x.1 == toLower x.2

/-- `val == "1" || val.eq_ignore_ascii_case("true")`, interpreter.rs:339 and 346. -/
def isYes (v : List (BitVec 8)) : Bool := v == [0x31#8] || eqIgnoreCase v [0x74#8, 0x72#8, 0x75#8, 0x65#8]

/-- `PHANTOM_DEBUG` (and, with its name, `PHANTOM_VERBOSE_TIMINGS`), interpreter.rs:345-347 and 338-340. -/
def flag (utf8 : List (BitVec 8) → Bool) (env : Env) (name : String) : Bool :=
  ((env.var utf8 name).map isYes).getD false

/-! ### The hosts -/

section
variable {B : Backend} (C : Cipher B) (rand : Nat → Nat → Nat → C.Rand) (decU : B.Uint → U32) (decP : B.Prep → U32)

/-- What the hosts have in common, e.g. string-match/src/main.rs:67-82: the input tape through the encrypted VM and
through the test VM, and `assert_eq!` on the output tapes. -/
def bothTapes (chk dbg phantomDebug : Bool) (threads : Nat) (p : Phantom) (tape : List (BitVec 8)) (n : Nat) :
    Option (List (BitVec 8)) :=
  (p.encryptedVm C rand dbg phantomDebug threads tape n).bind fun ev =>
  (ev.execute C decU decP).bind fun ev =>
  (ev.outputTape C chk).bind fun encTape =>
  (p.testVm chk n).bind fun vm =>
  (vm.readInputTape chk tape).bind fun vm =>
  (vm.execute chk).bind fun vm =>
  (vm.outputTape chk).bind fun testTape =>
  if testTape = encTape then some testTape else none

/-- The same with the settings of the environment. -/
def runGuest (utf8 : List (BitVec 8) → Bool) (env : Env) (cpus : Nat) (chk dbg : Bool) (p : Phantom)
    (tape : List (BitVec 8)) (default : Nat) : Option (List (BitVec 8)) :=
  bothTapes C rand decU decP chk dbg (flag utf8 env "PHANTOM_DEBUG") (threads utf8 env cpus) p tape
    (maxCycles utf8 env default)

/-- string-match/src/main.rs:51-100 with `s` for the string `"not-mississippi"`: the printed answer. -/
def matchHost (utf8 : List (BitVec 8) → Bool) (env : Env) (cpus : Nat) (chk dbg : Bool) (p : Phantom)
    (s : List (BitVec 8)) : Option Bool :=
  (Guest.boundedString s).bind fun input =>
  (runGuest C rand decU decP utf8 env cpus chk dbg p input 100).bind fun tape =>
  (Guest.boundedString Guest.hidden).bind fun h =>
  if Guest.getBool tape 0 = Guest.boundedEq input h then some (Guest.getBool tape 0) else none

/-- `"not-mississippi"`, string-match/src/main.rs:62. -/
def notMississippi : List (BitVec 8) :=
  [0x6e#8, 0x6f#8, 0x74#8, 0x2d#8, 0x6d#8, 0x69#8, 0x73#8, 0x73#8, 0x69#8, 0x73#8, 0x73#8, 0x69#8, 0x70#8, 0x70#8, 0x69#8]

/-- template/src/main.rs:29-91 with `point` for 123: the evaluation that has been checked.  The loop of
`expected_output` (lines 71-82) is the same text as the guest's. -/
def polyHost (utf8 : List (BitVec 8) → Bool) (env : Env) (cpus : Nat) (chk dbg : Bool) (p : Phantom)
    (point : BitVec 32) : Option (BitVec 32) :=
  (runGuest C rand decU decP utf8 env cpus chk dbg p (Guest.putWord point) 700).bind fun tape =>
  (Guest.polyLoop chk point Guest.coefficients 0#32 1#32).bind fun want =>
  if Guest.getWord tape 0 = want then some want else none

/-- `Check output`, uniswap/src/main.rs:90-110.  Unlike the guest it does not look at the balance first. -/
def wantSwap (chk : Bool) (pool : Guest.Pool) (trade : Guest.Trade) (account : Guest.Account) :
    Option (Guest.Pool × Guest.Account) :=
  let k := pool.t0 * pool.t1
  if trade.direction = true then do
    let q ← Guest.div k (pool.t0 + trade.amount)
    let t1Out ← Guest.sub chk pool.t1 q
    let p1 ← Guest.sub chk pool.t1 t1Out
    let p0 ← Guest.add chk pool.t0 trade.amount
    let a0 ← Guest.sub chk account.t0Balance trade.amount
    let a1 ← Guest.add chk account.t1Balance t1Out
    pure (⟨p0, p1⟩, ⟨a0, a1⟩)
  else do
    let q ← Guest.div k (pool.t1 + trade.amount)
    let t0Out ← Guest.sub chk pool.t0 q
    let p0 ← Guest.sub chk pool.t0 t0Out
    let p1 ← Guest.add chk pool.t1 trade.amount
    let a1 ← Guest.sub chk account.t1Balance trade.amount
    let a0 ← Guest.add chk account.t0Balance t0Out
    pure (⟨p0, p1⟩, ⟨a0, a1⟩)

/-- uniswap/src/main.rs:50-118; `pad` is in the padding of `Trade`. -/
def swapHost (utf8 : List (BitVec 8) → Bool) (env : Env) (cpus : Nat) (chk dbg : Bool) (pad : List (BitVec 8)) (p : Phantom)
    (pool : Guest.Pool) (trade : Guest.Trade) (account : Guest.Account) : Option (Guest.Pool × Guest.Account) :=
  (runGuest C rand decU decP utf8 env cpus chk dbg p (Guest.swapInput pool trade account pad) 300).bind fun tape =>
  (wantSwap chk pool trade account).bind fun want =>
  if (⟨Guest.getWord tape 8, Guest.getWord tape 12⟩ : Guest.Account) = want.2 ∧
     (⟨Guest.getWord tape 0, Guest.getWord tape 4⟩ : Guest.Pool) = want.1 then some want else none

/-- The values of uniswap/src/main.rs:55-63. -/
def swapPool : Guest.Pool := ⟨100#32, 500#32⟩
def swapTrade : Guest.Trade := ⟨50#32, true⟩
def swapAccount : Guest.Account := ⟨60#32, 0#32⟩

/-- otc/src/main.rs:26-81 for the given input; the prices that the guest computed are printed next to those of
`quote`, without a check.  The result is the tape. -/
def otcHost (utf8 : List (BitVec 8) → Bool) (env : Env) (cpus : Nat) (chk dbg : Bool) (p : Phantom)
    (mid window volatility amount : BitVec 32) (c : Otc.ClientType) : Option (List (BitVec 8)) :=
  runGuest C rand decU decP utf8 env cpus chk dbg p (Otc.Host.input mid window volatility amount c) 9000

end

end Verif.Model.Host
