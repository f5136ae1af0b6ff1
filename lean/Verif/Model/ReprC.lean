import Verif.Model.Otc
/-
  Structures on the tapes.  The hosts turn an `Input` into bytes with `to_u8_slice` and bytes into an `Output` with `from_u8_slice`
  (compiler-tests/*/src/main.rs:4-11), the guests read `INPUT` with `read_volatile` and copy an `Output` to `OUTPUT`
  (compiler-tests/*/src/guest/src/main.rs); both declare the structures, with `repr(C)`, for themselves.

  `repr(C)` is a contract of the language (Rust reference, "The C representation"): fields in the order of declaration, each at the next
  multiple of its alignment; the alignment of the structure is the largest of its fields, and its size is rounded up to it.  Integers
  are little endian and aligned to their size on both targets, x86_64 for the hosts and riscv32 for the guests; `usize` has the size of the
  target's pointers.  Bytes of padding are whatever was in memory, here a function of the position.
-/
namespace Verif.Model.ReprC

/-- Types of fields: integers and floating-point numbers of `bytes` bytes, `bool`, enums without data, `usize`, arrays and structures. -/
inductive CTy where
  | num (bytes : Nat)
  | bool
  | enum (variants : Nat)
  | usize
  | array (n : Nat) (t : CTy)
  | struct (fs : List CTy)

/-- Values: numbers (a `bool` is 0 or 1, an enum its discriminant), and lists for arrays and structures. -/
inductive Val where
  | num (n : Nat)
  | list (vs : List Val)
  deriving Inhabited

/-- The next multiple of `a`. -/
def roundUp (o a : Nat) : Nat := (o + (a - 1)) / a * a

mutual
/-- Alignment on a target with pointers of `w` bytes. -/
def CTy.align (w : Nat) : CTy → Nat
  | .num b => b
  | .bool => 1
  | .enum _ => 4
  | .usize => w
  | .array _ t => t.align w
  | .struct fs => alignAll w fs
/-- The largest alignment of the fields. -/
def alignAll (w : Nat) : List CTy → Nat
  | [] => 1
  | t :: ts => max (t.align w) (alignAll w ts)
end

mutual
/-- `core::mem::size_of`. -/
def CTy.size (w : Nat) : CTy → Nat
  | .num b => b
  | .bool => 1
  | .enum _ => 4
  | .usize => w
  | .array n t => n * t.size w
  | .struct fs => roundUp (endOf w fs 0) (alignAll w fs)
/-- Where the last field ends, if the fields `fs` come after `o`. -/
def endOf (w : Nat) : List CTy → Nat → Nat
  | [], o => o
  | t :: ts, o => endOf w ts (roundUp o (t.align w) + t.size w)
end

/-- Offsets of the fields. -/
def offsets (w : Nat) : List CTy → Nat → List Nat
  | [], _ => []
  | t :: ts, o => roundUp o (t.align w) :: offsets w ts (roundUp o (t.align w) + t.size w)

/-- `n` bytes of padding from position `o`. -/
def gap (pad : Nat → BitVec 8) (o n : Nat) : List (BitVec 8) := (List.range n).map fun i => pad (o + i)

/-- The `b` bytes of a number. -/
def numBytes : Nat → Nat → List (BitVec 8)
  | 0, _ => []
  | b + 1, n => BitVec.ofNat 8 n :: numBytes b (n / 256)

/-- The number of a list of bytes. -/
def bytesNum : List (BitVec 8) → Nat
  | [] => 0
  | b :: bs => b.toNat + 256 * bytesNum bs

def Val.toNum : Val → Nat
  | .num n => n
  | .list _ => 0

def Val.toList : Val → List Val
  | .num _ => []
  | .list vs => vs

mutual
/-- What `to_u8_slice` shows of a value at position `o`. -/
def writeTy (w : Nat) (pad : Nat → BitVec 8) : CTy → Val → Nat → List (BitVec 8)
  | .num b, v, _ => numBytes b v.toNum
  | .bool, v, _ => numBytes 1 v.toNum
  | .enum _, v, _ => numBytes 4 v.toNum
  | .usize, v, _ => numBytes w v.toNum
  | .array n t, v, o => (List.range n).flatMap fun i => writeTy w pad t (v.toList.getD i default) (o + i * t.size w)
  | .struct fs, v, o =>
    writeAll w pad fs v.toList o 0 ++
      gap pad (o + endOf w fs 0) (roundUp (endOf w fs 0) (alignAll w fs) - endOf w fs 0)
/-- The fields of a structure at position `o`, of which `c` bytes have been written. -/
def writeAll (w : Nat) (pad : Nat → BitVec 8) : List CTy → List Val → Nat → Nat → List (BitVec 8)
  | [], _, _, _ => []
  | t :: ts, vs, o, c =>
    gap pad (o + c) (roundUp c (t.align w) - c) ++ writeTy w pad t (vs.headD default) (o + roundUp c (t.align w)) ++
      writeAll w pad ts vs.tail o (roundUp c (t.align w) + t.size w)
end

/-- The number in the `b` bytes at position `o`. -/
def getNum (bytes : List (BitVec 8)) (o b : Nat) : Option Nat :=
  if o + b ≤ bytes.length then some (bytesNum ((bytes.drop o).take b)) else none

/-- All or nothing. -/
def allSome : List (Option Val) → Option (List Val)
  | [] => some []
  | v :: vs => v.bind fun v => (allSome vs).map (v :: ·)

mutual
/-- `ptr::read` and `read_volatile` at position `o`.  `none` = undefined behaviour: bytes that are not there, a `bool` other than 0 and 1,
an enum with another discriminant. -/
def readTy (w : Nat) (bytes : List (BitVec 8)) : CTy → Nat → Option Val
  | .num b, o => (getNum bytes o b).map .num
  | .bool, o => (getNum bytes o 1).bind fun n => if n < 2 then some (.num n) else none
  | .enum k, o => (getNum bytes o 4).bind fun n => if n < k then some (.num n) else none
  | .usize, o => (getNum bytes o w).map .num
  | .array n t, o => (allSome ((List.range n).map fun i => readTy w bytes t (o + i * t.size w))).map .list
  | .struct fs, o => (readAll w bytes fs o 0).map .list
/-- The fields of a structure at position `o`, of which `c` bytes have been read. -/
def readAll (w : Nat) (bytes : List (BitVec 8)) : List CTy → Nat → Nat → Option (List Val)
  | [], _, _ => some []
  | t :: ts, o, c => (readTy w bytes t (o + roundUp c (t.align w))).bind fun v =>
    (readAll w bytes ts o (roundUp c (t.align w) + t.size w)).map (v :: ·)
end

/-! ### The declarations -/

/-- `u8`, `u32` and `f32`, `u64`. -/
abbrev u8 : CTy := .num 1
abbrev u32 : CTy := .num 4
abbrev u64 : CTy := .num 8

/-- uniswap/src/main.rs:12-48: `Account`, `Trade`, `Pool`, `Output`, `Input`. -/
def swapHostOut : CTy := .struct [.struct [u32, u32], .struct [u32, u32]]
def swapHostIn : CTy := .struct [.struct [u32, u32], .struct [u32, .bool], .struct [u32, u32]]
/-- uniswap/src/guest/src/main.rs:13-44. -/
def swapGuestOut : CTy := .struct [.struct [u32, u32], .struct [u32, u32]]
def swapGuestIn : CTy := .struct [.struct [u32, u32], .struct [u32, .bool], .struct [u32, u32]]

/-- string-match/src/main.rs:13-22 and 46-49. -/
def matchHostOut : CTy := .struct [.bool]
def matchHostIn : CTy := .struct [.struct [.array 20 u8]]
/-- string-match/src/guest/src/main.rs:15-24 and 48-51. -/
def matchGuestOut : CTy := .struct [.bool]
def matchGuestIn : CTy := .struct [.struct [.array 20 u8]]

/-- template/src/main.rs:16-24. -/
def polyHostOut : CTy := .struct [u32]
def polyHostIn : CTy := .struct [u32]
/-- template/src/guest/src/main.rs:16-24. -/
def polyGuestOut : CTy := .struct [u32]
def polyGuestIn : CTy := .struct [u32]

/-- gen-tests/src/guest_test1.rs:5-14. -/
def test1HostOut : CTy := .struct [u32]
def test1HostIn : CTy := .struct [u32, .bool]
/-- gen-tests/src/guest-test1/src/main.rs:13-22. -/
def test1GuestOut : CTy := .struct [u32]
def test1GuestIn : CTy := .struct [u32, .bool]

/-- otc/src/main.rs:14-24 with otc/src/lib.rs:1-27 and 49-64. -/
def otcHostOut : CTy := .struct [.struct [u32, u32]]
def otcHostIn : CTy := .struct [.struct [u32, u32, u32], .struct [.enum 3], .struct [u32]]
/-- otc/src/guest/src/main.rs:13-56. -/
def otcGuestOut : CTy := .struct [.struct [u32, u32]]
def otcGuestIn : CTy := .struct [.struct [u32, u32, u32], .struct [.enum 3], .struct [u32]]

end Verif.Model.ReprC
