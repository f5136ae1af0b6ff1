import Verif.Model.F32
/-
  The square root of `f32`: IEEE 754 prescribes the nearest value (Rust: `f32::sqrt` is the IEEE operation).
-/
namespace Verif.Model.F32

/-- The integer part of the square root of a number below `4^k`, digit by digit. -/
def isqrt : (k : ℕ) → ℕ → ℕ
  | 0, _ => 0
  | k + 1, y => let r := 2 * isqrt k (y / 4)
                if (r + 1) * (r + 1) ≤ y then r + 1 else r

/-- Rounded square root of a positive magnitude: 24 significant bits; roots are never subnormal. -/
def sqrtMag (x : ℚ) : ℚ :=
  let e : ℤ := Int.log 2 x / 2 - 23
  let y : ℚ := x / 4 ^ e
  let n : ℕ := isqrt 24 ⌊y⌋.toNat
  let mid : ℚ := (n + 1 / 2) ^ 2
  (if mid < y ∨ mid = y ∧ n % 2 = 1 then n + 1 else n : ℕ) * 2 ^ e

/-- `f32::sqrt`; the root of a zero is that zero. -/
def sqrt : F32 → F32
  | fin s x => if x = 0 then fin s 0 else if s then nan else fin false (sqrtMag x)
  | inf false => inf false
  | inf true => nan
  | nan => nan

end Verif.Model.F32

namespace Verif.Model.Otc.Host

/-- `volatility_factor`, compiler-tests/otc/src/lib.rs:119-124. -/
def volatilityFactor : F32 :=
  let base := F32.lit (6 / 10)
  let daily := F32.lit (47 / 100)
  (daily.div base).sqrt

end Verif.Model.Otc.Host
