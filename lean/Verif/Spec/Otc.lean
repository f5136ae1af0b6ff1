import Verif.Model.Otc
/-
  The pricing policy of the `otc` example in exact arithmetic, as its comments describe it
  (compiler-tests/otc/src/lib.rs:76-146, README.md): a spread in basis points, set by the kind of client, widened for
  trades that are large relative to the traded volume, discounted for large trades of institutions, scaled by the
  volatility, and laid half above and half below the mid price.
-/
namespace Verif.Spec.Otc
open Model Model.Otc

/-- Basis points. -/
def base : ClientType → ℚ
  | .RETAIL => 100
  | .INSTITUTIONAL => 25
  | .PRIME => 10

/-- Factor for a trade that is the fraction `r` of the traded volume. -/
def tier (r : ℚ) : ℚ := if r ≤ 1 / 100 then 1 else if r ≤ 1 / 20 then 3 / 2 else 5 / 2

/-- Discount factor. -/
def discount (c : ClientType) (amount : ℚ) : ℚ :=
  if c = .RETAIL then 1 else if 10 < amount then 7 / 10 else if 5 < amount then 9 / 10 else 1

/-- Half the spread for a size factor `size`. -/
def half (c : ClientType) (amount size volatility mid : ℚ) : ℚ :=
  base c * size * discount c amount * volatility / 10000 * mid / 2

/-- The size factor may be that of a fraction which is smaller by a relative `2^-23`. -/
def SizeOk (r size : ℚ) : Prop := ∃ r', r' ≤ r ∧ r ≤ r' * (1 + 1 / 2 ^ 23) ∧ size = tier r'

end Verif.Spec.Otc
