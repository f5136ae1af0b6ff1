import Verif.Model.F32
import Verif.Model.Guests
/-
  The example guest compiler-tests/otc: a market maker's bid and ask for a client, computed with `f32`.
  The guest (src/guest/src/main.rs) and the host (src/lib.rs) each have their own copy of the code; both are
  modelled.
-/
namespace Verif.Model.Otc

/-- `ClientType`, main.rs:14-18, lib.rs:1-6; `repr(C)`: discriminants 0, 1, 2 in a word. -/
inductive ClientType
  | RETAIL | INSTITUTIONAL | PRIME
  deriving DecidableEq

def ClientType.code : ClientType → BitVec 32
  | RETAIL => 0#32
  | INSTITUTIONAL => 1#32
  | PRIME => 2#32

/-- Reading an enum from a tape; another discriminant is undefined behaviour (`none`). -/
def ClientType.ofCode (w : BitVec 32) : Option ClientType :=
  if w = 0#32 then some RETAIL else if w = 1#32 then some INSTITUTIONAL else if w = 2#32 then some PRIME else none

/-- `MarketData`, main.rs:25-33. -/
structure MarketData where
  midPrice : F32
  windowVolume : F32
  volatilityFactor : F32

/-- `Quote`, main.rs:40-44. -/
structure Quote where
  askPrice : F32
  bidPrice : F32
  deriving DecidableEq

namespace Guest

/-- `base_spread`, guest main.rs:68-74. -/
def baseSpread : ClientType → F32
  | .INSTITUTIONAL => .lit 25
  | .RETAIL => .lit 100
  | .PRIME => .lit 10

/-- `size_adj`, guest main.rs:78-94. -/
def sizeAdj (amount : F32) (m : MarketData) : F32 :=
  let volPerc := amount.div m.windowVolume
  if volPerc.le (.lit (1 / 100)) then .lit 1
  else if volPerc.le (.lit (5 / 100)) then .lit (3 / 2)
  else .lit (5 / 2)

/-- `volume_disc`, guest main.rs:98-111. -/
def volumeDisc (c : ClientType) (volume : F32) : F32 :=
  match c with
  | .PRIME | .INSTITUTIONAL =>
    if volume.gt (.lit 10) then .lit (7 / 10) else if volume.gt (.lit 5) then .lit (9 / 10) else .lit 1
  | .RETAIL => .lit 1

/-- Lines 129-145 of `main`. -/
def quote (c : ClientType) (amount : F32) (m : MarketData) : Quote :=
  let base := baseSpread c
  let size := sizeAdj amount m
  let vol := volumeDisc c amount
  let finalSpread := ((base.mul size).mul vol).mul m.volatilityFactor
  let spreadUsd := (finalSpread.div (.lit 10000)).mul m.midPrice
  let spreadHalf := spreadUsd.div (.lit 2)
  ⟨m.midPrice.add spreadHalf, m.midPrice.sub spreadHalf⟩

/-- `main`, guest main.rs:114-154: what the output tape may hold at the end (a relation, because the bits of a
computed NaN are not fixed). -/
def Main (tape out : List (BitVec 8)) : Prop :=
  ∃ c a b, ClientType.ofCode (Model.Guest.getWord tape 12) = some c ∧
    out = Model.Guest.putWord a ++ Model.Guest.putWord b ∧
    quote c (.ofBits (Model.Guest.getWord tape 16))
      ⟨.ofBits (Model.Guest.getWord tape 0), .ofBits (Model.Guest.getWord tape 4),
        .ofBits (Model.Guest.getWord tape 8)⟩ = ⟨.ofBits a, .ofBits b⟩

end Guest

namespace Host

/-- `base_spread`, lib.rs:76-82. -/
def baseSpread : ClientType → F32
  | .INSTITUTIONAL => .lit 25
  | .RETAIL => .lit 100
  | .PRIME => .lit 10

/-- `size_adj`, lib.rs:85-101. -/
def sizeAdj (amount : F32) (m : MarketData) : F32 :=
  let volPerc := amount.div m.windowVolume
  if volPerc.le (.lit (1 / 100)) then .lit 1
  else if volPerc.le (.lit (5 / 100)) then .lit (3 / 2)
  else .lit (5 / 2)

/-- `volume_disc`, lib.rs:104-117. -/
def volumeDisc (c : ClientType) (volume : F32) : F32 :=
  match c with
  | .PRIME | .INSTITUTIONAL =>
    if volume.gt (.lit 10) then .lit (7 / 10) else if volume.gt (.lit 5) then .lit (9 / 10) else .lit 1
  | .RETAIL => .lit 1

/-- `quote`, lib.rs:126-146. -/
def quote (c : ClientType) (amount : F32) (m : MarketData) : Quote :=
  let base := baseSpread c
  let size := sizeAdj amount m
  let vol := volumeDisc c amount
  let finalSpread := ((base.mul size).mul vol).mul m.volatilityFactor
  let spreadUsd := (finalSpread.div (.lit 10000)).mul m.midPrice
  let spreadHalf := spreadUsd.div (.lit 2)
  ⟨m.midPrice.add spreadHalf, m.midPrice.sub spreadHalf⟩

/-- The bytes of `Input` as the host writes them, src/main.rs:14-19 and 48 of the host: `MarketData`, `ClientProfile`,
`Trade`, no padding. -/
def input (mid window volatility amount : BitVec 32) (c : ClientType) : List (BitVec 8) :=
  Model.Guest.putWord mid ++ Model.Guest.putWord window ++ Model.Guest.putWord volatility ++
    Model.Guest.putWord c.code ++ Model.Guest.putWord amount

end Host

end Verif.Model.Otc
