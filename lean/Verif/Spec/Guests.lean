import Verif.Model.Guests
/-
  What the example guests compute, over the natural numbers.
-/
namespace Verif.Spec

/-- Value of the polynomial with the given coefficients, lowest first. -/
def polyValue (x : Nat) : List Nat → Nat
  | [] => 0
  | c :: cs => c + x * polyValue x cs

/-- State of a constant-product market maker and of the trader: what each holds of the token sold and
of the token bought. -/
structure Holdings where
  poolSold : Nat
  poolBought : Nat
  traderSold : Nat
  traderBought : Nat

/-- The product of the two reserves. -/
def Holdings.product (h : Holdings) : Nat := h.poolSold * h.poolBought

/-- Totals of both tokens. -/
def Holdings.totalSold (h : Holdings) : Nat := h.poolSold + h.traderSold
def Holdings.totalBought (h : Holdings) : Nat := h.poolBought + h.traderBought

/-- The trade moves `amount` of the token sold from the trader to the pool and some of the other token
the other way, and creates and destroys nothing. -/
structure Exchange (amount : Nat) (h h' : Holdings) : Prop where
  enough : amount ≤ h.traderSold
  sold : h'.poolSold = h.poolSold + amount
  paid : h'.traderSold = h.traderSold - amount
  less : h'.poolBought ≤ h.poolBought
  got : h'.traderBought = h.traderBought + (h.poolBought - h'.poolBought)

/-- The numbers behind a pool and an account, seen from the direction of a trade. -/
def holdings (direction : Bool) (p : Model.Guest.Pool) (a : Model.Guest.Account) : Holdings :=
  if direction then ⟨p.t0.toNat, p.t1.toNat, a.t0Balance.toNat, a.t1Balance.toNat⟩
  else ⟨p.t1.toNat, p.t0.toNat, a.t1Balance.toNat, a.t0Balance.toNat⟩

/-- The claim one expects of a constant-product market maker: as long as nothing overflows, a trade
does not lower the product of the reserves. -/
def ProductNeverDecreases : Prop :=
  ∀ (p p' : Model.Guest.Pool) (t : Model.Guest.Trade) (a a' : Model.Guest.Account),
    Model.Guest.swap false p t a = some (p', a') →
    (holdings t.direction p a).product < 2 ^ 32 →
    (holdings t.direction p a).totalSold < 2 ^ 32 → (holdings t.direction p a).totalBought < 2 ^ 32 →
    (holdings t.direction p a).product ≤ (holdings t.direction p' a').product

end Verif.Spec
