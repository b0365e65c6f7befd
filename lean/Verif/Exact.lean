import Mathlib.Algebra.Ring.Basic
import Mathlib.Tactic.Ring
import Verif.Model.Backends

/-!
# Exact arithmetic

The properties that hold "in exact arithmetic" assume that the operations of the type are those of
a commutative ring.  No law is assumed about the other operations.
-/

namespace Nova
variable {α : Type}

/-- The arithmetic of the type is that of the commutative ring `α`. -/
structure Arith.Exact [CommRing α] (A : Arith α) : Prop where
  zero : A.zero = 0
  one : A.one = 1
  add : ∀ a b, A.add a b = a + b
  sub : ∀ a b, A.sub a b = a - b
  mul : ∀ a b, A.mul a b = a * b
  madd : ∀ a b c, A.madd a b c = a * b + c
  square : ∀ a, A.square a = a * a
  cube : ∀ a, A.cube a = a * a * a
  lit_nat : ∀ k : Nat, A.lit k = (k : α)

/-- Scalar and lane arithmetic are exact and the conversion through `float` is the identity. -/
structure Env.Exact [CommRing α] (E : Env α) : Prop where
  S : E.S.Exact
  L : E.L.Exact
  viaFloat : ∀ a, E.viaFloat a = a

end Nova
