import Mathlib.Algebra.Order.Ring.Defs
import Mathlib.Algebra.Order.Group.Abs
import Verif.Exact

/-!
# Exact ordered arithmetic

The properties about maxima and minima assume that the comparison of the type is a linear order and
that `max_`, `min_` and `abs` are those of the order.
-/

namespace Nova
variable {α : Type}

/-- The comparisons of the type are those of the linear order `α`. -/
structure Arith.Ordered [LinearOrder α] (A : Arith α) : Prop where
  less : ∀ a b, A.less a b = decide (a < b)
  max_ : ∀ a b, A.max_ a b = max a b
  min_ : ∀ a b, A.min_ a b = min a b

structure Env.Ordered [LinearOrder α] (E : Env α) : Prop where
  S : E.S.Ordered
  L : E.L.Ordered

/-- `abs` is the absolute value of the ordered group `α`. -/
structure Env.ExactAbs [LinearOrder α] [AddGroup α] (E : Env α) : Prop where
  S : ∀ a, E.S.abs a = |a|
  L : ∀ a, E.L.abs a = |a|

end Nova
