import Verif.SpecSame
import Verif.SpecFloat

/-!
# Exchanging the arguments of a function

`a + b` and `b + a` are the same number, `a < b` says the same as `b > a`, and `a < b` the opposite of `a >= b`.  The tables
say which functions are related in which way.
-/

namespace Nova.Spec

/-- The function that gives the same number when its two arguments are exchanged. -/
def mirror : BinOp → Option BinOp
  | .plus => some .plus
  | .times => some .times
  | .sum => some .sum
  | .min => some .min
  | .max => some .max
  | .equal => some .equal
  | .notequal => some .notequal
  | .less => some .greater
  | .greater => some .less
  | .lessEqual => some .greaterEqual
  | .greaterEqual => some .lessEqual
  | _ => none

/-- The comparison that holds exactly when the given one does not. -/
def opposite : Rel → Rel
  | .less => .greaterEqual
  | .greaterEqual => .less
  | .greater => .lessEqual
  | .lessEqual => .greater
  | .equal => .notEqual
  | .notEqual => .equal

/-- A function of three arguments, and the arguments that may be exchanged: the first two of `muladd` and `sum`, the last two
of `ampmod`. -/
def TerExchange {α : Type} : TerOp → α → α → α → Option (α × α × α)
  | .muladd, x, y, z => some (y, x, z)
  | .sum, x, y, z => some (y, x, z)
  | .ampmod, x, y, z => some (x, z, y)
  | .clip, _, _, _ => none

end Nova.Spec
