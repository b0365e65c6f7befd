import Verif.Float.Value
import Verif.Model.Functors

/-!
# Specification vocabulary for the bit-level properties

Everything is stated about the real value of a bit pattern (`toReal`, `toEReal`, Float/Value.lean).
-/

namespace Nova
open FP

variable {w : Nat} (F : Fmt w)

/-- The pattern is a number (finite or infinite). -/
abbrev Num (x : BitVec w) : Prop := F.isNaN x = false

/-- The pattern is a finite number. -/
abbrev IsFin (x : BitVec w) : Prop := F.isFinite x = true

/-- The six C++ relational operators. -/
inductive Rel where
  | less | lessEqual | greater | greaterEqual | equal | notEqual
deriving DecidableEq

/-- The library function of a relational operator. -/
def Rel.op : Rel → BinOp
  | less => .less
  | lessEqual => .lessEqual
  | greater => .greater
  | greaterEqual => .greaterEqual
  | equal => .equal
  | notEqual => .notequal

/-- When the C++ comparison holds: every comparison with a NaN is false, except `!=`. -/
def Rel.Holds (r : Rel) (x y : BitVec w) : Prop :=
  match r with
  | less => Num F x ∧ Num F y ∧ F.toEReal x < F.toEReal y
  | lessEqual => Num F x ∧ Num F y ∧ F.toEReal x ≤ F.toEReal y
  | greater => Num F x ∧ Num F y ∧ F.toEReal x > F.toEReal y
  | greaterEqual => Num F x ∧ Num F y ∧ F.toEReal x ≥ F.toEReal y
  | equal => Num F x ∧ Num F y ∧ F.toEReal x = F.toEReal y
  | notEqual => ¬ (Num F x ∧ Num F y ∧ F.toEReal x = F.toEReal y)

/-- `>` or `>=` -/
def Rel.isGreater : Rel → Bool
  | .greater => true
  | .greaterEqual => true
  | _ => false

end Nova
