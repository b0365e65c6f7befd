import Verif.SpecFloat
import Verif.Model.Meters

/-!
# Specification vocabulary: largest and smallest of a set of patterns, by value
-/

namespace Nova.Spec
open FP

/-- `r` is one of the patterns of `T`, and no pattern of `T` has a larger value. -/
def IsMaximum {w : Nat} (F : Fmt w) (T : Set (BitVec w)) (r : BitVec w) : Prop :=
  r ∈ T ∧ ∀ y ∈ T, F.toEReal y ≤ F.toEReal r

/-- `r` is one of the patterns of `T`, and no pattern of `T` has a smaller value. -/
def IsMinimum {w : Nat} (F : Fmt w) (T : Set (BitVec w)) (r : BitVec w) : Prop :=
  r ∈ T ∧ ∀ y ∈ T, F.toEReal r ≤ F.toEReal y

/-- `std::numeric_limits<float>`: `min()` is the smallest positive normal number `2 ^ -126`. -/
def floatLimits : Limits (BitVec 32) := ⟨0x00800000#32, 0x7f7fffff#32⟩

/-- `std::numeric_limits<double>` -/
def doubleLimits : Limits (BitVec 64) := ⟨0x0010000000000000#64, 0x7fefffffffffffff#64⟩

end Nova.Spec
