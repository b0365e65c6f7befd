import Verif.SpecSame
import Verif.SpecExact

/-!
# Correct rounding

What IEEE 754 demands of the basic operations: the result is the number of the format nearest to the exact value, and of two
numbers that are equally near it is the one whose last bit is zero.
-/

namespace Nova.Spec
open FP

/-- `r` is the real number `v`, rounded to nearest, ties to even. -/
def CorrectlyRounded {w : Nat} (F : Fmt w) (v : ℝ) (r : BitVec w) : Prop :=
  IsFin F r ∧ ∀ y : BitVec w, IsFin F y →
    |F.toReal r - v| ≤ |F.toReal y - v| ∧
    (|F.toReal y - v| = |F.toReal r - v| → F.toReal y ≠ F.toReal r → r.getLsbD 0 = false)

/-- The functions of one argument that are one rounded operation, and its exact value. -/
noncomputable def UnRounded : UnOp → ℝ → ℝ → Prop
  | .square, x, v => v = x * x
  | .reciprocal, x, v => v = 1 / x
  | .signedSqrt, x, v => v = sgn x * Real.sqrt |x|
  | _, _, _ => False

/-- The functions of two arguments that are one rounded operation. -/
noncomputable def BinRounded : BinOp → ℝ → ℝ → ℝ → Prop
  | .plus, x, y, v | .sum, x, y, v => v = x + y
  | .minus, x, y, v => v = x - y
  | .times, x, y, v => v = x * y
  | .over, x, y, v => v = x / y
  | _, _, _, _ => False

/-- The classes of `float` that multiply and add with one rounding. -/
def roundsOnce : Build32 → Bool
  | .sse _ f => f.fma
  | .avx fma => fma
  | .altivec => true
  | _ => false

/-- The classes of `double` that do. -/
def roundsOnce64 : Build64 → Bool
  | .sse2 _ fma => fma
  | .avx fma => fma
  | .generic => false

end Nova.Spec
