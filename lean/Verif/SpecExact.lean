import Verif.SpecFades
import Verif.SpecOps

/-!
# Results without rounding

The values a function computes on the way to its result, in real arithmetic; the last one is the result.  If all of them
are numbers of the format, there is nothing to round.
-/

namespace Nova.Spec
open FP

/-- `r` is exactly `v`. -/
def Exactly {w : Nat} (F : Fmt w) (r : BitVec w) (v : ℝ) : Prop := IsFin F r ∧ F.toReal r = v

/-- All steps are numbers of the format, and the last one is `v`. -/
def AllExact {w : Nat} (F : Fmt w) (steps : List ℝ) (v : ℝ) : Prop :=
  (∀ s ∈ steps, Representable F s) ∧ steps.getLast? = some v

open Classical in
/-- The steps of a function of one argument; none for the functions that approximate. -/
noncomputable def UnSteps : UnOp → ℝ → List ℝ
  | .abs, x => [|x|]
  | .sgn, x => [sgn x]
  | .square, x => [x * x]
  | .cube, x => [x * x, x * x * x]
  | .signedSqrt, x => [sgn x * Real.sqrt |x|]
  | .reciprocal, x => if x = 0 then [] else [1 / x]
  | .softclip, x => if |x| < 1 / 2 then [x] else [|x| - 1 / 4, (|x| - 1 / 4) / x]
  | _, _ => []

open Classical in
/-- The same with two arguments. -/
noncomputable def BinSteps : BinOp → ℝ → ℝ → List ℝ
  | .plus, x, y | .sum, x, y => [x + y]
  | .minus, x, y => [x - y]
  | .times, x, y => [x * y]
  | .over, x, y => if y = 0 then [] else [x / y]
  | .min, x, y => [min x y]
  | .max, x, y => [max x y]
  | .clip2, x, limit => [max (-limit) (min x limit)]
  | _, _, _ => []

/-- The same with three arguments. -/
noncomputable def TerSteps : TerOp → ℝ → ℝ → ℝ → List ℝ
  | .clip, x, low, high => [max (min x high) low]
  | .muladd, x, y, z => [x * y, x * y + z]
  | .ampmod, x, modulator, amount => [modulator * amount, 1 + modulator * amount, x * (1 + modulator * amount)]
  | .sum, x, y, z => [x + y, x + y + z]

/-- The same with four arguments. -/
noncomputable def QuadSteps : QuadOp → ℝ → ℝ → ℝ → ℝ → List ℝ
  | .mix, x, f, y, g => [x * f, y * g, x * f + y * g]
  | .sum, a, b, c, d => [a + b, c + d, a + b + (c + d)]

end Nova.Spec
