import Mathlib.Algebra.BigOperators.Group.Finset.Basic
import Verif.Float.Error
import Verif.SpecFloat

/-!
# The tolerance of a computed sum

`u` is the unit roundoff of the format (2^-24 for `float`, 2^-53 for `double`).  A term that takes part in at most `d`
additions is multiplied by at most `(1 + u) ^ d`.
-/

namespace Nova.Spec
open FP Finset

/-- `r` is the sum of `x 0, …, x (n-1)` computed with at most `d` additions per term: the error is at most
`((1 + u) ^ d - 1) * ∑ |x i|`. -/
def IsSum {w : Nat} (F : Fmt w) (d : ℕ) (x : ℕ → ℝ) (n : ℕ) (r : BitVec w) : Prop :=
  IsFin F r ∧ |F.toReal r - ∑ i ∈ range n, x i| ≤ ((1 + F.u) ^ d - 1) * ∑ i ∈ range n, |x i|

/-- The sum of the magnitudes, with the growth by rounding, is in range (`2 ^ 127` for `float`). -/
def SumOk {w : Nat} (F : Fmt w) (d : ℕ) (x : ℕ → ℝ) (n : ℕ) : Prop :=
  (1 + F.u) ^ d * ∑ i ∈ range n, |x i| ≤ 2 ^ F.bias

/-- `r` is the value `base + i * slope` of a ramp, computed with at most `d` additions; `e` is an additional error. -/
def IsRamp {w : Nat} (F : Fmt w) (d : ℕ) (base slope : ℝ) (i : ℕ) (e : ℝ) (r : BitVec w) : Prop :=
  IsFin F r ∧ |F.toReal r - (base + i * slope)| ≤
    ((1 + F.u) ^ d - 1) * (|base| + i * |slope|) + (1 + F.u) ^ d * e

/-- The ramp is in range. -/
def RampOk {w : Nat} (F : Fmt w) (d : ℕ) (base slope : ℝ) (i : ℕ) (e : ℝ) : Prop :=
  (1 + F.u) ^ d * (|base| + i * |slope| + e) ≤ 2 ^ F.bias

/-- `r` is the sum of `s` and the squares of `x 0, …, x (n-1)`; `eta` is half the smallest positive number. -/
def IsSquareSum {w : Nat} (F : Fmt w) (d : ℕ) (s : ℝ) (x : ℕ → ℝ) (n : ℕ) (r : BitVec w) : Prop :=
  IsFin F r ∧ |F.toReal r - (s + ∑ i ∈ range n, x i * x i)| ≤
    ((1 + F.u) ^ d - 1) * (|s| + ∑ i ∈ range n, x i * x i) + (1 + F.u) ^ d * (n * F.eta)

/-- The sum of the squares is in range. -/
def SquareSumOk {w : Nat} (F : Fmt w) (d : ℕ) (s : ℝ) (x : ℕ → ℝ) (n : ℕ) : Prop :=
  (1 + F.u) ^ d * (|s| + ∑ i ∈ range n, x i * x i + n * F.eta) ≤ 2 ^ F.bias

/-- `r` is the value `f * c ^ i`, computed with `i` multiplications. -/
def IsExp {w : Nat} (F : Fmt w) (f c : ℝ) (i : ℕ) (r : BitVec w) : Prop :=
  IsFin F r ∧ |F.toReal r - f * c ^ i| ≤ ((1 + F.u) ^ i - 1) * |f * c ^ i|

/-- `v` is a normal number, and stays one after `d` roundings. -/
def IsNormal {w : Nat} (F : Fmt w) (d : ℕ) (v : ℝ) : Prop :=
  2 / 2 ^ F.bias ≤ (1 - F.u) ^ d * |v| ∧ (1 + F.u) ^ d * |v| ≤ 2 ^ F.bias

end Nova.Spec
