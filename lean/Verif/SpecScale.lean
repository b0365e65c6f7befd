import Verif.SpecSame

/-!
# Scaling signals by powers of two

Changing the level of a signal by a power of two (6.02 dB steps) changes only exponents.  The tables say by which power
the result of a function is scaled if its arguments are.
-/

namespace Nova
open FP
namespace Spec

/-- `y` is `2^k` times `x`, exactly.  Both are finite; a zero may have either sign. -/
def ScaledBy {w : Nat} (F : Fmt w) (k : ℤ) (x y : BitVec w) : Prop :=
  F.isFinite x = true ∧ F.isFinite y = true ∧ F.toReal y = F.toReal x * 2 ^ k

/-- The smallest positive normal number. -/
noncomputable def smallestNormal {w : Nat} (F : Fmt w) : ℝ := 2 ^ F.mb / 2 ^ F.scale

/-- The number does not fall into the range of the subnormal numbers. -/
def NotTiny {w : Nat} (F : Fmt w) (v : ℝ) : Prop := v = 0 ∨ smallestNormal F ≤ |v|

/-- Unary functions: an argument scaled by `2^j` scales the result by `2^d`. -/
def UnScale : UnOp → ℤ → ℤ → Prop
  | .abs, j, d => d = j
  | .square, j, d => d = 2 * j
  | .cube, j, d => d = 3 * j
  | .reciprocal, j, d => d = -j
  | .sgn, _, d => d = 0
  | _, _, _ => False

/-- Binary functions, with arguments scaled by `2^j` and `2^k`.  Comparisons do not depend on the level. -/
def BinScale : BinOp → ℤ → ℤ → ℤ → Prop
  | .plus, j, k, d | .minus, j, k, d | .sum, j, k, d | .min, j, k, d | .max, j, k, d | .clip2, j, k, d =>
    j = k ∧ d = k
  | .less, j, k, d | .lessEqual, j, k, d | .greater, j, k, d | .greaterEqual, j, k, d | .equal, j, k, d
  | .notequal, j, k, d => j = k ∧ d = 0
  | .times, j, k, d => d = j + k
  | .over, j, k, d => d = j - k
  | .pow, _, _, _ | .spow, _, _, _ => False

/-- Ternary functions. -/
def TerScale : TerOp → ℤ → ℤ → ℤ → ℤ → Prop
  | .muladd, i, j, k, d => k = i + j ∧ d = k
  | .ampmod, i, j, k, d => k = -j ∧ d = i
  | .sum, i, j, k, d | .clip, i, j, k, d => i = j ∧ j = k ∧ d = k

/-- Functions of four arguments. -/
def QuadScale : QuadOp → ℤ → ℤ → ℤ → ℤ → ℤ → Prop
  | .mix, i, j, k, l, d => i + j = d ∧ k + l = d
  | .sum, i, j, k, l, d => i = d ∧ j = d ∧ k = d ∧ l = d

/-- The products and quotients that a function computes from the arguments do not underflow. -/
def UnAbove {w : Nat} (F : Fmt w) : UnOp → BitVec w → Prop
  | .square, x => NotTiny F (F.toReal x * F.toReal x)
  | .cube, x => NotTiny F (F.toReal x * F.toReal x) ∧ NotTiny F (F.toReal (F.mul x x) * F.toReal x)
  | .reciprocal, x => NotTiny F (1 / F.toReal x)
  | _, _ => True

def BinAbove {w : Nat} (F : Fmt w) : BinOp → BitVec w → BitVec w → Prop
  | .times, x, y => NotTiny F (F.toReal x * F.toReal y)
  | .over, x, y => NotTiny F (F.toReal x / F.toReal y)
  | _, _, _ => True

def TerAbove {w : Nat} (F : Fmt w) : TerOp → BitVec w → BitVec w → BitVec w → Prop
  | .muladd, x, y, z => NotTiny F (F.toReal x * F.toReal y) ∧ NotTiny F (F.toReal x * F.toReal y + F.toReal z)
  | .ampmod, x, y, z => NotTiny F (F.toReal x * F.toReal (F.add (F.ofInt 1) (F.mul y z)))
  | _, _, _, _ => True

def QuadAbove {w : Nat} (F : Fmt w) : QuadOp → BitVec w → BitVec w → BitVec w → BitVec w → Prop
  | .mix, x, y, z, u => NotTiny F (F.toReal x * F.toReal y) ∧ NotTiny F (F.toReal z * F.toReal u)
  | _, _, _, _, _ => True

end Spec
end Nova
