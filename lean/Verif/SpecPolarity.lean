import Verif.SpecSame

/-!
# Inverting the polarity of signals

A function inverts if negating (some of) its arguments negates its result.  The tables list the functions and the
arguments that are negated.
-/

namespace Nova
open FP

namespace Spec

/-- `b` is the negative of `a`; a zero of either sign is the negative of a zero, a NaN that of a NaN. -/
def Opposite {w : Nat} (F : Fmt w) (a b : BitVec w) : Prop :=
  (F.isNaN a = true ∧ F.isNaN b = true) ∨ Same F b (F.negate a)

/-- `x`, negated if `c`. -/
def invert {w : Nat} (F : Fmt w) (c : Bool) (x : BitVec w) : BitVec w := if c then F.negate x else x

end Spec

/-- The odd functions of the C library are odd and the cosine is even. -/
structure Libm.Odd {w : Nat} (F : Fmt w) (M : Libm w) : Prop where
  sin : ∀ x, Spec.Opposite F (M.sin x) (M.sin (F.negate x))
  tan : ∀ x, Spec.Opposite F (M.tan x) (M.tan (F.negate x))
  asin : ∀ x, Spec.Opposite F (M.asin x) (M.asin (F.negate x))
  atan : ∀ x, Spec.Opposite F (M.atan x) (M.atan (F.negate x))
  tanh : ∀ x, Spec.Opposite F (M.tanh x) (M.tanh (F.negate x))
  cos : ∀ x, M.cos (F.negate x) = M.cos x

namespace Spec

/-- The odd functions of one `float`, in the vector class of a build. -/
def UnOdd (b : Build32) (c99 : Bool) : UnOp → ℝ → Prop
  | .sgn, _ | .softclip, _ | .sin, _ | .tan, _ | .asin, _ | .atan, _ | .tanh, _ => True
  | .cube, _ => multiplies b
  | .undenormalize, _ => b.hasUndenormalize
  | .round, x => if b = .generic then c99 = true else b.roundsAll = true ∨ |x| < 2 ^ 23
  | .trunc, x => b ≠ .altivec ∧ |x| < 2 ^ 63
  | .signedSqrt, _ => b.exactSqrt
  | .reciprocal, _ => b = .generic
  | _, _ => False

/-- The odd functions of one `double`. -/
def UnOdd64 : UnOp → ℝ → Prop
  | .sgn, _ | .softclip, _ | .sin, _ | .tan, _ | .asin, _ | .atan, _ | .tanh, _ | .cube, _ | .undenormalize, _
  | .signedSqrt, _ | .reciprocal, _ | .round, _ => True
  | .trunc, x => |x| < 2 ^ 63
  | _, _ => False

/-- The even functions: a negated argument does not change the result. -/
def UnEven : UnOp → Bool
  | .abs | .square | .cos | .amp2db | .freq2midi | .freq2oct => true
  | _ => false

/-- Which arguments of a binary function are to be negated to negate the result. -/
def BinFlips : BinOp → List (Bool × Bool)
  | .plus | .minus | .sum => [(true, true)]
  | .times | .over => [(true, false), (false, true)]
  | .clip2 => [(true, false)]
  | _ => []

/-- The same of ternary functions: `clip` is treated separately. -/
def TerFlips : TerOp → List (Bool × Bool × Bool)
  | .muladd => [(true, false, true), (false, true, true)]
  | .ampmod => [(true, false, false)]
  | .sum => [(true, true, true)]
  | .clip => []

/-- The same of functions of four arguments. -/
def QuadFlips : QuadOp → List (Bool × Bool × Bool × Bool)
  | .mix => [(true, false, true, false), (false, true, false, true)]
  | .sum => [(true, true, true, true)]

end Spec
end Nova
