import Verif.SpecSame

/-!
# Order

A function rises in an argument if a larger argument never makes the result smaller.  The tables list how the arguments
may move for the result to rise.
-/

namespace Nova
open FP

namespace Spec

/-- Both are numbers, and the first is at most the second. -/
def AtMost {w : Nat} (F : Fmt w) (a b : BitVec w) : Prop := Num F a ∧ Num F b ∧ F.toEReal a ≤ F.toEReal b

/-- The result rises from `r` to `r'`, unless one of them is a NaN (such as infinity minus infinity). -/
def Rises {w : Nat} (F : Fmt w) (r r' : BitVec w) : Prop := Num F r → Num F r' → F.toEReal r ≤ F.toEReal r'

/-- How an argument moves. -/
inductive Move where
  /-- it gets larger, or stays -/
  | up
  /-- it gets smaller, or stays -/
  | down
  /-- it gets smaller and remains positive -/
  | downPositive
  /-- it stays -/
  | stay
  /-- it stays, and is not negative -/
  | nonneg
  /-- it stays, and is not positive -/
  | nonpos
  /-- it stays, and is positive -/
  | positive
deriving DecidableEq

/-- The argument moves from `x` to `x'`. -/
def Move.From {w : Nat} (F : Fmt w) (m : Move) (x x' : BitVec w) : Prop :=
  match m with
  | up => AtMost F x x'
  | down => AtMost F x' x
  | downPositive => AtMost F x' x ∧ 0 < F.toEReal x'
  | stay => Num F x ∧ x' = x
  | nonneg => Num F x ∧ x' = x ∧ 0 ≤ F.toEReal x
  | nonpos => Num F x ∧ x' = x ∧ F.toEReal x ≤ 0
  | positive => Num F x ∧ x' = x ∧ 0 < F.toEReal x

/-- Moves of the arguments of a binary function by which its result rises. -/
def BinMoves : BinOp → List (Move × Move)
  | .plus | .sum | .min | .max => [(.up, .up)]
  | .minus => [(.up, .down)]
  | .times => [(.up, .nonneg), (.nonneg, .up), (.down, .nonpos), (.nonpos, .down)]
  | .over => [(.up, .positive), (.nonneg, .downPositive)]
  | .clip2 => [(.up, .stay)]
  | _ => []

/-- The same of a ternary function. -/
def TerMoves : TerOp → List (Move × Move × Move)
  | .clip | .sum => [(.up, .up, .up)]
  | .muladd => [(.up, .nonneg, .up), (.nonneg, .up, .up), (.down, .nonpos, .up), (.nonpos, .down, .up)]
  | .ampmod => [(.nonneg, .up, .nonneg), (.nonneg, .nonneg, .up)]

/-- The same of a function of four arguments. -/
def QuadMoves : QuadOp → List (Move × Move × Move × Move)
  | .sum => [(.up, .up, .up, .up)]
  | .mix => [(.up, .nonneg, .up, .nonneg), (.nonneg, .up, .nonneg, .up), (.up, .nonneg, .nonneg, .up)]

/-- When a function of one `float` rises from `x` to `x'`. -/
def UnRises (b : Build32) : UnOp → ℝ → ℝ → Prop
  | .sgn, x, x' => x ≤ x'
  | .cube, x, x' => x ≤ x'
  | .floor, x, x' | .ceil, x, x' => x ≤ x' ∧ (b.floorsAll = true ∨ (|x| < 2 ^ 23 ∧ |x'| < 2 ^ 23))
  | .round, x, x' => x ≤ x' ∧ (b.roundsAll = true ∨ (|x| < 2 ^ 23 ∧ |x'| < 2 ^ 23))
  | .trunc, x, x' => x ≤ x' ∧ b ≠ .altivec ∧ |x| < 2 ^ 63 ∧ |x'| < 2 ^ 63
  | .undenormalize, x, x' => x ≤ x' ∧ b.hasUndenormalize
  | .signedSqrt, x, x' => x ≤ x' ∧ b.exactSqrt
  | .softclip, x, x' => x ≤ x' ∧ |x| ≤ 2 ^ 22 ∧ |x'| ≤ 2 ^ 22
  | .reciprocal, x, x' => b = .generic ∧ x' ≤ x ∧ (0 < x' ∨ x < 0)
  | .abs, x, x' | .square, x, x' => |x| ≤ |x'|
  | _, _, _ => False

/-- When a function of one `double` rises. -/
def UnRises64 : UnOp → ℝ → ℝ → Prop
  | .sgn, x, x' | .cube, x, x' | .floor, x, x' | .ceil, x, x' | .round, x, x' | .undenormalize, x, x'
  | .signedSqrt, x, x' => x ≤ x'
  | .trunc, x, x' => x ≤ x' ∧ |x| < 2 ^ 63 ∧ |x'| < 2 ^ 63
  | .softclip, x, x' => x ≤ x' ∧ |x| ≤ 2 ^ 51 ∧ |x'| ≤ 2 ^ 51
  | .reciprocal, x, x' => x' ≤ x ∧ (0 < x' ∨ x < 0)
  | .abs, x, x' | .square, x, x' => |x| ≤ |x'|
  | _, _, _ => False

end Spec
end Nova
