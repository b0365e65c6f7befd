import Verif.SpecExact
import Verif.Lemmas.RoundLanes
import Verif.Lemmas.BitMath

/-!
# Neutral settings

Arguments with which a function returns its first argument unchanged: gain 1, offset 0, limits that are not exceeded,
rounding of integers.
-/

namespace Nova.Spec
open FP

/-- `x` is a whole number. -/
def Whole (x : ℝ) : Prop := ∃ k : ℤ, x = k

/-- Functions of one `float`.  `c99`: the compiler has `::round`. -/
def UnNeutral (b : Build32) (c99 : Bool) : UnOp → ℝ → Prop
  | .abs, x => 0 ≤ x
  | .sgn, x | .cube, x => x = 0 ∨ x = 1 ∨ x = -1
  | .square, x => x = 0 ∨ x = 1
  | .floor, x | .ceil, x => Whole x ∧ (b.floorsAll = true ∨ |x| < 2 ^ 23)
  | .round, x => Whole x ∧ ((b.roundsAll = true ∧ (b = .generic → c99 = true)) ∨ |x| < 2 ^ 23)
  | .trunc, x => Whole x ∧ b ≠ .altivec ∧ |x| < 2 ^ 63
  | .frac, x => 0 < x ∧ x < 1
  | .undenormalize, x => b.hasUndenormalize = true ∧ (x = 0 ∨ 1 / 2 ^ 126 ≤ |x|)
  | .signedSqrt, x => b.exactSqrt = true ∧ (x = 0 ∨ x = 1 ∨ x = -1)
  | .reciprocal, x => b = .generic ∧ (x = 1 ∨ x = -1)
  | .softclip, x => |x| < 1 / 2
  | _, _ => False

/-- Functions of one `double`. -/
def UnNeutral64 : UnOp → ℝ → Prop
  | .abs, x => 0 ≤ x
  | .sgn, x | .cube, x | .signedSqrt, x => x = 0 ∨ x = 1 ∨ x = -1
  | .square, x => x = 0 ∨ x = 1
  | .floor, x | .ceil, x | .round, x => Whole x
  | .trunc, x => Whole x ∧ |x| < 2 ^ 63
  | .frac, x => 0 < x ∧ x < 1
  | .undenormalize, x => x = 0 ∨ 2 ^ 52 / 2 ^ 1074 ≤ |x|
  | .reciprocal, x => x = 1 ∨ x = -1
  | .softclip, x => |x| < 1 / 2
  | _, _ => False

/-- The second argument leaves the first one unchanged. -/
def BinNeutral : BinOp → ℝ → ℝ → Prop
  | .plus, _, y | .minus, _, y | .sum, _, y => y = 0
  | .times, _, y | .over, _, y => y = 1
  | .min, x, y => x ≤ y
  | .max, x, y => y ≤ x
  | .clip2, x, limit => |x| ≤ limit
  | _, _, _ => False

/-- The other arguments leave the first one unchanged. -/
def TerNeutral : TerOp → ℝ → ℝ → ℝ → Prop
  | .clip, x, low, high => low ≤ x ∧ x ≤ high
  | .muladd, _, y, z => y = 1 ∧ z = 0
  | .ampmod, _, modulator, amount => modulator = 0 ∨ amount = 0
  | .sum, _, y, z => y = 0 ∧ z = 0

/-- A signal mixed with another one at gain 0. -/
def QuadNeutral : QuadOp → ℝ → ℝ → ℝ → ℝ → Prop
  | .mix, _, gain, _, gain' => gain = 1 ∧ gain' = 0
  | .sum, _, b, c, d => b = 0 ∧ c = 0 ∧ d = 0

/-- Functions of one `float` whose result they leave unchanged. -/
def UnOnce (b : Build32) (c99 : Bool) : UnOp → ℝ → Prop
  | .abs, _ | .sgn, _ => True
  | .floor, x | .ceil, x => b.floorsAll = true ∨ |x| ≤ 2 ^ 23 - 1
  | .round, x => (b = .generic → c99 = true) ∧ (b.roundsAll = true ∨ |x| ≤ 2 ^ 23 - 1)
  | .trunc, x => b ≠ .altivec ∧ |x| < 2 ^ 63
  | .undenormalize, _ => b.hasUndenormalize = true
  | _, _ => False

/-- The same for `double`. -/
def UnOnce64 : UnOp → ℝ → Prop
  | .abs, _ | .sgn, _ | .floor, _ | .ceil, _ | .round, _ | .undenormalize, _ => True
  | .trunc, x => |x| < 2 ^ 63
  | _, _ => False

end Nova.Spec
