import Mathlib.Analysis.SpecialFunctions.Log.Base
import Mathlib.Analysis.SpecialFunctions.Pow.Real
import Mathlib.Analysis.SpecialFunctions.Trigonometric.Inverse
import Mathlib.Analysis.SpecialFunctions.Trigonometric.Arctan
import Verif.Model.Functors

/-!
# What the public functions mean

The mathematical relation between arguments and result of every public function, over the real numbers.
The names (`UnOp.sin` = `sin_vec`, …) are those of the public interface; nothing here refers to how the
functions are implemented.
-/

namespace Nova.Spec

/-- Rounding towards zero. -/
noncomputable def truncate (x : ℝ) : ℝ := if 0 ≤ x then ⌊x⌋ else ⌈x⌉

/-- `-1`, `0` or `1`. -/
noncomputable def sgn (x : ℝ) : ℝ := if 0 < x then 1 else if x = 0 then 0 else -1

/-- Inputs on which the function has a mathematical value and the scalar code is defined. -/
def UnDomain : UnOp → ℝ → Prop
  | .trunc, x => |x| < 2 ^ 63
  | .reciprocal, x => x ≠ 0
  | .tan, x => Real.cos x ≠ 0
  | .asin, x => |x| ≤ 1
  | .acos, x => |x| ≤ 1
  | .log, x | .log2, x | .log10, x | .ratio2midi, x => 0 < x
  | .freq2midi, x | .freq2oct, x | .amp2db, x => x ≠ 0
  | _, _ => True

/-- `UnMeans f x y`: `y` is an acceptable value of `f_vec` at `x` in real arithmetic.
Pitch: A440 is MIDI note 69 and octave 4.75; twelve notes to the octave. -/
def UnMeans : UnOp → ℝ → ℝ → Prop
  | .abs, x, y => y = |x|
  | .sgn, x, y => y = sgn x
  | .square, x, y => y = x ^ 2
  | .cube, x, y => y = x ^ 3
  | .round, x, y => (∃ k : ℤ, y = k) ∧ |y - x| ≤ 1 / 2
  | .frac, x, y => y = Int.fract x
  | .ceil, x, y => y = ⌈x⌉
  | .floor, x, y => y = ⌊x⌋
  | .trunc, x, y => y = truncate x
  | .undenormalize, x, y => y = x ∨ (y = 0 ∧ |x| < 2 ^ (-126 : ℤ))
  | .reciprocal, x, y => x * y = 1
  | .sin, x, y => y = Real.sin x
  | .cos, x, y => y = Real.cos x
  | .tan, x, y => y * Real.cos x = Real.sin x
  | .asin, x, y => Real.sin y = x ∧ -(Real.pi / 2) ≤ y ∧ y ≤ Real.pi / 2
  | .acos, x, y => Real.cos y = x ∧ 0 ≤ y ∧ y ≤ Real.pi
  | .atan, x, y => Real.tan y = x ∧ -(Real.pi / 2) < y ∧ y < Real.pi / 2
  | .tanh, x, y => y = Real.tanh x
  | .log, x, y => Real.exp y = x
  | .log2, x, y => (2 : ℝ) ^ y = x
  | .log10, x, y => (10 : ℝ) ^ y = x
  | .exp, x, y => y = Real.exp x
  | .signedSqrt, x, y => y * |y| = x
  | .midi2freq, x, y => 0 < y ∧ |12 * Real.logb 2 (y / 440) - (x - 69)| ≤ |x - 69| * 10 ^ (-11 : ℤ)
  | .freq2midi, x, y => |y - (69 + 12 * Real.logb 2 (|x| / 440))| ≤ 10 ^ (-9 : ℤ)
  | .midi2ratio, x, y => 0 < y ∧ |12 * Real.logb 2 y - x| ≤ |x| * 10 ^ (-11 : ℤ)
  | .ratio2midi, x, y => (2 : ℝ) ^ (y / 12) = x
  | .oct2freq, x, y => 0 < y ∧ Real.logb 2 (y / 440) + 4.75 = x
  | .freq2oct, x, y => |y - (4.75 + Real.logb 2 (|x| / 440))| ≤ 10 ^ (-10 : ℤ)
  | .amp2db, x, y => (10 : ℝ) ^ (y / 20) = |x|
  | .db2amp, x, y => 0 < y ∧ 20 * Real.logb 10 y = x
  | .softclip, x, y => y = if |x| < 1 / 2 then x else sgn x * (1 - 1 / (4 * |x|))

/-- Inputs on which a binary function has a mathematical value. -/
def BinDomain : BinOp → ℝ → ℝ → Prop
  | .over, _, y => y ≠ 0
  | .clip2, _, y => 0 ≤ y
  | .pow, x, _ => 0 < x
  | .spow, x, _ => x ≠ 0
  | _, _, _ => True

open Classical in
/-- `BinMeans f x y z`: `z` is the value of `f_vec` at `x`, `y` in real arithmetic. -/
def BinMeans : BinOp → ℝ → ℝ → ℝ → Prop
  | .plus, x, y, z => z = x + y
  | .minus, x, y, z => z = x - y
  | .times, x, y, z => z = x * y
  | .over, x, y, z => z * y = x
  | .min, x, y, z => (z = x ∨ z = y) ∧ z ≤ x ∧ z ≤ y
  | .max, x, y, z => (z = x ∨ z = y) ∧ x ≤ z ∧ y ≤ z
  | .less, x, y, z => z = if x < y then 1 else 0
  | .lessEqual, x, y, z => z = if x ≤ y then 1 else 0
  | .greater, x, y, z => z = if y < x then 1 else 0
  | .greaterEqual, x, y, z => z = if y ≤ x then 1 else 0
  | .equal, x, y, z => z = if x = y then 1 else 0
  | .notequal, x, y, z => z = if x = y then 0 else 1
  | .clip2, x, y, z => -y ≤ z ∧ z ≤ y ∧ (|x| ≤ y → z = x) ∧ (y < x → z = y) ∧ (x < -y → z = -y)
  | .pow, x, y, z => z = x ^ y
  | .spow, x, y, z => z = sgn x * |x| ^ y
  | .sum, x, y, z => z = x + y

/-- `clip` needs ordered limits. -/
def TerDomain : TerOp → ℝ → ℝ → ℝ → Prop
  | .clip, _, low, high => low ≤ high
  | _, _, _, _ => True

/-- `TerMeans f x y z u`: `u` is the value of `f_vec` at `x`, `y`, `z` in real arithmetic. -/
def TerMeans : TerOp → ℝ → ℝ → ℝ → ℝ → Prop
  | .clip, x, low, high, u =>
      low ≤ u ∧ u ≤ high ∧ (low ≤ x → x ≤ high → u = x) ∧ (x < low → u = low) ∧ (high < x → u = high)
  | .muladd, x, y, z, u => u = x * y + z
  | .ampmod, signal, modulator, amount, u => u = signal * (1 + modulator * amount)
  | .sum, x, y, z, u => u = x + y + z

/-- `QuadMeans f a b c d u` in real arithmetic. -/
def QuadMeans : QuadOp → ℝ → ℝ → ℝ → ℝ → ℝ → Prop
  | .mix, sig0, factor0, sig1, factor1, u => u = sig0 * factor0 + sig1 * factor1
  | .sum, a, b, c, d, u => u = a + b + c + d

end Nova.Spec
