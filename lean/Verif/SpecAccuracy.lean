import Verif.SpecOps
import Mathlib.Analysis.SpecialFunctions.Trigonometric.DerivHyp

/-!
# How accurate the public functions are in single precision

For every public function the range of finite floats in which a result is promised, and the relation between the value of the
argument(s) and the value of the result.  Exact operations refer to the real relations of `SpecOps`; for all others the real
function and the tolerance are spelled out.  Nothing here refers to how the functions are implemented.
-/

namespace Nova.Spec

/-- Arguments for which the accuracy is promised (values of finite floats). -/
def UnRange : UnOp → ℝ → Prop
  | .square, x => |x| ≤ 2 ^ 63
  | .cube, x => |x| ≤ 2 ^ 42
  | .round, x | .floor, x | .ceil, x | .frac, x => |x| < 2 ^ 23
  | .trunc, x => |x| < 2 ^ 63
  | .reciprocal, x => 1 / 2 ^ 100 ≤ |x| ∧ |x| ≤ 2 ^ 100
  | .sin, x | .cos, x => |x| ≤ 8192
  | .tan, x => |x| ≤ 8192 ∧ 1 / 2 ^ 16 ≤ |Real.cos x|
  | .asin, x => |x| ≤ 1
  | .acos, x => |x| ≤ 1 ∧ x ≠ -1 / 2
  | .log, x | .log2, x | .log10, x | .ratio2midi, x => 1 / 2 ^ 126 ≤ x
  | .amp2db, x => 1 / 2 ^ 126 ≤ |x|
  | .exp, x => -87.33 ≤ x ∧ x < 11629080 / 2 ^ 17
  | .midi2freq, x => |x - 69| ≤ 1300
  | .midi2ratio, x => |x| ≤ 1300
  | .oct2freq, x => |x - 4.75| ≤ 115
  | .db2amp, x => |x| ≤ 690
  | .freq2midi, x | .freq2oct, x => 1 / 2 ^ 100 ≤ |x|
  | .softclip, x => |x| ≤ 2 ^ 127
  | _, _ => True

/-- `UnNear f x y`: `y` is an acceptable single-precision value of `f_vec_simd` at `x`. -/
def UnNear : UnOp → ℝ → ℝ → Prop
  | .square, x, y => |y - x ^ 2| ≤ 6e-8 * x ^ 2 + 1 / 2 ^ 150
  | .cube, x, y => |y - x ^ 3| ≤ 1.2e-7 * |x ^ 3| + 1 / 2 ^ 148
  | .round, x, y => ∃ k : ℤ, y = k ∧ |x - k| ≤ 1 / 2 ∧ (|x - k| = 1 / 2 → Even k)
  | .frac, x, y => 0 ≤ y ∧ y ≤ 1 ∧ |y - Int.fract x| ≤ 6e-8 * Int.fract x
  | .reciprocal, x, y => |y - 1 / x| ≤ 1 / 2 ^ 21 * |1 / x|
  | .sin, x, y => |y - Real.sin x| ≤ 1 / 2 ^ 22
  | .cos, x, y => |y - Real.cos x| ≤ 1 / 2 ^ 22
  | .tan, x, y => |y - Real.tan x| ≤ 1 / 2 ^ 21 / Real.cos x ^ 2
  | .asin, x, y => |y - Real.arcsin x| ≤ 5e-7 * |Real.arcsin x|
  | .acos, x, y => |y - Real.arccos x| ≤ 2.5e-7 * Real.arccos x
  | .atan, x, y => |y - Real.arctan x| ≤ 4.5e-7 * |Real.arctan x|
  | .tanh, x, y => |y - Real.tanh x| ≤ 5e-7 * |Real.tanh x|
  | .log, x, y => |y - Real.log x| ≤ 1 / 2 ^ 22 * |Real.log x|
  | .log2, x, y => |y - Real.logb 2 x| ≤ 1 / 2 ^ 21 * |Real.logb 2 x|
  | .log10, x, y => |y - Real.logb 10 x| ≤ 1 / 2 ^ 21 * |Real.logb 10 x|
  | .exp, x, y => |y - Real.exp x| ≤ 1 / 2 ^ 21 * Real.exp x
  | .signedSqrt, x, y => |y - sgn x * Real.sqrt (|x|)| ≤ 6e-8 * Real.sqrt (|x|)
  | .midi2freq, x, y =>
      |y - 440 * 2 ^ ((x - 69) / 12)| ≤ (4.8e-7 + 3.1e-8 * |x - 69|) * (440 * 2 ^ ((x - 69) / 12))
  | .midi2ratio, x, y => |y - 2 ^ (x / 12)| ≤ (4.1e-7 + 3.1e-8 * |x|) * 2 ^ (x / 12)
  | .oct2freq, x, y => |y - 440 * 2 ^ (x - 4.75)| ≤ (4.8e-7 + 3.7e-7 * |x - 4.75|) * (440 * 2 ^ (x - 4.75))
  | .db2amp, x, y => |y - 10 ^ (x / 20)| ≤ (4.1e-7 + 6e-8 * |x|) * 10 ^ (x / 20)
  | .ratio2midi, x, y => |y - 12 * Real.logb 2 x| ≤ 5.5e-7 * |12 * Real.logb 2 x|
  | .amp2db, x, y => |y - 20 * Real.logb 10 (|x|)| ≤ 5.5e-7 * |20 * Real.logb 10 (|x|)|
  | .freq2midi, x, y =>
      |y - (69 + 12 * Real.logb 2 (|x| / 440))| ≤ 6.5e-6 + 7.3e-6 * |Real.logb 2 (|x| / 440)|
  | .freq2oct, x, y =>
      |y - (4.75 + Real.logb 2 (|x| / 440))| ≤ 5e-7 + 5.4e-7 * |Real.logb 2 (|x| / 440)|
  | .softclip, x, y => (|x| < 1 / 2 → y = x) ∧
      (1 / 2 ≤ |x| → |y| ≤ 1 ∧ |y - sgn x * (1 - 1 / (4 * |x|))| ≤ 1.2e-7 * (1 - 1 / (4 * |x|)))
  | op, x, y => UnMeans op x y

/-- Arguments of a binary function for which the accuracy is promised. -/
def BinRange : BinOp → ℝ → ℝ → Prop
  | .plus, x, y | .sum, x, y => |x + y| ≤ 2 ^ 127
  | .minus, x, y => |x - y| ≤ 2 ^ 127
  | .times, x, y => |x * y| ≤ 2 ^ 127
  | .over, x, y => y ≠ 0 ∧ |x / y| ≤ 2 ^ 127
  | .clip2, _, y => 0 ≤ y
  | .pow, x, y => 1 / 2 ^ 126 ≤ x ∧ -87.3 ≤ y * Real.log x ∧ y * Real.log x ≤ 88.7228
  | .spow, x, y => 1 / 2 ^ 126 ≤ |x| ∧ -87.3 ≤ y * Real.log |x| ∧ y * Real.log |x| ≤ 88.7228
  | _, _, _ => True

/-- `BinNear f x y z`: `z` is an acceptable single-precision value of `f_vec_simd` at `x`, `y`. -/
def BinNear : BinOp → ℝ → ℝ → ℝ → Prop
  | .plus, x, y, z | .sum, x, y, z => |z - (x + y)| ≤ 1 / 2 ^ 24 * |x + y|
  | .minus, x, y, z => |z - (x - y)| ≤ 1 / 2 ^ 24 * |x - y|
  | .times, x, y, z => |z - x * y| ≤ 1 / 2 ^ 24 * |x * y| + 1 / 2 ^ 150
  | .over, x, y, z => |z - x / y| ≤ 1 / 2 ^ 24 * |x / y| + 1 / 2 ^ 150
  | .pow, x, y, z => |z - x ^ y| ≤ (4e-7 + 3.1e-7 * |y * Real.log x|) * x ^ y
  | .spow, x, y, z => |z - sgn x * |x| ^ y| ≤ (4e-7 + 3.1e-7 * abs (y * Real.log |x|)) * |x| ^ y
  | op, x, y, z => BinMeans op x y z

/-- Arguments of a ternary function for which the accuracy is promised. -/
def TerRange : TerOp → ℝ → ℝ → ℝ → Prop
  | .clip, _, low, high => low ≤ high
  | .muladd, x, y, z => |x * y| ≤ 2 ^ 125 ∧ |z| ≤ 2 ^ 125
  | .ampmod, signal, modulator, amount => |signal| ≤ 2 ^ 60 ∧ |modulator * amount| ≤ 2 ^ 60
  | .sum, x, y, z => |x| ≤ 2 ^ 125 ∧ |y| ≤ 2 ^ 125 ∧ |z| ≤ 2 ^ 125

/-- `TerNear f x y z u`: `u` is an acceptable single-precision value of `f_vec_simd` at `x`, `y`, `z`. -/
def TerNear : TerOp → ℝ → ℝ → ℝ → ℝ → Prop
  | .muladd, x, y, z, u => |u - (x * y + z)| ≤ 6e-8 * (|x * y| + |x * y + z|) + 1 / 2 ^ 149
  | .ampmod, signal, modulator, amount, u =>
      |u - signal * (1 + modulator * amount)| ≤ 1.8e-7 * (|signal| * (1 + |modulator * amount|)) + 1 / 2 ^ 150
  | .sum, x, y, z, u => |u - (x + y + z)| ≤ 6e-8 * (|x + y| + |x + y + z|)
  | op, x, y, z, u => TerMeans op x y z u

/-- Arguments of a function with four arguments for which the accuracy is promised. -/
def QuadRange : QuadOp → ℝ → ℝ → ℝ → ℝ → Prop
  | .mix, sig0, factor0, sig1, factor1 => |sig0 * factor0| ≤ 2 ^ 125 ∧ |sig1 * factor1| ≤ 2 ^ 125
  | .sum, a, b, c, d => |a| ≤ 2 ^ 124 ∧ |b| ≤ 2 ^ 124 ∧ |c| ≤ 2 ^ 124 ∧ |d| ≤ 2 ^ 124

/-- `QuadNear f a b c d u`: `u` is an acceptable single-precision value. -/
def QuadNear : QuadOp → ℝ → ℝ → ℝ → ℝ → ℝ → Prop
  | .mix, sig0, factor0, sig1, factor1, u =>
      |u - (sig0 * factor0 + sig1 * factor1)| ≤ 1.2e-7 * (|sig0 * factor0| + |sig1 * factor1|) + 1 / 2 ^ 148
  | .sum, a, b, c, d, u => |u - (a + b + c + d)| ≤ 1.2e-7 * (|a| + |b| + |c| + |d|)

end Nova.Spec
