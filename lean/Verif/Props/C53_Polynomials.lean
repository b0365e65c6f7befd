import Verif.Lemmas.ExpHalf
import Verif.Lemmas.TanPoly
import Verif.Lemmas.LogPoly

/-!
# C53 the polynomials in real arithmetic

The polynomials of exp, sin, cos, tan and log as they are written in detail/vec_math.hpp, in real arithmetic; the
coefficients are the decimal literals of the source converted to `float` (`c32`).
-/

namespace Nova
open FP VecMath

/-- A literal of the source, converted to `float`. -/
local notation "c32" q:max => binary32.toReal (litD q)

/-- exp: the comment at detail/vec_math.hpp:139 promises a peak relative error of 3.5e-8 in [-0.5, 0.5]. -/
theorem C53_exp (x : ℝ) (h : |x| ≤ 0.5) :
    |1 + x * (c32 1.00000035762786865234375 + x * (c32 0.4999996721744537353515625 + x * (c32 0.16665561497211456298828125 +
      x * (c32 4.167006909847259521484375e-2 + x * (c32 8.420792408287525177001953125e-3 +
      x * c32 1.386119984090328216552734375e-3))))) - Real.exp x| ≤ 3.5e-8 * Real.exp x := by
  have c0 : binary32.toReal (litD 1.00000035762786865234375) = (8388611/2^23 : ℚ) := isVal_value (by decide +kernel)
  have c1 : binary32.toReal (litD 0.4999996721744537353515625) = (16777205/2^25 : ℚ) := isVal_value (by decide +kernel)
  have c2 : binary32.toReal (litD 0.16665561497211456298828125) = (11184069/2^26 : ℚ) := isVal_value (by decide +kernel)
  have c3 : binary32.toReal (litD 4.167006909847259521484375e-2) = (2796431/2^26 : ℚ) := isVal_value (by decide +kernel)
  have c4 : binary32.toReal (litD 8.420792408287525177001953125e-3) = (9041757/2^30 : ℚ) := isVal_value (by decide +kernel)
  have c5 : binary32.toReal (litD 1.386119984090328216552734375e-3) = (1488335/2^30 : ℚ) := isVal_value (by decide +kernel)
  rw [c0, c1, c2, c3, c4, c5]
  refine le_trans (le_of_eq ?_) ((expP_half h).trans (by norm_num))
  congr 1
  unfold expP
  push_cast
  ring

/-- sin: an absolute error of 7e-9 on the reduced interval [-π/4, π/4] (slightly enlarged). -/
theorem C53_sin (x : ℝ) (h : |x| ≤ 0.7864) :
    |((c32 (-1.9515295891e-4) * (x * x) + c32 8.3321608736e-3) * (x * x) - c32 1.6666654611e-1) * (x * x) * x + x -
      Real.sin x| ≤ 7e-9 := by
  have c0 : binary32.toReal (litD (-1.9515295891e-4)) = (-13410809/2^36 : ℚ) := isVal_value (by decide +kernel)
  have c1 : binary32.toReal (litD 8.3321608736e-3) = (4473295/2^29 : ℚ) := isVal_value (by decide +kernel)
  have c2 : binary32.toReal (litD 1.6666654611e-1) = (11184803/2^26 : ℚ) := isVal_value (by decide +kernel)
  rw [c0, c1, c2]
  refine le_trans (le_of_eq ?_) ((sinP_error h).trans (by norm_num))
  congr 1
  unfold sinP
  push_cast
  ring

/-- cos: an absolute error of 1e-9 on the reduced interval. -/
theorem C53_cos (x : ℝ) (h : |x| ≤ 0.7864) :
    |((c32 2.443315711809948e-5 * (x * x) - c32 1.388731625493765e-3) * (x * x) + c32 4.166664568298827e-2) * (x * x) * (x * x) -
      1 / 2 * (x * x) + 1 - Real.cos x| ≤ 1e-9 := by
  have c0 : binary32.toReal (litD 2.443315711809948e-5) = (6716135/2^38 : ℚ) := isVal_value (by decide +kernel)
  have c1 : binary32.toReal (litD 1.388731625493765e-3) = (5964557/2^32 : ℚ) := isVal_value (by decide +kernel)
  have c2 : binary32.toReal (litD 4.166664568298827e-2) = (11184805/2^28 : ℚ) := isVal_value (by decide +kernel)
  rw [c0, c1, c2]
  refine le_trans (le_of_eq ?_) ((cosP_error h).trans (by norm_num))
  congr 1
  unfold cosP
  push_cast
  ring

/-- tan: an absolute error of 2.5e-8 on the reduced interval. -/
theorem C53_tan (x : ℝ) (h : |x| ≤ 0.7864) :
    |x + x * (x * x) * (c32 0.3333315551280975341796875 + x * x * (c32 0.1333882510662078857421875 +
      x * x * (c32 5.3409568965435028076171875e-2 + x * x * (c32 2.443529665470123291015625e-2 +
      x * x * (c32 3.1127030961215496063232421875e-3 + x * x * c32 9.3892104923725128173828125e-3))))) - Real.tan x| ≤ 2.5e-8 := by
  have c0 : binary32.toReal (litD 0.3333315551280975341796875) = (11184751/2^25 : ℚ) := isVal_value (by decide +kernel)
  have c1 : binary32.toReal (litD 0.1333882510662078857421875) = (4475767/2^25 : ℚ) := isVal_value (by decide +kernel)
  have c2 : binary32.toReal (litD 5.3409568965435028076171875e-2) = (7168511/2^27 : ℚ) := isVal_value (by decide +kernel)
  have c3 : binary32.toReal (litD 2.443529665470123291015625e-2) = (1639825/2^26 : ℚ) := isVal_value (by decide +kernel)
  have c4 : binary32.toReal (litD 3.1127030961215496063232421875e-3) = (6684479/2^31 : ℚ) := isVal_value (by decide +kernel)
  have c5 : binary32.toReal (litD 9.3892104923725128173828125e-3) = (2520397/2^28 : ℚ) := isVal_value (by decide +kernel)
  rw [c0, c1, c2, c3, c4, c5]
  refine le_trans (le_of_eq ?_) ((tanP_error h).trans (by norm_num))
  congr 1
  unfold tanP
  push_cast
  ring

/-- log: an error of 4e-9 relative to `x` on the reduced interval [1/√2 - 1, √2 - 1] (slightly enlarged). -/
theorem C53_log (x : ℝ) (h1 : -0.29290 ≤ x) (h2 : x ≤ 0.41422) :
    |x + (((((((((c32 7.0376836292e-2 * x - c32 1.1514610310e-1) * x + c32 1.1676998740e-1) * x - c32 1.2420140846e-1) * x + c32 1.4249322787e-1) * x - c32 1.6668057665e-1) * x + c32 2.0000714765e-1) * x - c32 2.4999993993e-1) * x + c32 3.3333331174e-1) * x * x * x - 1 / 2 * x * x) -
      Real.log (1 + x)| ≤ 4e-9 * |x| := by
  have c0 : binary32.toReal (litD 7.0376836292e-2) = (9445819/2^27 : ℚ) := isVal_value (by decide +kernel)
  have c1 : binary32.toReal (litD 1.1514610310e-1) = (1931831/2^24 : ℚ) := isVal_value (by decide +kernel)
  have c2 : binary32.toReal (litD 1.1676998740e-1) = (7836301/2^26 : ℚ) := isVal_value (by decide +kernel)
  have c3 : binary32.toReal (litD 1.2420140846e-1) = (16670031/2^27 : ℚ) := isVal_value (by decide +kernel)
  have c4 : binary32.toReal (litD 1.4249322787e-1) = (9562559/2^26 : ℚ) := isVal_value (by decide +kernel)
  have c5 : binary32.toReal (litD 1.6668057665e-1) = (699109/2^22 : ℚ) := isVal_value (by decide +kernel)
  have c6 : binary32.toReal (litD 2.0000714765e-1) = (3355563/2^24 : ℚ) := isVal_value (by decide +kernel)
  have c7 : binary32.toReal (litD 2.4999993993e-1) = (4194303/2^24 : ℚ) := isVal_value (by decide +kernel)
  have c8 : binary32.toReal (litD 3.3333331174e-1) = (5592405/2^24 : ℚ) := isVal_value (by decide +kernel)
  rw [c0, c1, c2, c3, c4, c5, c6, c7, c8]
  refine le_trans (le_of_eq ?_) ((logP_error h1 h2).trans (mul_le_mul_of_nonneg_right (by norm_num) (abs_nonneg _)))
  congr 1
  unfold logP logQ
  push_cast
  ring

/-- The intervals are not empty: they contain 0.4 and -0.2. -/
example : |(0.4 : ℝ)| ≤ 0.5 ∧ |(0.4 : ℝ)| ≤ 0.7864 ∧ -0.29290 ≤ (-0.2 : ℝ) ∧ (0.4 : ℝ) ≤ 0.41422 := by
  rw [abs_of_pos (by norm_num)]; norm_num

end Nova
