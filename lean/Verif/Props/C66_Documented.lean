import Verif.Props.C61_Trig
import Verif.Props.C63_Log
import Verif.Props.C46_Exp
import Verif.Props.C70_Atan
import Verif.Props.C71_Asin
import Verif.Props.C73_Tanh
import Verif.Props.C74_Pow

/-!
# C66 the documented relative error

detail/vec_math.hpp:31: "the approximation of mathematical functions should have a maximum relative error of below 5e-7f".
True of exp, log, atan, asin, tanh and, but for one argument, acos; `C66_negation` (C61_Trig) shows that it is false of
sin, `C66_negation_pow` (C74_Pow) that it is false of pow.
-/

namespace Nova
open FP

/-- exp and log have a relative error below 5e-7.  Missing: the claim is false of sin (`C66_negation`). -/
theorem C66_exp_log_partial (b : Build32) (hb : b.simdMath = true) (P : Platform 32) (x : BitVec 32) :
    (IsFin binary32 x → -87.33 ≤ binary32.toReal x → binary32.toReal x < 11629080 / 2 ^ 17 →
      |binary32.toReal ((b.lane P).exp x) - Real.exp (binary32.toReal x)| ≤ 5e-7 * Real.exp (binary32.toReal x)) ∧
    (IsNormal x → 0 < binary32.toReal x →
      |binary32.toReal ((b.lane P).log x) - Real.log (binary32.toReal x)| ≤
        5e-7 * |Real.log (binary32.toReal x)|) := by
  constructor
  · intro h1 h2 h3
    exact (C60_exp b hb P x h1 h2 h3).2.trans (mul_le_mul_of_nonneg_right (by norm_num) (Real.exp_pos _).le)
  · intro h1 h2
    exact (C63_log b hb P x h1 h2).2.trans (mul_le_mul_of_nonneg_right (by norm_num) (abs_nonneg _))

/-- atan, asin and acos have a relative error below 5e-7; the exception of acos is `C72_negation`. -/
theorem C66_inverse_trig_partial (b : Build32) (hb : b.simdMath = true) (P : Platform 32) (x : BitVec 32)
    (hx : IsFin binary32 x) :
    |binary32.toReal ((b.lane P).atan x) - Real.arctan (binary32.toReal x)| ≤
      5e-7 * |Real.arctan (binary32.toReal x)| ∧
    (|binary32.toReal x| ≤ 1 →
      |binary32.toReal ((b.lane P).asin x) - Real.arcsin (binary32.toReal x)| ≤
        5e-7 * |Real.arcsin (binary32.toReal x)|) ∧
    (|binary32.toReal x| ≤ 1 → binary32.toReal x ≠ -1 / 2 →
      |binary32.toReal ((b.lane P).acos x) - Real.arccos (binary32.toReal x)| ≤
        5e-7 * |Real.arccos (binary32.toReal x)|) := by
  refine ⟨?_, fun h => (C71_asin b hb P x hx h).2, fun h hn => ?_⟩
  · exact (C70_atan b hb P x hx).2.trans (mul_le_mul_of_nonneg_right (by norm_num) (abs_nonneg _))
  · rw [abs_of_nonneg (Real.arccos_nonneg _)]
    exact (C72_acos_partial b hb P x hx h hn).2.trans
      (mul_le_mul_of_nonneg_right (by norm_num) (Real.arccos_nonneg _))

/-- tanh has a relative error of at most 5e-7. -/
theorem C66_tanh_partial (b : Build32) (hb : b.simdMath = true) (P : Platform 32) (x : BitVec 32)
    (hx : IsFin binary32 x) :
    |binary32.toReal ((b.lane P).tanh x) - Real.tanh (binary32.toReal x)| ≤ 5e-7 * |Real.tanh (binary32.toReal x)| :=
  (C73_tanh b hb P x hx).2

end Nova
