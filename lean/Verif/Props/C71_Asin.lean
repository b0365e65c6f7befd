import Verif.Lemmas.AcosFinal
import Verif.Lemmas.Witness

/-!
# C71 the accuracy of asin, C72 of acos

For every build with the vector versions (SSE2 and AVX, with or without SSE4.1 and FMA) and every float of [-1, 1], all
rounding errors included: asin has a relative error of at most 5e-7, acos one of at most 2.5e-7 — with the exception of
acos(-0.5), which is 4π/3 instead of 2π/3: the reduction to sqrt((1+x)/2) is done for x < -0.5, the formula that
needs it is used for x ≤ -0.5 (detail/vec_math.hpp:422-436).
-/

namespace Nova
open FP VecMath

/-- The relative error of asin. -/
theorem C71_asin (b : Build32) (hb : b.simdMath = true) (P : Platform 32) (x : BitVec 32) (hx : IsFin binary32 x)
    (hr : |binary32.toReal x| ≤ 1) :
    IsFin binary32 ((b.lane P).asin x) ∧
    |binary32.toReal ((b.lane P).asin x) - Real.arcsin (binary32.toReal x)| ≤
      5e-7 * |Real.arcsin (binary32.toReal x)| := by
  have T := b.templates hb P
  rw [T.asin]
  have := vecAsin_error T.ieee hx hr
  exact ⟨this.1, this.2.trans (by norm_num)⟩

/-- The relative error of acos.  Missing: the value at -0.5 is wrong (`C72_negation`). -/
theorem C72_acos_partial (b : Build32) (hb : b.simdMath = true) (P : Platform 32) (x : BitVec 32)
    (hx : IsFin binary32 x) (hr : |binary32.toReal x| ≤ 1) (hn : binary32.toReal x ≠ -1 / 2) :
    IsFin binary32 ((b.lane P).acos x) ∧
    |binary32.toReal ((b.lane P).acos x) - Real.arccos (binary32.toReal x)| ≤
      2.5e-7 * Real.arccos (binary32.toReal x) := by
  have T := b.templates hb P
  rw [T.acos]
  have := vecAcos_error T.ieee hx hr hn
  exact ⟨this.1, this.2.trans (by norm_num)⟩

example : (Build32.avx true).simdMath = true ∧ (Build32.sse false ⟨true, false, false⟩).simdMath = true ∧
    IsFin binary32 0xbf000001#32 ∧ |binary32.toReal 0xbf000001#32| ≤ 1 ∧ binary32.toReal 0xbf000001#32 ≠ -1 / 2 := by
  rw [isVal_value (q := -8388609 / 2 ^ 24) (by decide +kernel)]
  refine ⟨by decide, by decide, by decide, ?_, ?_⟩ <;> norm_num [abs_le]

/-- acos(-0.5) is the float next to 4π/3, twice the right value. -/
theorem C72_negation (b : Build32) (hb : b.simdMath = true) (P : Platform 32) :
    binary32.toReal 0xbf000000#32 = -1 / 2 ∧ Real.arccos (-1 / 2) = 2 * Real.pi / 3 ∧
    |binary32.toReal ((b.lane P).acos 0xbf000000#32) - 4 * Real.pi / 3| ≤ 1 / 10 ^ 6 := by
  have v : binary32.toReal 0xbf000000#32 = -1 / 2 := by
    rw [isVal_value (q := -1 / 2) (by decide +kernel)]; norm_num
  refine ⟨v, ?_, ?_⟩
  · rw [show (-1 / 2 : ℝ) = -(1 / 2) by norm_num, Real.arccos_neg, ← Real.cos_pi_div_three,
      Real.arccos_cos (by linarith [Real.pi_pos]) (by linarith [Real.pi_pos])]
    ring
  · have T := b.templates hb P
    rw [T.acos]
    exact vecAcos_half T.ieee (by decide) v

end Nova
