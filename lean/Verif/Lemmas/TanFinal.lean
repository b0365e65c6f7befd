import Verif.Lemmas.TrigFinal
import Verif.Lemmas.TanPoly

/-!
# `vec_tan_float`
-/

namespace Nova
open FP VecMath

theorem div_near32 {x y : BitVec 32} (hx : IsFin binary32 x) (hy : IsFin binary32 y)
    (h0 : binary32.toReal y ≠ 0) (h : |binary32.toReal x / binary32.toReal y| ≤ 2 ^ 127) :
    IsFin binary32 (binary32.div x y) ∧
    |binary32.toReal (binary32.div x y) - binary32.toReal x / binary32.toReal y| ≤
      1 / 2 ^ 24 * |binary32.toReal x / binary32.toReal y| + 1 / 2 ^ 150 := by
  have := Fmt.div_near (F := binary32) hx hy h0 (by rw [bias32]; exact h)
  exact ⟨this.1, near32 this⟩

/-- The reciprocal of the approximation. -/
theorem tan_recip {m x : BitVec 32} {v : ℝ} (hm : IsFin binary32 m) (hm1 : binary32.toReal m = -1)
    (hx : IsFin binary32 x) (hv : |v| ≤ 0.7864) (he : |binary32.toReal x - Real.tan v| ≤ 25 / 10 ^ 8)
    (hs : 1 / 2 ^ 16 ≤ |Real.sin v|) :
    IsFin binary32 (binary32.div m x) ∧
    |binary32.toReal (binary32.div m x) - -(Real.tan v)⁻¹| ≤ 1 / 2 ^ 21 / Real.sin v ^ 2 := by
  have hc := cos_large hv
  have hc0 : 0 < Real.cos v := by norm_num at hc; linarith
  have hc1 := Real.cos_le_one v
  generalize hA : binary32.toReal x = A at *
  have hT : |Real.sin v| ≤ |Real.tan v| := by
    rw [Real.tan_eq_sin_div_cos, abs_div, abs_of_pos hc0, le_div_iff₀ hc0]
    have := mul_le_mul_of_nonneg_left hc1 (abs_nonneg (Real.sin v))
    linarith
  have hs0 : 0 < |Real.sin v| := by norm_num at hs; linarith
  have hsq : Real.sin v ^ 2 = |Real.sin v| ^ 2 := (sq_abs _).symm
  rw [hsq]
  have hs1 : |Real.sin v| ≤ 1 := Real.abs_sin_le_one v
  generalize |Real.sin v| = S at *
  generalize Real.tan v = T at *
  have hT0 : 0 < |T| := lt_of_lt_of_le hs0 hT
  have hTne : T ≠ 0 := abs_pos.mp hT0
  -- |A| ≥ 0.98 S
  have hA1 : 0.98 * S ≤ |A| := by
    have h1 := abs_sub_abs_le_abs_sub T A
    rw [abs_sub_comm] at h1
    norm_num at *
    linarith
  have hA0 : 0 < |A| := lt_of_lt_of_le (mul_pos (by norm_num) hs0) hA1
  have hAne : A ≠ 0 := abs_pos.mp hA0
  have q1 : |(-1 : ℝ) / A| ≤ 1.03 / S := by
    rw [abs_div, abs_neg, abs_one, div_le_div_iff₀ hA0 hs0]
    norm_num at *; linarith
  have q2 : (1.03 : ℝ) / S ≤ 2 ^ 127 := by
    rw [div_le_iff₀ hs0]; norm_num at *; linarith
  obtain ⟨f, e⟩ := div_near32 hm hx (by rw [hA]; exact hAne) (by rw [hm1, hA]; exact q1.trans q2)
  rw [hm1, hA] at e
  refine ⟨f, ?_⟩
  generalize binary32.toReal (binary32.div m x) = R at *
  have h3 : |(-1 : ℝ) / A - -(T⁻¹)| ≤ 26 / 10 ^ 8 / S ^ 2 := by
    rw [show (-1 : ℝ) / A - -(T⁻¹) = (A - T) / (A * T) by field_simp; ring, abs_div, abs_mul,
      div_le_div_iff₀ (by positivity) (by positivity)]
    have hp : 0.98 * S * S ≤ |A| * |T| := mul_le_mul hA1 hT hs0.le hA0.le
    have h5 : |A - T| * S ^ 2 ≤ 25 / 10 ^ 8 * S ^ 2 := mul_le_mul_of_nonneg_right he (by positivity)
    have h6 := mul_le_mul_of_nonneg_left hp (show (0 : ℝ) ≤ 26 / 10 ^ 8 by norm_num)
    have hs2 : 0 < S ^ 2 := by positivity
    norm_num at *
    nlinarith
  have h4 : |R - -(T⁻¹)| ≤ |R - -1 / A| + |(-1 : ℝ) / A - -(T⁻¹)| := by
    have := abs_add_le (R - -1 / A) (-1 / A - -(T⁻¹))
    rwa [sub_add_sub_cancel] at this
  refine h4.trans ?_
  have h5 : |R - -1 / A| ≤ 7 / 10 ^ 8 / S ^ 2 := by
    refine e.trans ?_
    have h6 : (1.03 : ℝ) / S ≤ 1.03 / S ^ 2 := by
      rw [div_le_div_iff₀ hs0 (by positivity)]; nlinarith
    have h7 : (1 : ℝ) ≤ 1 / S ^ 2 := by
      rw [le_div_iff₀ (by positivity)]; nlinarith
    have h8 : (1.03 : ℝ) / S ^ 2 = 1.03 * (1 / S ^ 2) := by ring
    have h9 : (7 : ℝ) / 10 ^ 8 / S ^ 2 = 7 / 10 ^ 8 * (1 / S ^ 2) := by ring
    rw [h9]; rw [h8] at h6
    generalize 1 / S ^ 2 = z at *
    have := q1.trans h6
    norm_num at *
    linarith
  have h10 : (1 : ℝ) / 2 ^ 21 / S ^ 2 = 1 / 2 ^ 21 * (1 / S ^ 2) := by ring
  have h11 : (26 : ℝ) / 10 ^ 8 / S ^ 2 = 26 / 10 ^ 8 * (1 / S ^ 2) := by ring
  have h12 : (7 : ℝ) / 10 ^ 8 / S ^ 2 = 7 / 10 ^ 8 * (1 / S ^ 2) := by ring
  rw [h10]; rw [h11] at h3; rw [h12] at h5
  have hz : 0 < 1 / S ^ 2 := by positivity
  generalize 1 / S ^ 2 = z at *
  norm_num at *
  linarith

theorem tan_quadrant (v : ℝ) (q : ℕ) :
    Real.tan (v + q * (Real.pi / 2)) = if q % 2 = 0 then Real.tan v else -(Real.tan v)⁻¹ := by
  obtain ⟨t, r, hq, hr⟩ : ∃ t r, q = 2 * t + r ∧ r < 2 := ⟨q / 2, q % 2, by omega, by omega⟩
  have e : v + q * (Real.pi / 2) = v + r * (Real.pi / 2) + t * Real.pi := by
    rw [hq]; push_cast; ring
  rw [e, Real.tan_add_nat_mul_pi]
  interval_cases r
  · rw [if_pos (by omega)]; norm_num
  · rw [if_neg (by omega)]
    rw [show v + ((1 : ℕ) : ℝ) * (Real.pi / 2) = Real.pi / 2 - -v by push_cast; ring, Real.tan_pi_div_two_sub,
      Real.tan_neg, inv_neg]

theorem vecTan_error {V : LaneOps 32} (h : V.Ieee) {x : BitVec 32} (hx : IsFin binary32 x)
    (hr : |binary32.toReal x| ≤ 8192) (hc : 1 / 2 ^ 16 ≤ |Real.cos (binary32.toReal x)|) :
    IsFin binary32 (vecTan V x) ∧
    |binary32.toReal (vecTan V x) - Real.tan (binary32.toReal x)| ≤
      1 / 2 ^ 21 / Real.cos (binary32.toReal x) ^ 2 := by
  obtain ⟨a1, a2, a3⟩ := fabs_facts hx hr
  obtain ⟨q, q1, q2, q3⟩ := trig_reduce h a1 a2 a3
  unfold vecTan
  dsimp only
  rw [abs_and h, h.sign, sign_and, poly_mask, h.sel, q2]
  have hv := q3.bnd
  have hp := (tanPoly_track h q3).recenter (tanP_error hv) (E := 25/10^8) (C := |Real.tan (binary32.toReal
    (binary32.fabs x) - q * (Real.pi / 2))|) (by norm_num) le_rfl
  generalize reduceArg V (binary32.fabs x) (V.convertToFloat (quadrant V (binary32.fabs x))) = r at *
  have hm : binary32.toReal (litD (-1)) = -1 := by
    rw [isVal_value (q := -1) (by decide +kernel)]; norm_num
  have hmf : IsFin binary32 (litD (-1)) := isVal_fin (q := -1) (by decide +kernel)
  have ht := tan_quadrant (binary32.toReal (binary32.fabs x) - q * (Real.pi / 2)) q
  have hcq := cos_quadrant (binary32.toReal (binary32.fabs x) - q * (Real.pi / 2)) q
  rw [sub_add_cancel] at ht hcq
  rw [binary32.toReal_fabs] at *
  rw [Real.cos_abs] at hcq
  generalize |binary32.toReal x| - q * (Real.pi / 2) = v at *
  -- the approximation of tan |x|
  have key : IsFin binary32 (if decide (2 * q / 2 % 2 = 0) = true then tanPoly V r
      else V.div (litD (-1)) (tanPoly V r)) ∧
      |binary32.toReal (if decide (2 * q / 2 % 2 = 0) = true then tanPoly V r
      else V.div (litD (-1)) (tanPoly V r)) - (Real.tan |binary32.toReal x|)| ≤
      1 / 2 ^ 21 / Real.cos (binary32.toReal x) ^ 2 := by
    by_cases hq : q % 2 = 0
    · rw [if_pos (decide_eq_true (by omega)), ht, if_pos hq]
      refine ⟨hp.fin, hp.err.trans ?_⟩
      have hc1 : Real.cos (binary32.toReal x) ^ 2 ≤ 1 := Real.cos_sq_le_one _
      have hc2 : 0 < Real.cos (binary32.toReal x) ^ 2 := by
        have : 0 < |Real.cos (binary32.toReal x)| := by norm_num at hc; linarith
        have := abs_pos.mp this
        positivity
      rw [le_div_iff₀ hc2]
      norm_num
      linarith
    · rw [if_neg (by rw [decide_eq_true_eq]; omega), ht, if_neg hq, h.div]
      rw [if_neg hq] at hcq
      have hcs : |Real.cos (binary32.toReal x)| = |Real.sin v| := by
        rw [hcq]; split <;> simp
      have hcs2 : Real.cos (binary32.toReal x) ^ 2 = Real.sin v ^ 2 := by
        rw [← sq_abs, hcs, sq_abs]
      rw [hcs2]
      exact tan_recip hmf hm hp.fin hv hp.err (by rw [← hcs]; exact hc)
  generalize (if decide (2 * q / 2 % 2 = 0) = true then tanPoly V r
      else V.div (litD (-1)) (tanPoly V r)) = R at *
  have tr : Tr R (Real.tan |binary32.toReal x|) _ _ := ⟨key.1, key.2, le_rfl⟩
  have ts := tr.signed (binary32.neg x)
  refine ⟨ts.fin, ?_⟩
  have e : Real.tan (binary32.toReal x) = if binary32.neg x then -Real.tan |binary32.toReal x|
      else Real.tan |binary32.toReal x| := by
    conv_lhs => rw [toReal_eq_signed x]
    cases binary32.neg x
    · rfl
    · simp only [if_true]; rw [Real.tan_neg]
  rw [e]
  exact ts.err

end Nova
