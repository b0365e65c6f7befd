import Mathlib.Analysis.SpecialFunctions.Log.Deriv
import Mathlib.Analysis.Complex.ExponentialBounds
import Mathlib.Tactic.NormNum
import Mathlib.Tactic.Linarith
import Mathlib.Tactic.FieldSimp
import Verif.RealArith

/-! # Helper lemmas: the functors over real arithmetic -/

namespace Nova
namespace Meaning
open Real

theorem sgn_sqrt (x : ℝ) : Spec.sgn x * √|x| * abs (Spec.sgn x * √|x|) = x := by
  unfold Spec.sgn
  have hs : √|x| * √|x| = |x| := Real.mul_self_sqrt (abs_nonneg x)
  have h0 : 0 ≤ √|x| := Real.sqrt_nonneg _
  split_ifs with h h'
  · rw [one_mul, abs_of_nonneg h0, hs, abs_of_pos h]
  · simp [h']
  · rw [neg_one_mul, abs_neg, abs_of_nonneg h0, neg_mul, hs, abs_of_nonpos (not_lt.mp h), neg_neg]

theorem two_rpow_logb {x : ℝ} (h : 0 < x) : (2 : ℝ) ^ logb 2 x = x :=
  Real.rpow_logb (by norm_num) (by norm_num) h

theorem ten_rpow_logb {x : ℝ} (h : 0 < x) : (10 : ℝ) ^ logb 10 x = x :=
  Real.rpow_logb (by norm_num) (by norm_num) h

theorem logb_two_rpow (x : ℝ) : logb 2 ((2 : ℝ) ^ x) = x :=
  Real.logb_rpow (by norm_num) (by norm_num)

theorem logb_ten_rpow (x : ℝ) : logb 10 ((10 : ℝ) ^ x) = x :=
  Real.logb_rpow (by norm_num) (by norm_num)

/-- The truncated literal `0.0022727272727` for `1/440`. -/
theorem logb_literal (x : ℝ) (h : x ≠ 0) :
    |logb 2 |x * ((0.0022727272727 : ℚ) : ℝ)| - logb 2 (|x| / 440)| ≤ 2 * 10 ^ (-11 : ℤ) := by
  have hx : 0 < |x| := abs_pos.mpr h
  have e : |x * ((0.0022727272727 : ℚ) : ℝ)| = |x| / 440 * 0.999999999988 := by
    rw [abs_mul, abs_of_pos (a := ((0.0022727272727 : ℚ) : ℝ)) (by norm_num)]
    norm_num
    ring
  rw [e, Real.logb_mul (by positivity) (by norm_num), add_sub_cancel_left]
  have hl2 : 0.6931471803 < Real.log 2 := Real.log_two_gt_d9
  have hlog : Real.log 0.999999999988 ≤ 0 := Real.log_nonpos (by norm_num) (by norm_num)
  have hlow : 1 - (0.999999999988 : ℝ)⁻¹ ≤ Real.log 0.999999999988 :=
    Real.one_sub_inv_le_log_of_pos (by norm_num)
  rw [Real.logb, abs_div, abs_of_nonpos hlog, abs_of_pos (by linarith : 0 < Real.log 2),
    div_le_iff₀ (by linarith)]
  have : -(1 - (0.999999999988 : ℝ)⁻¹) ≤ 2 * 10 ^ (-11 : ℤ) * 0.6931471803 := by norm_num
  have h3 : (2 * 10 ^ (-11 : ℤ) : ℝ) * 0.6931471803 ≤ 2 * 10 ^ (-11 : ℤ) * Real.log 2 := by
    apply mul_le_mul_of_nonneg_left hl2.le; norm_num
  linarith

theorem softclip_eq (x : ℝ) :
    (if |x| < 0.5 then x else (|x| - 0.25) / x)
      = if |x| < 1 / 2 then x else Spec.sgn x * (1 - 1 / (4 * |x|)) := by
  have : (0.5 : ℝ) = 1 / 2 := by norm_num
  rw [this]
  split_ifs with h
  · rfl
  · have hx : x ≠ 0 := by rintro rfl; simp at h
    unfold Spec.sgn
    rcases lt_or_gt_of_ne hx with hn | hp
    · rw [if_neg (not_lt.mpr hn.le), if_neg hx, abs_of_neg hn]
      field_simp
      ring
    · rw [if_pos hp, abs_of_pos hp]
      field_simp
      ring

end Meaning
end Nova
