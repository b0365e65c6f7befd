import Mathlib.Analysis.SpecialFunctions.Log.Deriv
import Mathlib.Analysis.SpecialFunctions.Pow.Real
import Mathlib.Analysis.SpecialFunctions.Log.Base
import Mathlib.Analysis.Complex.Exponential

/-! # Composing an approximate exponential with an approximate logarithm -/

namespace Nova

/-- Logarithm first: `m` approximates `c + log(X/K)/L`, `y` approximates `K exp(L (m - c))`. -/
theorem trip_down {L K c X m y a a' p p' A A' : ℝ} (hL : 0 < L) (hK : 0 < K) (hX : 0 < X) (ha : 0 ≤ a) (ha' : 0 ≤ a') (hp : 0 ≤ p)
    (hp' : 0 ≤ p')
    (hm : |m - (c + Real.log (X / K) / L)| ≤ a + a' * |Real.log (X / K) / L|)
    (hy : |y - K * Real.exp (L * (m - c))| ≤ (p + p' * |m - c|) * (K * Real.exp (L * (m - c))))
    (hs : L * (a + a' * |Real.log (X / K) / L|) ≤ 1 / 10000)
    (hA : 1.0001 * (L * a) + 1.00011 * (p + p' * a) ≤ A)
    (hA' : 1.0001 * (L * a') + 1.00011 * (p' + p' * a') ≤ A') :
    |y - X| ≤ (A + A' * |Real.log (X / K) / L|) * X := by
  have hd := abs_nonneg (Real.log (X / K) / L)
  generalize hD : |Real.log (X / K) / L| = d at *
  have h1 : L * (m - c) = Real.log (X / K) + L * (m - (c + Real.log (X / K) / L)) := by field_simp; ring
  generalize hq : m - (c + Real.log (X / K) / L) = q at *
  have e1 : K * Real.exp (L * (m - c)) = X * Real.exp (L * q) := by
    rw [h1, Real.exp_add, Real.exp_log (by positivity)]; field_simp
  have hmc : |m - c| ≤ d + (a + a' * d) := by
    have : m - c = Real.log (X / K) / L + q := by rw [← hq]; ring
    rw [this]
    exact (abs_add_le _ _).trans (by rw [hD]; linarith)
  rw [e1] at hy
  have hs1 : |L * q| ≤ L * (a + a' * d) := by
    rw [abs_mul, abs_of_pos hL]; exact mul_le_mul_of_nonneg_left hm hL.le
  generalize hS : L * (a + a' * d) = S at *
  have hS0 : 0 ≤ S := (abs_nonneg _).trans hs1
  have hx1 := Real.abs_exp_sub_one_sub_id_le (x := L * q) (hs1.trans (hs.trans (by norm_num)))
  have hx2 : (L * q) ^ 2 ≤ 1 / 10000 * S := by
    rw [← sq_abs, sq]; exact mul_le_mul (hs1.trans hs) hs1 (abs_nonneg _) (by norm_num)
  have hx3 : |Real.exp (L * q) - 1| ≤ 1.0001 * S := by
    have : Real.exp (L * q) - 1 = (Real.exp (L * q) - 1 - L * q) + L * q := by ring
    rw [this]
    refine (abs_add_le _ _).trans ?_
    linarith
  have hx4 : Real.exp (L * q) ≤ 1.00011 := by
    have := (abs_le.mp hx3).2
    linarith
  have hE : p + p' * |m - c| ≤ p + p' * (d + (a + a' * d)) := by
    have := mul_le_mul_of_nonneg_left hmc hp'
    linarith
  have hE0 : 0 ≤ p + p' * |m - c| := by positivity
  have g1 : |y - X * Real.exp (L * q)| ≤ (p + p' * (d + (a + a' * d))) * 1.00011 * X := by
    refine hy.trans ?_
    have : (p + p' * |m - c|) * (X * Real.exp (L * q)) = (p + p' * |m - c|) * Real.exp (L * q) * X := by ring
    rw [this]
    refine mul_le_mul_of_nonneg_right ?_ hX.le
    exact mul_le_mul hE hx4 (Real.exp_pos _).le (by positivity)
  have g2 : |X * Real.exp (L * q) - X| ≤ 1.0001 * S * X := by
    have : X * Real.exp (L * q) - X = (Real.exp (L * q) - 1) * X := by ring
    rw [this, abs_mul, abs_of_pos hX]
    exact mul_le_mul_of_nonneg_right hx3 hX.le
  have g3 : |y - X| ≤ (p + p' * (d + (a + a' * d))) * 1.00011 * X + 1.0001 * S * X := by
    have : y - X = (y - X * Real.exp (L * q)) + (X * Real.exp (L * q) - X) := by ring
    rw [this]
    exact (abs_add_le _ _).trans (add_le_add g1 g2)
  refine g3.trans ?_
  rw [← add_mul]
  refine mul_le_mul_of_nonneg_right ?_ hX.le
  rw [← hS]
  have k1 := mul_le_mul_of_nonneg_right hA' hd
  have e : (p + p' * (d + (a + a' * d))) * 1.00011 + 1.0001 * (L * (a + a' * d)) =
    (1.0001 * (L * a) + 1.00011 * (p + p' * a)) + (1.0001 * (L * a') + 1.00011 * (p' + p' * a')) * d := by ring
  rw [e]
  linarith

/-- Exponential first: `f` approximates `K exp(L (x - c))`, `z` approximates `c + log(f/K)/L`. -/
theorem trip_up {L K c x f z a a' p p' A A' : ℝ} (hL : 0 < L) (hK : 0 < K) (ha' : 0 ≤ a') (hp : 0 ≤ p) (hp' : 0 ≤ p')
    (hf : |f - K * Real.exp (L * (x - c))| ≤ (p + p' * |x - c|) * (K * Real.exp (L * (x - c))))
    (hs : p + p' * |x - c| ≤ 1 / 1000)
    (hz : |z - (c + Real.log (f / K) / L)| ≤ a + a' * |Real.log (f / K) / L|)
    (hA : a + (1 + a') * (1.0011 * (p / L)) ≤ A)
    (hA' : a' + (1 + a') * (1.0011 * (p' / L)) ≤ A') :
    |z - x| ≤ A + A' * |x - c| ∧ 0 < f := by
  have hd := abs_nonneg (x - c)
  generalize hD : |x - c| = d at *
  generalize hG : K * Real.exp (L * (x - c)) = G at *
  have hG0 : 0 < G := by rw [← hG]; positivity
  have hE0 : 0 ≤ p + p' * d := by positivity
  generalize hE : p + p' * d = E at *
  -- f = G (1 + e)
  have he : |f / G - 1| ≤ E := by
    have : f / G - 1 = (f - G) / G := by field_simp
    rw [this, abs_div, abs_of_pos hG0, div_le_iff₀ hG0]; exact hf
  have hr0 : 0 < f / G := by have := (abs_le.mp he).1; linarith
  have hf0 : 0 < f := by
    have := mul_pos hr0 hG0
    rwa [div_mul_cancel₀ _ hG0.ne'] at this
  refine ⟨?_, hf0⟩
  have hlog : Real.log (f / K) = L * (x - c) + Real.log (f / G) := by
    have e : f / K = Real.exp (L * (x - c)) * (f / G) := by rw [← hG]; field_simp
    rw [e, Real.log_mul (Real.exp_pos _).ne' hr0.ne', Real.log_exp]
  have hl : |Real.log (f / G)| ≤ 1.0011 * E := by
    rw [abs_le]
    obtain ⟨l, u⟩ := abs_le.mp he
    constructor
    · have h1 := Real.one_sub_inv_le_log_of_pos hr0
      have h2 : (f / G)⁻¹ ≤ 1 + 1.0011 * E := by
        rw [inv_le_iff_one_le_mul₀ hr0]
        have : (1 + 1.0011 * E) * (1 - E) ≤ (1 + 1.0011 * E) * (f / G) :=
          mul_le_mul_of_nonneg_left (by linarith) (by linarith)
        nlinarith
      linarith
    · have h1 := Real.log_le_sub_one_of_pos hr0
      linarith
  have hq : Real.log (f / K) / L = (x - c) + Real.log (f / G) / L := by rw [hlog]; field_simp
  have hl2 : |Real.log (f / G) / L| ≤ 1.0011 * (E / L) := by
    rw [abs_div, abs_of_pos hL, ← mul_div_assoc]
    exact div_le_div_of_nonneg_right hl hL.le
  have h3 : |Real.log (f / K) / L| ≤ d + 1.0011 * (E / L) := by
    rw [hq]; exact (abs_add_le _ _).trans (by rw [hD]; linarith)
  have h4 : z - x = (z - (c + Real.log (f / K) / L)) + Real.log (f / G) / L := by rw [hq]; ring
  rw [h4]
  refine (abs_add_le _ _).trans ?_
  have h5 := mul_le_mul_of_nonneg_left h3 ha'
  have h6 : E / L = p / L + p' / L * d := by rw [← hE]; ring
  have k1 := mul_le_mul_of_nonneg_right hA' hd
  rw [h6] at h5 hl2
  have e : a + a' * (d + 1.0011 * (p / L + p' / L * d)) + 1.0011 * (p / L + p' / L * d) =
    (a + (1 + a') * (1.0011 * (p / L))) + (a' + (1 + a') * (1.0011 * (p' / L))) * d := by ring
  linarith

/-- The exponential stays away from zero. -/
theorem trip_up_range {L K c x f E Q : ℝ} (hL : 0 < L) (hK : 0 < K) (hQ : 0 < Q)
    (hf : |f - K * Real.exp (L * (x - c))| ≤ E * (K * Real.exp (L * (x - c))))
    (hs : E ≤ 1 / 1000) (hx : L * |x - c| ≤ Real.log Q) : 0.999 * K / Q ≤ f := by
  have h1 : Q⁻¹ ≤ Real.exp (L * (x - c)) := by
    rw [← Real.exp_log (inv_pos.mpr hQ), Real.log_inv]
    refine Real.exp_le_exp.mpr ?_
    have := mul_le_mul_of_nonneg_left (neg_abs_le (x - c)) hL.le
    linarith
  have hG : 0 < K * Real.exp (L * (x - c)) := by positivity
  have h2 := (abs_le.mp hf).1
  have h3 := mul_le_mul_of_nonneg_right hs hG.le
  have h4 := mul_le_mul_of_nonneg_left h1 hK.le
  have : 0.999 * K / Q = 0.999 * (K * Q⁻¹) := by rw [div_eq_mul_inv]; ring
  rw [this]
  linarith

/-- The logarithm of a bounded number is bounded. -/
theorem trip_down_range {L K X Q D : ℝ} (hL : 0 < L) (hK : 0 < K) (hQ : 0 < Q) (h1 : K / Q ≤ X) (h2 : X ≤ K * Q)
    (hD : Real.log Q ≤ L * D) : 0 < X ∧ |Real.log (X / K) / L| ≤ D := by
  have hX : 0 < X := lt_of_lt_of_le (by positivity) h1
  refine ⟨hX, ?_⟩
  rw [abs_div, abs_of_pos hL, div_le_iff₀ hL, mul_comm D]
  refine le_trans (abs_le.mpr ⟨?_, ?_⟩) hD
  · rw [← Real.log_inv]
    refine Real.log_le_log (by positivity) ?_
    rw [le_div_iff₀ hK]
    have : Q⁻¹ * K = K / Q := by rw [div_eq_mul_inv, mul_comm]
    linarith
  · refine Real.log_le_log (by positivity) ?_
    rw [div_le_iff₀ hK]; linarith

end Nova
