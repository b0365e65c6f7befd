import Verif.SpecRoot
import Verif.Lemmas.Newton
import Verif.Lemmas.Witness

/-!
# Square roots from an estimate
-/

namespace Nova
open FP VecMath

theorem toReal_zero32 : binary32.toReal 0#32 = 0 := by
  rw [binary32.toReal_eq, show mag binary32.mb (binary32.code 0#32) = 0 by decide +kernel]; simp

/-- A fused product with zero added. -/
theorem fma_zero_near32 {x y : BitVec 32} (hx : IsFin binary32 x) (hy : IsFin binary32 y)
    (h : |binary32.toReal x * binary32.toReal y| ≤ 2 ^ 127) :
    IsFin binary32 (binary32.fma x y 0#32) ∧
    |binary32.toReal (binary32.fma x y 0#32) - binary32.toReal x * binary32.toReal y| ≤
      1 / 2 ^ 24 * |binary32.toReal x * binary32.toReal y| + 1 / 2 ^ 150 := by
  have := fma_near32 hx hy (z := 0#32) (by decide) (by rw [toReal_zero32, add_zero]; exact h)
  rwa [toReal_zero32, add_zero] at this

/-- The root of a number of ordinary size. -/
theorem root_range {X : ℝ} (h1 : 1 / 2 ^ 100 ≤ X) (h2 : X ≤ 2 ^ 100) :
    1 / 2 ^ 50 ≤ √X ∧ √X ≤ 2 ^ 50 ∧ √X * √X = X := by
  have h0 : 0 ≤ X := le_trans (by norm_num) h1
  refine ⟨?_, ?_, Real.mul_self_sqrt h0⟩
  · rw [show (1 / 2 ^ 50 : ℝ) = √((1 / 2 ^ 50) ^ 2) by rw [Real.sqrt_sq (by norm_num)]]
    exact Real.sqrt_le_sqrt (by norm_num at *; linarith)
  · rw [show (2 ^ 50 : ℝ) = √((2 ^ 50) ^ 2) by rw [Real.sqrt_sq (by norm_num)]]
    exact Real.sqrt_le_sqrt (by norm_num at *; linarith)

/-- The step of Newton's method in reals, all roundings included. -/
theorem root_step {S E s h n r ε : ℝ} (hS1 : 1 / 2 ^ 50 ≤ S) (hS2 : S ≤ 2 ^ 50) (hε : ε ≤ 1 / 64)
    (hy : |1 - S * E| ≤ ε)
    (hs : |s - E * E| ≤ 1 / 2 ^ 24 * |E * E| + 1 / 2 ^ 150)
    (hh : |h - E * (1 / 2)| ≤ 1 / 2 ^ 24 * |E * (1 / 2)| + 1 / 2 ^ 150)
    (hn : |n - (-(S * S) * s + 1)| ≤ 1 / 2 ^ 24 * |-(S * S) * s + 1| + 1 / 2 ^ 150)
    (hr : |r - (n * h + E)| ≤ 1 / 2 ^ 24 * |n * h + E| + 1 / 2 ^ 150) :
    |1 - S * r| ≤ 1.51 * ε ^ 2 + 2 / 2 ^ 24 := by
  have hε0 : 0 ≤ ε := (abs_nonneg _).trans hy
  have hS0 : 0 < S := lt_of_lt_of_le (by norm_num) hS1
  obtain ⟨t, ht⟩ : ∃ t, S * E = 1 + t := ⟨S * E - 1, by ring⟩
  have hE : E = (1 + t) / S := by field_simp; linarith
  have ht1 : |t| ≤ ε := by rw [ht] at hy; rwa [show 1 - (1 + t) = -t by ring, abs_neg] at hy
  have ht2 : |t| ≤ 1 / 64 := ht1.trans hε
  obtain ⟨l1, l2⟩ := abs_le.mp ht2
  have hy0 : 0 < 1 + t := by norm_num at l1; linarith
  -- the square of the estimate
  have A : |S * S * s - (1 + t) ^ 2| ≤ 1.04 / 2 ^ 24 := by
    have e : S * S * s - (1 + t) ^ 2 = S * S * (s - E * E) := by rw [← ht]; ring
    rw [e, abs_mul, abs_of_pos (mul_pos hS0 hS0)]
    refine (mul_le_mul_of_nonneg_left hs (mul_pos hS0 hS0).le).trans ?_
    rw [abs_of_nonneg (mul_self_nonneg E)]
    have e2 : S * S * (1 / 2 ^ 24 * (E * E) + 1 / 2 ^ 150) = 1 / 2 ^ 24 * (1 + t) ^ 2 + S * S * (1 / 2 ^ 150) := by
      rw [← ht]; ring
    rw [e2]
    have k1 : S * S ≤ 2 ^ 50 * 2 ^ 50 := mul_le_mul hS2 hS2 hS0.le (by norm_num)
    have k2 : (1 + t) ^ 2 ≤ (1 + 1 / 64) ^ 2 := pow_le_pow_left₀ hy0.le (by linarith) 2
    norm_num at *
    linarith
  generalize ha : S * S * s - (1 + t) ^ 2 = a at *
  -- the residual
  have hN : -(S * S) * s + 1 = -(2 * t + t ^ 2 + a) := by rw [← ha]; ring
  rw [hN] at hn
  have ht3 : t ^ 2 ≤ 1 / 64 * |t| := by
    rw [← sq_abs, sq]; exact mul_le_mul_of_nonneg_right ht2 (abs_nonneg t)
  have ht4 : t ^ 2 ≤ (1 / 64) ^ 2 := by rw [← sq_abs]; exact pow_le_pow_left₀ (abs_nonneg t) ht2 2
  have ht5 := sq_nonneg t
  have hNb : |-(2 * t + t ^ 2 + a)| ≤ 0.0316 := by
    rw [abs_neg]
    obtain ⟨a1, a2⟩ := abs_le.mp A
    rw [abs_le]
    norm_num at *
    constructor <;> linarith
  have B : |n + (2 * t + t ^ 2 + a)| ≤ 0.032 / 2 ^ 24 := by
    rw [show n + (2 * t + t ^ 2 + a) = n - -(2 * t + t ^ 2 + a) by ring]
    refine hn.trans ?_
    norm_num at *
    linarith
  generalize hb : n + (2 * t + t ^ 2 + a) = b at *
  have hnv : n = b - (2 * t + t ^ 2 + a) := by rw [← hb]; ring
  have hnb : |n| ≤ 0.0317 := by
    rw [hnv]
    have := abs_sub b (2 * t + t ^ 2 + a)
    rw [abs_neg] at hNb
    have := abs_add_le b (-(2 * t + t ^ 2 + a))
    rw [abs_neg, ← sub_eq_add_neg] at this
    norm_num at *
    linarith
  -- half of the estimate
  have D : |S * h - (1 + t) / 2| ≤ 0.51 / 2 ^ 24 := by
    have e : S * h - (1 + t) / 2 = S * (h - E * (1 / 2)) := by rw [← ht]; ring
    rw [e, abs_mul, abs_of_pos hS0]
    refine (mul_le_mul_of_nonneg_left hh hS0.le).trans ?_
    have e2 : S * (1 / 2 ^ 24 * |E * (1 / 2)| + 1 / 2 ^ 150) = 1 / 2 ^ 24 * ((1 + t) / 2) + S * (1 / 2 ^ 150) := by
      have : S * |E * (1 / 2)| = (1 + t) / 2 := by
        rw [show S * |E * (1 / 2)| = |S * E * (1 / 2)| by rw [mul_assoc, abs_mul S, abs_of_pos hS0], ht,
          abs_of_pos (by positivity)]
        ring
      rw [mul_add, show S * (1 / 2 ^ 24 * |E * (1 / 2)|) = 1 / 2 ^ 24 * (S * |E * (1 / 2)|) by ring, this]
    rw [e2]
    norm_num at *
    linarith
  generalize hd : S * h - (1 + t) / 2 = d at *
  have hSh : S * h = (1 + t) / 2 + d := by rw [← hd]; ring
  -- the sum
  have hSum : S * (n * h + E) = 1 + (-(t ^ 2) * (3 + t) / 2 + (b - a) * ((1 + t) / 2) + n * d) := by
    have : S * (n * h + E) = n * (S * h) + S * E := by ring
    rw [this, hSh, ht]
    rw [show n * ((1 + t) / 2 + d) = n * ((1 + t) / 2) + n * d by ring]
    conv_lhs => rw [hnv]
    rw [hnv]
    ring
  have q1 : |-(t ^ 2) * (3 + t) / 2| ≤ 1.51 * ε ^ 2 := by
    rw [abs_div, abs_mul, abs_neg, abs_of_nonneg ht5, abs_of_pos (a := 3 + t) (by linarith), abs_two]
    have k : t ^ 2 ≤ ε ^ 2 := by rw [← sq_abs]; exact pow_le_pow_left₀ (abs_nonneg t) ht1 2
    have := mul_le_mul k (show 3 + t ≤ 3.02 by norm_num at *; linarith) (by linarith) (sq_nonneg ε)
    norm_num at *
    linarith
  have q2 : |(b - a) * ((1 + t) / 2)| ≤ 0.55 / 2 ^ 24 := by
    rw [abs_mul, abs_of_pos (a := (1 + t) / 2) (by positivity)]
    have k : |b - a| ≤ 1.072 / 2 ^ 24 := by
      have := abs_add_le b (-a)
      rw [abs_neg, ← sub_eq_add_neg] at this
      norm_num at *
      linarith
    refine (mul_le_mul k (show (1 + t) / 2 ≤ 0.508 by norm_num at *; linarith) (by positivity) (by norm_num)).trans ?_
    norm_num
  have q3 : |n * d| ≤ 0.02 / 2 ^ 24 := by
    rw [abs_mul]
    exact (mul_le_mul hnb D (abs_nonneg _) (by norm_num)).trans (by norm_num)
  have q4 : |S * (n * h + E)| ≤ 1.035 := by
    have k1 := abs_add_le (n * (S * h)) (S * E)
    have k2 : S * (n * h + E) = n * (S * h) + S * E := by ring
    rw [k2]
    refine k1.trans ?_
    rw [abs_mul, ht, abs_of_pos hy0]
    have k3 : |S * h| ≤ 0.51 := by
      rw [hSh]
      have := abs_add_le ((1 + t) / 2) d
      rw [abs_of_pos (a := (1 + t) / 2) (by positivity)] at this
      norm_num at *
      linarith
    have := mul_le_mul hnb k3 (abs_nonneg _) (by norm_num)
    norm_num at *
    linarith
  have C : |S * r - S * (n * h + E)| ≤ 1.04 / 2 ^ 24 := by
    rw [← mul_sub, abs_mul, abs_of_pos hS0]
    refine (mul_le_mul_of_nonneg_left hr hS0.le).trans ?_
    have e2 : S * (1 / 2 ^ 24 * |n * h + E| + 1 / 2 ^ 150) = 1 / 2 ^ 24 * |S * (n * h + E)| + S * (1 / 2 ^ 150) := by
      rw [abs_mul, abs_of_pos hS0]; ring
    rw [e2]
    norm_num at *
    linarith
  rw [hSum] at C
  rw [show 1 - S * r = -(S * r - (1 + (-(t ^ 2) * (3 + t) / 2 + (b - a) * ((1 + t) / 2) + n * d))) -
    (-(t ^ 2) * (3 + t) / 2) - (b - a) * ((1 + t) / 2) - n * d by ring]
  generalize S * r - (1 + (-(t ^ 2) * (3 + t) / 2 + (b - a) * ((1 + t) / 2) + n * d)) = c1 at *
  generalize -(t ^ 2) * (3 + t) / 2 = c2 at *
  generalize (b - a) * ((1 + t) / 2) = c3 at *
  generalize n * d = c4 at *
  generalize ε ^ 2 = e2 at *
  rw [abs_le] at C q1 q2 q3 ⊢
  norm_num at C q1 q2 q3 ⊢
  constructor <;> linarith

/-- A product with an approximation of the reciprocal root. -/
theorem root_product {S r v δ : ℝ} (hS1 : 1 / 2 ^ 50 ≤ S) (hδ : δ ≤ 1 / 32) (hr : |1 - S * r| ≤ δ)
    (hv : |v - S * S * r| ≤ 1 / 2 ^ 24 * |S * S * r| + 1 / 2 ^ 150) :
    |v - S| ≤ (δ + 1.1 / 2 ^ 24) * S := by
  have hS0 : 0 < S := lt_of_lt_of_le (by norm_num) hS1
  have e1 : S * S * r - S = -(1 - S * r) * S := by ring
  have k1 : |S * S * r - S| ≤ δ * S := by
    rw [e1, abs_mul, abs_neg, abs_of_pos hS0]; exact mul_le_mul_of_nonneg_right hr hS0.le
  have k2 : |S * S * r| ≤ 1.04 * S := by
    have := abs_add_le (S * S * r - S) S
    rw [sub_add_cancel, abs_of_pos hS0] at this
    have := mul_le_mul_of_nonneg_right hδ hS0.le
    norm_num at *
    linarith
  have k3 := abs_add_le (v - S * S * r) (S * S * r - S)
  rw [sub_add_sub_cancel] at k3
  have e2 : (δ + 1.1 / 2 ^ 24) * S = δ * S + 1.1 / 2 ^ 24 * S := by ring
  rw [e2]
  generalize δ * S = q at *
  generalize |S * S * r| = w at *
  norm_num at *
  linarith

end Nova
