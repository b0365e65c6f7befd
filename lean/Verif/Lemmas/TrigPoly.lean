import Verif.Analysis.Poly
import Verif.Lemmas.IeeeClass
import Mathlib.Analysis.Complex.Exponential
import Mathlib.Analysis.Complex.Trigonometric
import Mathlib.Analysis.Complex.Norm
import Mathlib.Tactic.LinearCombination

/-!
# The polynomials of `vec_sin_float` and `vec_cos_float`
-/

namespace Nova
open FP VecMath

/-! ## Taylor polynomials -/

/-- The Taylor polynomial of sin of degree 11. -/
noncomputable def sinT (x : ℝ) : ℝ :=
  x - x ^ 3 / 6 + x ^ 5 / 120 - x ^ 7 / 5040 + x ^ 9 / 362880 - x ^ 11 / 39916800

/-- The Taylor polynomial of cos of degree 10. -/
noncomputable def cosT (x : ℝ) : ℝ :=
  1 - x ^ 2 / 2 + x ^ 4 / 24 - x ^ 6 / 720 + x ^ 8 / 40320 - x ^ 10 / 3628800

theorem trigT_error {x : ℝ} (h : |x| ≤ 0.7864) :
    ‖Complex.exp (x * Complex.I) - ((cosT x : ℝ) + (sinT x : ℝ) * Complex.I)‖ ≤ 2 / 10 ^ 10 := by
  have hn : ‖(x : ℂ) * Complex.I‖ = |x| := by
    rw [Complex.norm_mul, Complex.norm_I, mul_one, Complex.norm_real, Real.norm_eq_abs]
  have := Complex.exp_bound (x := x * Complex.I) (by rw [hn]; exact h.trans (by norm_num)) (n := 12) (by norm_num)
  rw [hn] at this
  have I2 : Complex.I ^ 2 = -1 := Complex.I_sq
  have I3 : Complex.I ^ 3 = -Complex.I := by linear_combination Complex.I * I2
  have I4 : Complex.I ^ 4 = 1 := by linear_combination (Complex.I ^ 2 - 1) * I2
  have I5 : Complex.I ^ 5 = Complex.I := by linear_combination Complex.I * I4
  have I6 : Complex.I ^ 6 = -1 := by linear_combination Complex.I ^ 2 * I4 + I2
  have I7 : Complex.I ^ 7 = -Complex.I := by linear_combination Complex.I ^ 3 * I4 + I3
  have I8 : Complex.I ^ 8 = 1 := by linear_combination Complex.I ^ 4 * I4 + I4
  have I9 : Complex.I ^ 9 = Complex.I := by linear_combination Complex.I ^ 5 * I4 + I5
  have I10 : Complex.I ^ 10 = -1 := by linear_combination Complex.I ^ 6 * I4 + I6
  have I11 : Complex.I ^ 11 = -Complex.I := by linear_combination Complex.I ^ 7 * I4 + I7
  have e : (∑ m ∈ Finset.range 12, ((x : ℂ) * Complex.I) ^ m / m.factorial) =
      (cosT x : ℝ) + (sinT x : ℝ) * Complex.I := by
    simp only [Finset.sum_range_succ, Finset.sum_range_zero, mul_pow, I2, I3, I4, I5, I6, I7, I8, I9, I10, I11,
      Nat.factorial, cosT, sinT]
    push_cast
    ring
  rw [e] at this
  refine this.trans ?_
  have h2 : |x| ^ 12 ≤ 0.7864 ^ 12 := pow_le_pow_left₀ (abs_nonneg _) h 12
  refine (mul_le_mul_of_nonneg_right h2 (by positivity)).trans ?_
  norm_num [Nat.factorial]

theorem cosT_error {x : ℝ} (h : |x| ≤ 0.7864) : |Real.cos x - cosT x| ≤ 2 / 10 ^ 10 := by
  refine le_trans ?_ (trigT_error h)
  refine le_trans (le_of_eq ?_) (Complex.abs_re_le_norm _)
  rw [Complex.sub_re, Complex.add_re, Complex.ofReal_re, Complex.re_ofReal_mul, Complex.I_re, mul_zero, add_zero,
    Complex.exp_ofReal_mul_I_re]

theorem sinT_error {x : ℝ} (h : |x| ≤ 0.7864) : |Real.sin x - sinT x| ≤ 2 / 10 ^ 10 := by
  refine le_trans ?_ (trigT_error h)
  refine le_trans (le_of_eq ?_) (Complex.abs_im_le_norm _)
  rw [Complex.sub_im, Complex.add_im, Complex.ofReal_im, Complex.im_ofReal_mul, Complex.I_im, mul_one, zero_add,
    Complex.exp_ofReal_mul_I_im]

/-! ## The polynomials in real arithmetic -/

/-- `p2` of `vec_sin_float`, with its coefficients as real numbers. -/
noncomputable def sinP (x : ℝ) : ℝ :=
  ((-13410809 / 2 ^ 36 * (x * x) + 4473295 / 2 ^ 29) * (x * x) - 11184803 / 2 ^ 26) * (x * x) * x + x

/-- `p1` of `vec_sin_float`, with its coefficients as real numbers. -/
noncomputable def cosP (x : ℝ) : ℝ :=
  ((6716135 / 2 ^ 38 * (x * x) - 5964557 / 2 ^ 32) * (x * x) + 11184805 / 2 ^ 28) * (x * x) * (x * x) -
    1 / 2 * (x * x) + 1

/-- `7e-9 - (P - T) - 2e-10` -/
def sinLow : List ℚ := [17/2500000000, 0, 0, -23/201326592, 0, 9439/8053063680, 0, -70562461/21646635171840, 0, 1/362880, 0, -1/39916800]
/-- `7e-9 + (P - T) - 2e-10` -/
def sinHigh : List ℚ := [17/2500000000, 0, 0, 23/201326592, 0, -9439/8053063680, 0, 70562461/21646635171840, 0, -1/362880, 0, 1/39916800]
/-- `1e-9 - (P - T) - 2e-10` -/
def cosLow : List ℚ := [1/1250000000, 0, 0, 0, 17/805306368, 0, -30391/193273528320, 0, 31901123/86586540687360, 0, -1/3628800, 0]
/-- `1e-9 + (P - T) - 2e-10` -/
def cosHigh : List ℚ := [1/1250000000, 0, 0, 0, -17/805306368, 0, 30391/193273528320, 0, -31901123/86586540687360, 0, 1/3628800, 0]

theorem sinP_error {x : ℝ} (h : |x| ≤ 0.7864) : |sinP x - Real.sin x| ≤ 7 / 10 ^ 9 := by
  obtain ⟨h1, h2⟩ := abs_le.mp h
  have l : 0 ≤ Poly.eval sinLow x := Poly.check_sound (n := 12) (l := -0.7864) (h := 0.7864) (by decide +kernel)
    (by norm_num at h1 ⊢; exact h1) (by norm_num at h2 ⊢; exact h2)
  have u : 0 ≤ Poly.eval sinHigh x := Poly.check_sound (n := 12) (l := -0.7864) (h := 0.7864) (by decide +kernel)
    (by norm_num at h1 ⊢; exact h1) (by norm_num at h2 ⊢; exact h2)
  obtain ⟨t1, t2⟩ := abs_le.mp (sinT_error h)
  have e1 : Poly.eval sinLow x = 7 / 10 ^ 9 - (sinP x - sinT x) - 2 / 10 ^ 10 := by
    simp only [sinLow, Poly.eval_cons, Poly.eval_nil, sinT, sinP]; push_cast; ring
  have e2 : Poly.eval sinHigh x = 7 / 10 ^ 9 + (sinP x - sinT x) - 2 / 10 ^ 10 := by
    simp only [sinHigh, Poly.eval_cons, Poly.eval_nil, sinT, sinP]; push_cast; ring
  rw [e1] at l
  rw [e2] at u
  rw [abs_le]
  constructor <;> linarith

theorem cosP_error {x : ℝ} (h : |x| ≤ 0.7864) : |cosP x - Real.cos x| ≤ 1 / 10 ^ 9 := by
  obtain ⟨h1, h2⟩ := abs_le.mp h
  have l : 0 ≤ Poly.eval cosLow x := Poly.check_sound (n := 12) (l := -0.7864) (h := 0.7864) (by decide +kernel)
    (by norm_num at h1 ⊢; exact h1) (by norm_num at h2 ⊢; exact h2)
  have u : 0 ≤ Poly.eval cosHigh x := Poly.check_sound (n := 12) (l := -0.7864) (h := 0.7864) (by decide +kernel)
    (by norm_num at h1 ⊢; exact h1) (by norm_num at h2 ⊢; exact h2)
  obtain ⟨t1, t2⟩ := abs_le.mp (cosT_error h)
  have e1 : Poly.eval cosLow x = 1 / 10 ^ 9 - (cosP x - cosT x) - 2 / 10 ^ 10 := by
    simp only [cosLow, Poly.eval_cons, Poly.eval_nil, cosT, cosP]; push_cast; ring
  have e2 : Poly.eval cosHigh x = 1 / 10 ^ 9 + (cosP x - cosT x) - 2 / 10 ^ 10 := by
    simp only [cosHigh, Poly.eval_cons, Poly.eval_nil, cosT, cosP]; push_cast; ring
  rw [e1] at l
  rw [e2] at u
  rw [abs_le]
  constructor <;> linarith

/-! ## The polynomials in float arithmetic -/

theorem trig_square {x : BitVec 32} {v : ℝ} (hx : Tr x v (4728/10^11) 0.7864) :
    Tr (binary32.mul x x) (v * v) (3823/2^35) (1267/2^11) :=
  Tr.mul hx hx (by norm_num) (by norm_num) (by norm_num)

theorem sinPoly_track {V : LaneOps 32} (h : V.Ieee) {x : BitVec 32} {v : ℝ}
    (hx : Tr x v (4728/10^11) 0.7864) :
    Tr (sinPoly V (V.mul x x) x) (sinP v) (2319/2^34) (891/2^10) := by
  have t1 := Tr.mul (D := 1267/2^11) (E := 3823/2^35) hx hx (by norm_num) (by norm_num) (by norm_num)
  have t2 := Tr.const (x := litD (-1.9515295891e-4)) (-13410809/2^36) (3275/2^24) (by decide +kernel) (by norm_num)
  have t3 := Tr.const (x := litD 8.3321608736e-3) (4473295/2^29) (2185/2^18) (by decide +kernel) (by norm_num)
  have t4 := Tr.const (x := litD 1.6666654611e-1) (11184803/2^26) (2731/2^14) (by decide +kernel) (by norm_num)
  have t5 := Tr.mul (D := 4053/2^25) (E := 2035/2^46) t2 t1 (by norm_num) (by norm_num) (by norm_num)
  have t6 := Tr.add (D := 2217/2^18) (E := 2345/2^42) t5 t3 (by norm_num) (by norm_num) (by norm_num)
  have t7 := Tr.mul (D := 343/2^16) (E := 3481/2^41) t6 t1 (by norm_num) (by norm_num) (by norm_num)
  have t8 := Tr.sub (D := 2817/2^14) (E := 3253/2^38) t7 t4 (by norm_num) (by norm_num) (by norm_num)
  have t9 := Tr.mul (D := 1743/2^14) (E := 1127/2^35) t8 t1 (by norm_num) (by norm_num) (by norm_num)
  have t10 := Tr.mul (D := 1371/2^14) (E := 2461/2^36) t9 hx (by norm_num) (by norm_num) (by norm_num)
  have t11 := Tr.add (D := 891/2^10) (E := 2319/2^34) t10 hx (by norm_num) (by norm_num) (by norm_num)
  unfold sinPoly
  rw [h.add, h.mul, h.sub]
  refine t11.congr ?_
  unfold sinP
  push_cast
  ring

theorem cosPoly_track {V : LaneOps 32} (h : V.Ieee) {x : BitVec 32} {v : ℝ}
    (hx : Tr x v (4728/10^11) 0.7864) :
    Tr (cosPoly V (V.mul x x)) (cosP v) (3117/2^34) (2715/2^11) := by
  have hz := trig_square hx
  have t1 := Tr.const (x := litD 2.443315711809948e-5) (6716135/2^38) (205/2^23) (by decide +kernel) (by norm_num)
  have t2 := Tr.const (x := litD 1.388731625493765e-3) (5964557/2^32) (2913/2^21) (by decide +kernel) (by norm_num)
  have t3 := Tr.const (x := litD 4.166664568298827e-2) (11184805/2^28) (2731/2^16) (by decide +kernel) (by norm_num)
  have t4 := Tr.const (x := litF 0.5) (1/2^1) (1/2^1) (by decide +kernel) (by norm_num)
  have t5 := Tr.const (x := litD 1) (1) (1) (by decide +kernel) (by norm_num)
  have t6 := Tr.mul (D := 4059/2^28) (E := 4077/2^50) t1 hz (by norm_num) (by norm_num) (by norm_num)
  have t7 := Tr.sub (D := 2945/2^21) (E := 3073/2^45) t6 t2 (by norm_num) (by norm_num) (by norm_num)
  have t8 := Tr.mul (D := 911/2^20) (E := 1153/2^42) t7 hz (by norm_num) (by norm_num) (by norm_num)
  have t9 := Tr.add (D := 697/2^14) (E := 3077/2^40) t8 t3 (by norm_num) (by norm_num) (by norm_num)
  have t10 := Tr.mul (D := 1725/2^16) (E := 2209/2^38) t9 hz (by norm_num) (by norm_num) (by norm_num)
  have t11 := Tr.mul (D := 2135/2^17) (E := 2439/2^38) t10 hz (by norm_num) (by norm_num) (by norm_num)
  have t12 := Tr.mul (D := 1267/2^12) (E := 1273/2^34) t4 hz (by norm_num) (by norm_num) (by norm_num)
  have t13 := Tr.sub (D := 667/2^11) (E := 1759/2^34) t11 t12 (by norm_num) (by norm_num) (by norm_num)
  have t14 := Tr.add (D := 2715/2^11) (E := 3117/2^34) t13 t5 (by norm_num) (by norm_num) (by norm_num)
  unfold cosPoly
  rw [h.add, h.mul, h.sub]
  refine t14.congr ?_
  unfold cosP
  push_cast
  ring

end Nova
