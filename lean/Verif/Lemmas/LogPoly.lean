import Verif.Analysis.Poly
import Verif.Lemmas.IeeeClass
import Mathlib.Analysis.SpecialFunctions.Log.Deriv

/-!
# The polynomial of `vec_log_float`
-/

namespace Nova
open FP VecMath

/-- The inner polynomial of `vec_log_float`, with its coefficients as real numbers. -/
noncomputable def logQ (x : ℝ) : ℝ :=
  (((((((9445819 / 2 ^ 27 * x - 1931831 / 2 ^ 24) * x + 7836301 / 2 ^ 26) * x - 16670031 / 2 ^ 27) * x +
    9562559 / 2 ^ 26) * x - 699109 / 2 ^ 22) * x + 3355563 / 2 ^ 24) * x - 4194303 / 2 ^ 24) * x + 5592405 / 2 ^ 24

/-- The approximation of `log (1 + x)`. -/
noncomputable def logP (x : ℝ) : ℝ := x + (logQ x * x * x * x - 1 / 2 * x * x)

/-- The Taylor polynomial of `log (1 + x)` of degree 28, divided by `x`. -/
def logTs : List ℚ := [1, -1/2, 1/3, -1/4, 1/5, -1/6, 1/7, -1/8, 1/9, -1/10, 1/11, -1/12, 1/13, -1/14, 1/15, -1/16, 1/17, -1/18, 1/19, -1/20, 1/21, -1/22, 1/23, -1/24, 1/25, -1/26, 1/27, -1/28]
/-- `3.9e-9 - (logP x / x - T x / x)` -/
def logLow : List ℚ := [39/10000000000, 0, 1/50331648, -1/16777216, -599/83886080, 175/12582912, 170951/469762048, -107185/134217728, -3417845/603979776, 1270547/83886080, 30313719/1476395008, -1/12, 1/13, -1/14, 1/15, -1/16, 1/17, -1/18, 1/19, -1/20, 1/21, -1/22, 1/23, -1/24, 1/25, -1/26, 1/27, -1/28]
/-- `3.9e-9 + (logP x / x - T x / x)` -/
def logHigh : List ℚ := [39/10000000000, 0, -1/50331648, 1/16777216, 599/83886080, -175/12582912, -170951/469762048, 107185/134217728, 3417845/603979776, -1270547/83886080, -30313719/1476395008, 1/12, -1/13, 1/14, -1/15, 1/16, -1/17, 1/18, -1/19, 1/20, -1/21, 1/22, -1/23, 1/24, -1/25, 1/26, -1/27, 1/28]
/-- `T x / x - 0.8364` -/
def logTLow : List ℚ := [409/2500, -1/2, 1/3, -1/4, 1/5, -1/6, 1/7, -1/8, 1/9, -1/10, 1/11, -1/12, 1/13, -1/14, 1/15, -1/16, 1/17, -1/18, 1/19, -1/20, 1/21, -1/22, 1/23, -1/24, 1/25, -1/26, 1/27, -1/28]
/-- `1.185 - T x / x` -/
def logTHigh : List ℚ := [37/200, 1/2, -1/3, 1/4, -1/5, 1/6, -1/7, 1/8, -1/9, 1/10, -1/11, 1/12, -1/13, 1/14, -1/15, 1/16, -1/17, 1/18, -1/19, 1/20, -1/21, 1/22, -1/23, 1/24, -1/25, 1/26, -1/27, 1/28]

theorem logT_error {x : ℝ} (h1 : -0.29290 ≤ x) (h2 : x ≤ 0.41422) :
    |Real.log (1 + x) - x * Poly.eval logTs x| ≤ 1 / 10 ^ 10 * |x| := by
  have ha : |x| ≤ 0.41422 := by rw [abs_le]; norm_num at *; constructor <;> linarith
  have := Real.abs_log_sub_add_sum_range_le (x := -x) (by rw [abs_neg]; exact lt_of_le_of_lt ha (by norm_num)) 28
  rw [abs_neg, sub_neg_eq_add] at this
  have e : (∑ i ∈ Finset.range 28, (-x) ^ (i + 1) / ((i : ℝ) + 1)) = -(x * Poly.eval logTs x) := by
    simp only [Finset.sum_range_succ, Finset.sum_range_zero, logTs, Poly.eval_cons, Poly.eval_nil]
    push_cast
    ring
  rw [e, neg_add_eq_sub] at this
  refine this.trans ?_
  rw [pow_succ, mul_div_assoc, mul_comm, div_mul_eq_mul_div, div_le_iff₀ (by norm_num at ha ⊢; linarith)]
  have h3 : |x| ^ 28 ≤ 0.41422 ^ 28 := pow_le_pow_left₀ (abs_nonneg _) ha 28
  have h4 : |x| * |x| ^ 28 ≤ |x| * 0.41422 ^ 28 := mul_le_mul_of_nonneg_left h3 (abs_nonneg _)
  have h5 : |x| * |x| ≤ |x| * 0.41422 := mul_le_mul_of_nonneg_left ha (abs_nonneg _)
  have h0 := abs_nonneg x
  clear this e
  generalize |x| = s at *
  have h6 : (0.41422 : ℝ) ^ 28 ≤ 5 / 10 ^ 11 := by norm_num
  have h7 : s * 0.41422 ^ 28 ≤ s * (5 / 10 ^ 11) := mul_le_mul_of_nonneg_left h6 h0
  have h8 : 1 / 10 ^ 10 * s * (1 - s) = 1 / 10 ^ 10 * s - 1 / 10 ^ 10 * (s * s) := by ring
  rw [h8]
  norm_num at h4 h5 h7 ⊢
  linarith

/-- `log (1 + x)` is between `0.8363 x` and `1.186 x` in magnitude. -/
theorem log_size {x : ℝ} (h1 : -0.29290 ≤ x) (h2 : x ≤ 0.41422) :
    0.8363 * |x| ≤ |Real.log (1 + x)| ∧ |Real.log (1 + x)| ≤ 1.186 * |x| := by
  have l : 0 ≤ Poly.eval logTLow x := Poly.check_sound (n := 14) (l := -0.29290) (h := 0.41422) (by decide +kernel)
    (by norm_num at h1 ⊢; exact h1) (by norm_num at h2 ⊢; exact h2)
  have u : 0 ≤ Poly.eval logTHigh x := Poly.check_sound (n := 14) (l := -0.29290) (h := 0.41422) (by decide +kernel)
    (by norm_num at h1 ⊢; exact h1) (by norm_num at h2 ⊢; exact h2)
  have e1 : Poly.eval logTLow x = Poly.eval logTs x - 8364 / 10000 := by
    simp only [logTLow, logTs, Poly.eval_cons, Poly.eval_nil]; push_cast; ring
  have e2 : Poly.eval logTHigh x = 1185 / 1000 - Poly.eval logTs x := by
    simp only [logTHigh, logTs, Poly.eval_cons, Poly.eval_nil]; push_cast; ring
  rw [e1] at l
  rw [e2] at u
  have t := logT_error h1 h2
  generalize Poly.eval logTs x = r at *
  have hr : |x * r| = |x| * r := by rw [abs_mul, abs_of_nonneg (a := r) (by linarith)]
  have a1 := abs_sub_abs_le_abs_sub (Real.log (1 + x)) (x * r)
  have a2 := abs_sub_abs_le_abs_sub (x * r) (Real.log (1 + x))
  rw [abs_sub_comm] at a2
  rw [hr] at a1 a2
  have h0 := abs_nonneg x
  have b1 : |x| * (8364 / 10000) ≤ |x| * r := mul_le_mul_of_nonneg_left (by linarith) h0
  have b2 : |x| * r ≤ |x| * (1185 / 1000) := mul_le_mul_of_nonneg_left (by linarith) h0
  generalize |x| = s at *
  generalize |Real.log (1 + x)| = L at *
  norm_num at *
  constructor <;> linarith

theorem logP_error {x : ℝ} (h1 : -0.29290 ≤ x) (h2 : x ≤ 0.41422) :
    |logP x - Real.log (1 + x)| ≤ 4 / 10 ^ 9 * |x| := by
  have l : 0 ≤ Poly.eval logLow x := Poly.check_sound (n := 14) (l := -0.29290) (h := 0.41422) (by decide +kernel)
    (by norm_num at h1 ⊢; exact h1) (by norm_num at h2 ⊢; exact h2)
  have u : 0 ≤ Poly.eval logHigh x := Poly.check_sound (n := 14) (l := -0.29290) (h := 0.41422) (by decide +kernel)
    (by norm_num at h1 ⊢; exact h1) (by norm_num at h2 ⊢; exact h2)
  have e1 : x * Poly.eval logLow x = 39 / 10 ^ 10 * x - (logP x - x * Poly.eval logTs x) := by
    simp only [logLow, logTs, Poly.eval_cons, Poly.eval_nil, logP, logQ]; push_cast; ring
  have e2 : Poly.eval logLow x + Poly.eval logHigh x = 78 / 10 ^ 10 := by
    simp only [logLow, logHigh, Poly.eval_cons, Poly.eval_nil]; push_cast; ring
  have hq : |39 / 10 ^ 10 - Poly.eval logLow x| ≤ 39 / 10 ^ 10 := by
    rw [abs_le]; constructor <;> linarith
  have hd : |logP x - x * Poly.eval logTs x| ≤ 39 / 10 ^ 10 * |x| := by
    rw [show logP x - x * Poly.eval logTs x = (39 / 10 ^ 10 - Poly.eval logLow x) * x by linarith, abs_mul]
    exact mul_le_mul_of_nonneg_right hq (abs_nonneg _)
  have t := logT_error h1 h2
  have := abs_add_le (logP x - x * Poly.eval logTs x) (x * Poly.eval logTs x - Real.log (1 + x))
  rw [sub_add_sub_cancel, abs_sub_comm (x * Poly.eval logTs x)] at this
  have h0 := abs_nonneg x
  norm_num at *
  linarith

/-- The inner polynomial of `vec_log_float` (detail/vec_math.hpp:182-190). -/
def logHorner (V : LaneOps 32) (x : BitVec 32) : BitVec 32 :=
  let p := V.sub (V.mul (litD 7.0376836292e-2) x) (litD 1.1514610310e-1)
  let p := V.add (V.mul p x) (litD 1.1676998740e-1)
  let p := V.sub (V.mul p x) (litD 1.2420140846e-1)
  let p := V.add (V.mul p x) (litD 1.4249322787e-1)
  let p := V.sub (V.mul p x) (litD 1.6668057665e-1)
  let p := V.add (V.mul p x) (litD 2.0000714765e-1)
  let p := V.sub (V.mul p x) (litD 2.4999993993e-1)
  V.add (V.mul p x) (litD 3.3333331174e-1)

theorem logPoly_eq (V : LaneOps 32) (x : BitVec 32) :
    logPoly V x = V.mul (V.mul (V.mul (logHorner V x) x) x) x := rfl

theorem logHorner_track {V : LaneOps 32} (h : V.Ieee) {x : BitVec 32} {v : ℝ} (ht : Tr x v 0 0.41422) :
    Tr (logHorner V x) (logQ v) (989/2^34) (1003/2^11) := by
  have t1 := Tr.const (x := litD 7.0376836292e-2) (9445819/2^27) (2307/2^15) (by decide +kernel) (by norm_num)
  have t2 := Tr.const (x := litD 1.1514610310e-1) (1931831/2^24) (1887/2^14) (by decide +kernel) (by norm_num)
  have t3 := Tr.const (x := litD 1.1676998740e-1) (7836301/2^26) (3827/2^15) (by decide +kernel) (by norm_num)
  have t4 := Tr.const (x := litD 1.2420140846e-1) (16670031/2^27) (2035/2^14) (by decide +kernel) (by norm_num)
  have t5 := Tr.const (x := litD 1.4249322787e-1) (9562559/2^26) (2335/2^14) (by decide +kernel) (by norm_num)
  have t6 := Tr.const (x := litD 1.6668057665e-1) (699109/2^22) (2731/2^14) (by decide +kernel) (by norm_num)
  have t7 := Tr.const (x := litD 2.0000714765e-1) (3355563/2^24) (3277/2^14) (by decide +kernel) (by norm_num)
  have t8 := Tr.const (x := litD 2.4999993993e-1) (4194303/2^24) (1/2^2) (by decide +kernel) (by norm_num)
  have t9 := Tr.const (x := litD 3.3333331174e-1) (5592405/2^24) (2731/2^13) (by decide +kernel) (by norm_num)
  have t10 := Tr.mul (D := 3823/2^17) (E := 239/2^37) t1 ht (by norm_num) (by norm_num) (by norm_num)
  have t11 := Tr.sub (D := 2365/2^14) (E := 711/2^36) t10 t2 (by norm_num) (by norm_num) (by norm_num)
  have t12 := Tr.mul (D := 3919/2^16) (E := 1079/2^37) t11 ht (by norm_num) (by norm_num) (by norm_num)
  have t13 := Tr.add (D := 1447/2^13) (E := 2527/2^37) t12 t3 (by norm_num) (by norm_num) (by norm_num)
  have t14 := Tr.mul (D := 1199/2^14) (E := 3293/2^38) t13 ht (by norm_num) (by norm_num) (by norm_num)
  have t15 := Tr.sub (D := 1617/2^13) (E := 51/2^31) t14 t4 (by norm_num) (by norm_num) (by norm_num)
  have t16 := Tr.mul (D := 335/2^12) (E := 4045/2^38) t15 ht (by norm_num) (by norm_num) (by norm_num)
  have t17 := Tr.add (D := 3675/2^14) (E := 3861/2^37) t16 t5 (by norm_num) (by norm_num) (by norm_num)
  have t18 := Tr.mul (D := 3045/2^15) (E := 2361/2^37) t17 ht (by norm_num) (by norm_num) (by norm_num)
  have t19 := Tr.sub (D := 2127/2^13) (E := 2245/2^36) t18 t6 (by norm_num) (by norm_num) (by norm_num)
  have t20 := Tr.mul (D := 3525/2^15) (E := 1371/2^36) t19 ht (by norm_num) (by norm_num) (by norm_num)
  have t21 := Tr.add (D := 315/2^10) (E := 329/2^33) t20 t7 (by norm_num) (by norm_num) (by norm_num)
  have t22 := Tr.mul (D := 261/2^11) (E := 3225/2^37) t21 ht (by norm_num) (by norm_num) (by norm_num)
  have t23 := Tr.sub (D := 773/2^11) (E := 3159/2^36) t22 t8 (by norm_num) (by norm_num) (by norm_num)
  have t24 := Tr.mul (D := 1281/2^13) (E := 3899/2^37) t23 ht (by norm_num) (by norm_num) (by norm_num)
  have t25 := Tr.add (D := 1003/2^11) (E := 989/2^34) t24 t9 (by norm_num) (by norm_num) (by norm_num)
  unfold logHorner
  dsimp only
  rw [h.add, h.mul, h.sub]
  refine t25.congr ?_
  unfold logQ
  push_cast
  ring

end Nova
