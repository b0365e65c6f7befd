import Verif.Lemmas.TrigPoly

/-!
# The polynomial of `vec_tan_float`
-/

namespace Nova
open FP VecMath

/-- The polynomial of `vec_tan_float`, with its coefficients as real numbers. -/
noncomputable def tanP (x : ℝ) : ℝ :=
  x + x * (x * x) * (11184751 / 2 ^ 25 + x * x * (4475767 / 2 ^ 25 + x * x * (7168511 / 2 ^ 27 + x * x *
    (1639825 / 2 ^ 26 + x * x * (6684479 / 2 ^ 31 + x * x * (2520397 / 2 ^ 28))))))

/-- `1.7e-8 - (tanP * cosT - sinT)` -/
def tanLow : List ℚ := [17/1000000000, 0, 0, 179/100663296, 0, -56177/1006632960, 0, 5507659/9395240960, 0, -4333888379/1522029035520, 0, 945176437721/133938555125760, 0, -1069077179969/121762322841600, 0, 34988093827/7610145177600, 0, -1474409393/3805072588800, 0, 10107327833/779278866186240, 0, -1808001361/7792788661862400, 0, 2520397/974098582732800]
/-- `1.7e-8 + (tanP * cosT - sinT)` -/
def tanHigh : List ℚ := [17/1000000000, 0, 0, -179/100663296, 0, 56177/1006632960, 0, -5507659/9395240960, 0, 4333888379/1522029035520, 0, -945176437721/133938555125760, 0, 1069077179969/121762322841600, 0, -34988093827/7610145177600, 0, 1474409393/3805072588800, 0, -10107327833/779278866186240, 0, 1808001361/7792788661862400, 0, -2520397/974098582732800]
/-- `cosT - 0.7061` -/
def cosLarge : List ℚ := [2939/10000, 0, -1/2, 0, 1/24, 0, -1/720, 0, 1/40320, 0, -1/3628800]

theorem cos_large {x : ℝ} (h : |x| ≤ 0.7864) : 0.706 ≤ Real.cos x := by
  obtain ⟨h1, h2⟩ := abs_le.mp h
  have l : 0 ≤ Poly.eval cosLarge x := Poly.check_sound (n := 12) (l := -0.7864) (h := 0.7864) (by decide +kernel)
    (by norm_num at h1 ⊢; exact h1) (by norm_num at h2 ⊢; exact h2)
  have e : Poly.eval cosLarge x = cosT x - 7061 / 10000 := by
    simp only [cosLarge, Poly.eval_cons, Poly.eval_nil, cosT]; push_cast; ring
  rw [e] at l
  obtain ⟨t1, t2⟩ := abs_le.mp (cosT_error h)
  norm_num at *
  linarith

theorem tanP_bound {x : ℝ} (h : |x| ≤ 0.7864) : |tanP x| ≤ 1.1 := by
  have hz : x * x ≤ 0.7864 * 0.7864 := by rw [← abs_mul_abs_self]; exact mul_le_mul h h (abs_nonneg _) (by norm_num)
  have hz0 : 0 ≤ x * x := mul_self_nonneg x
  unfold tanP
  generalize hzv : x * x = z at *
  have a1 : 0 ≤ 11184751 / 2 ^ 25 + z * (4475767 / 2 ^ 25 + z * (7168511 / 2 ^ 27 + z *
    (1639825 / 2 ^ 26 + z * (6684479 / 2 ^ 31 + z * (2520397 / 2 ^ 28))))) := by positivity
  have a2 : 11184751 / 2 ^ 25 + z * (4475767 / 2 ^ 25 + z * (7168511 / 2 ^ 27 + z *
    (1639825 / 2 ^ 26 + z * (6684479 / 2 ^ 31 + z * (2520397 / 2 ^ 28))))) ≤ 0.45 := by
    calc _ ≤ (11184751 / 2 ^ 25 + (0.7864 * 0.7864) * (4475767 / 2 ^ 25 + (0.7864 * 0.7864) * (7168511 / 2 ^ 27 + (0.7864 * 0.7864) *
    (1639825 / 2 ^ 26 + (0.7864 * 0.7864) * (6684479 / 2 ^ 31 + (0.7864 * 0.7864) * (2520397 / 2 ^ 28))))) : ℝ) := by gcongr
      _ ≤ 0.45 := by norm_num
  generalize 11184751 / 2 ^ 25 + z * (4475767 / 2 ^ 25 + z * (7168511 / 2 ^ 27 + z *
    (1639825 / 2 ^ 26 + z * (6684479 / 2 ^ 31 + z * (2520397 / 2 ^ 28))))) = p at *
  rw [show x + x * z * p = x * (1 + z * p) by ring, abs_mul, abs_of_nonneg (a := 1 + z * p) (by positivity)]
  calc |x| * (1 + z * p) ≤ 0.7864 * (1 + (0.7864 * 0.7864) * 0.45) := by gcongr
    _ ≤ 1.1 := by norm_num

theorem tanP_error {x : ℝ} (h : |x| ≤ 0.7864) : |tanP x - Real.tan x| ≤ 25 / 10 ^ 9 := by
  obtain ⟨h1, h2⟩ := abs_le.mp h
  have l : 0 ≤ Poly.eval tanLow x := Poly.check_sound (n := 12) (l := -0.7864) (h := 0.7864) (by decide +kernel)
    (by norm_num at h1 ⊢; exact h1) (by norm_num at h2 ⊢; exact h2)
  have u : 0 ≤ Poly.eval tanHigh x := Poly.check_sound (n := 12) (l := -0.7864) (h := 0.7864) (by decide +kernel)
    (by norm_num at h1 ⊢; exact h1) (by norm_num at h2 ⊢; exact h2)
  have e1 : Poly.eval tanLow x = 17 / 10 ^ 9 - (tanP x * cosT x - sinT x) := by
    simp only [tanLow, Poly.eval_cons, Poly.eval_nil, cosT, sinT, tanP]; push_cast; ring
  have e2 : Poly.eval tanHigh x = 17 / 10 ^ 9 + (tanP x * cosT x - sinT x) := by
    simp only [tanHigh, Poly.eval_cons, Poly.eval_nil, cosT, sinT, tanP]; push_cast; ring
  rw [e1] at l
  rw [e2] at u
  have hc := cos_large h
  have hc0 : 0 < Real.cos x := by norm_num at hc; linarith
  have b1 : |tanP x * (Real.cos x - cosT x)| ≤ 1.1 * (2 / 10 ^ 10) := by
    rw [abs_mul]; exact mul_le_mul (tanP_bound h) (cosT_error h) (abs_nonneg _) (by norm_num)
  have b2 := sinT_error h
  have b3 : |tanP x * Real.cos x - Real.sin x| ≤ 175 / 10 ^ 10 := by
    rw [show tanP x * Real.cos x - Real.sin x = tanP x * (Real.cos x - cosT x) + (tanP x * cosT x - sinT x) -
      (Real.sin x - sinT x) by ring]
    rw [abs_le] at *
    norm_num at *
    constructor <;> linarith
  rw [Real.tan_eq_sin_div_cos, show tanP x - Real.sin x / Real.cos x =
    (tanP x * Real.cos x - Real.sin x) / Real.cos x by field_simp, abs_div, abs_of_pos hc0, div_le_iff₀ hc0]
  refine b3.trans ?_
  norm_num at *
  linarith

theorem tanPoly_track {V : LaneOps 32} (h : V.Ieee) {x : BitVec 32} {v : ℝ}
    (hx : Tr x v (4728/10^11) 0.7864) :
    Tr (tanPoly V x) (tanP v) (3759/2^34) (2053/2^11) := by
  have t1 := Tr.mul (D := 1267/2^11) (E := 3823/2^35) hx hx (by norm_num) (by norm_num) (by norm_num)
  have t2 := Tr.const (x := litD 9.3892104923725128173828125e-3) (2520397/2^28) (1231/2^17) (by decide +kernel) (by norm_num)
  have t3 := Tr.const (x := litD 3.1127030961215496063232421875e-3) (6684479/2^31) (51/2^14) (by decide +kernel) (by norm_num)
  have t4 := Tr.const (x := litD 2.443529665470123291015625e-2) (1639825/2^26) (3203/2^17) (by decide +kernel) (by norm_num)
  have t5 := Tr.const (x := litD 5.3409568965435028076171875e-2) (7168511/2^27) (3501/2^16) (by decide +kernel) (by norm_num)
  have t6 := Tr.const (x := litD 0.1333882510662078857421875) (4475767/2^25) (1093/2^13) (by decide +kernel) (by norm_num)
  have t7 := Tr.const (x := litD 0.3333315551280975341796875) (11184751/2^25) (2731/2^13) (by decide +kernel) (by norm_num)
  have t8 := Tr.mul (D := 3047/2^19) (E := 765/2^39) t1 t2 (by norm_num) (by norm_num) (by norm_num)
  have t9 := Tr.add (D := 585/2^16) (E := 529/2^38) t3 t8 (by norm_num) (by norm_num) (by norm_num)
  have t10 := Tr.mul (D := 181/2^15) (E := 691/2^38) t1 t9 (by norm_num) (by norm_num) (by norm_num)
  have t11 := Tr.add (D := 3927/2^17) (E := 591/2^37) t4 t10 (by norm_num) (by norm_num) (by norm_num)
  have t12 := Tr.mul (D := 1215/2^16) (E := 3903/2^39) t1 t11 (by norm_num) (by norm_num) (by norm_num)
  have t13 := Tr.add (D := 1179/2^14) (E := 3131/2^38) t5 t12 (by norm_num) (by norm_num) (by norm_num)
  have t14 := Tr.mul (D := 1459/2^15) (E := 1217/2^36) t1 t13 (by norm_num) (by norm_num) (by norm_num)
  have t15 := Tr.add (D := 729/2^12) (E := 3893/2^37) t6 t14 (by norm_num) (by norm_num) (by norm_num)
  have t16 := Tr.mul (D := 451/2^12) (E := 3017/2^36) t1 t15 (by norm_num) (by norm_num) (by norm_num)
  have t17 := Tr.add (D := 3633/2^13) (E := 2417/2^35) t7 t16 (by norm_num) (by norm_num) (by norm_num)
  have t18 := Tr.mul (D := 1993/2^12) (E := 313/2^31) hx t1 (by norm_num) (by norm_num) (by norm_num)
  have t19 := Tr.mul (D := 221/2^10) (E := 15/2^27) t18 t17 (by norm_num) (by norm_num) (by norm_num)
  have t20 := Tr.add (D := 2053/2^11) (E := 3759/2^34) hx t19 (by norm_num) (by norm_num) (by norm_num)
  unfold tanPoly
  dsimp only
  rw [h.add, h.mul]
  refine t20.congr ?_
  unfold tanP
  push_cast
  ring

end Nova
