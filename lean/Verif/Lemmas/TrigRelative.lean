import Verif.Lemmas.Quiet

/-!
# Relative errors of `sin`, `cos` and `tan`
-/

namespace Nova
open FP VecMath

/-! ## The polynomials relative to their argument -/

/-- `77e-10 - (sinP - sinT) / x` -/
def sinRelLow : List ℚ := [77/10000000000, 0, -23/201326592, 0, 9439/8053063680, 0, -70562461/21646635171840, 0, 1/362880, 0, -1/39916800]
/-- `77e-10 + (sinP - sinT) / x` -/
def sinRelHigh : List ℚ := [77/10000000000, 0, 23/201326592, 0, -9439/8053063680, 0, 70562461/21646635171840, 0, -1/362880, 0, 1/39916800]
/-- `205e-10 - (tanP * cosT - sinT) / x` -/
def tanRelLow : List ℚ := [41/2000000000, 0, 179/100663296, 0, -56177/1006632960, 0, 5507659/9395240960, 0, -4333888379/1522029035520, 0, 945176437721/133938555125760, 0, -1069077179969/121762322841600, 0, 34988093827/7610145177600, 0, -1474409393/3805072588800, 0, 10107327833/779278866186240, 0, -1808001361/7792788661862400, 0, 2520397/974098582732800]
/-- `205e-10 + (tanP * cosT - sinT) / x` -/
def tanRelHigh : List ℚ := [41/2000000000, 0, -179/100663296, 0, 56177/1006632960, 0, -5507659/9395240960, 0, 4333888379/1522029035520, 0, -945176437721/133938555125760, 0, 1069077179969/121762322841600, 0, -34988093827/7610145177600, 0, 1474409393/3805072588800, 0, -10107327833/779278866186240, 0, 1808001361/7792788661862400, 0, -2520397/974098582732800]

theorem trigT_rel {x : ℝ} (h : |x| ≤ 0.7865) :
    ‖Complex.exp (x * Complex.I) - ((cosT x : ℝ) + (sinT x : ℝ) * Complex.I)‖ ≤ 3 / 10 ^ 10 * |x| := by
  have hn : ‖(x : ℂ) * Complex.I‖ = |x| := by
    rw [Complex.norm_mul, Complex.norm_I, mul_one, Complex.norm_real, Real.norm_eq_abs]
  have := Complex.exp_bound (x := x * Complex.I) (by rw [hn]; exact h.trans (by norm_num)) (n := 12) (by norm_num)
  rw [hn] at this
  have I2 : Complex.I ^ 2 = -1 := Complex.I_sq
  have I3 : Complex.I ^ 3 = -Complex.I := by linear_combination Complex.I * I2
  have I4 : Complex.I ^ 4 = 1 := by linear_combination (Complex.I ^ 2 - 1) * I2
  have I5 : Complex.I ^ 5 = Complex.I := by linear_combination Complex.I * I4
  have I6 : Complex.I ^ 6 = -1 := by linear_combination Complex.I ^ 2 * I4 + I2
  have I7 : Complex.I ^ 7 = -Complex.I := by linear_combination Complex.I ^ 3 * I4 + I3
  have I8 : Complex.I ^ 8 = 1 := by linear_combination Complex.I ^ 4 * I4 + I4
  have I9 : Complex.I ^ 9 = Complex.I := by linear_combination Complex.I ^ 5 * I4 + I5
  have I10 : Complex.I ^ 10 = -1 := by linear_combination Complex.I ^ 6 * I4 + I6
  have I11 : Complex.I ^ 11 = -Complex.I := by linear_combination Complex.I ^ 7 * I4 + I7
  have e : (∑ m ∈ Finset.range 12, ((x : ℂ) * Complex.I) ^ m / m.factorial) =
      (cosT x : ℝ) + (sinT x : ℝ) * Complex.I := by
    simp only [Finset.sum_range_succ, Finset.sum_range_zero, mul_pow, I2, I3, I4, I5, I6, I7, I8, I9, I10, I11,
      Nat.factorial, cosT, sinT]
    push_cast
    ring
  rw [e] at this
  refine this.trans ?_
  have h0 := abs_nonneg x
  have h2 : |x| ^ 11 ≤ 0.7865 ^ 11 := pow_le_pow_left₀ h0 h 11
  have h3 : |x| ^ 12 ≤ 0.7865 ^ 11 * |x| := by rw [pow_succ]; exact mul_le_mul_of_nonneg_right h2 h0
  refine (mul_le_mul_of_nonneg_right h3 (by positivity)).trans ?_
  generalize |x| = y at *
  norm_num [Nat.factorial]
  linarith

theorem cosT_rel {x : ℝ} (h : |x| ≤ 0.7865) : |Real.cos x - cosT x| ≤ 3 / 10 ^ 10 * |x| := by
  refine le_trans ?_ (trigT_rel h)
  refine le_trans (le_of_eq ?_) (Complex.abs_re_le_norm _)
  rw [Complex.sub_re, Complex.add_re, Complex.ofReal_re, Complex.re_ofReal_mul, Complex.I_re, mul_zero, add_zero,
    Complex.exp_ofReal_mul_I_re]

theorem sinT_rel {x : ℝ} (h : |x| ≤ 0.7865) : |Real.sin x - sinT x| ≤ 3 / 10 ^ 10 * |x| := by
  refine le_trans ?_ (trigT_rel h)
  refine le_trans (le_of_eq ?_) (Complex.abs_im_le_norm _)
  rw [Complex.sub_im, Complex.add_im, Complex.ofReal_im, Complex.im_ofReal_mul, Complex.I_im, mul_one, zero_add,
    Complex.exp_ofReal_mul_I_im]

/-- From the signs of the two polynomials. -/
theorem rel_of {x d l u c : ℝ} (hl : 0 ≤ l) (hu : 0 ≤ u) (e1 : x * l = c * x - d) (e2 : x * u = c * x + d) :
    |d| ≤ c * |x| := by
  rcases le_total 0 x with h | h
  · rw [abs_of_nonneg h, abs_le]
    have := mul_nonneg h hl
    have := mul_nonneg h hu
    constructor <;> linarith
  · rw [abs_of_nonpos h, abs_le]
    have := mul_nonpos_of_nonpos_of_nonneg h hl
    have := mul_nonpos_of_nonpos_of_nonneg h hu
    constructor <;> linarith

theorem sinP_rel {x : ℝ} (h : |x| ≤ 0.7865) : |sinP x - Real.sin x| ≤ 8 / 10 ^ 9 * |x| := by
  obtain ⟨h1, h2⟩ := abs_le.mp h
  have l : 0 ≤ Poly.eval sinRelLow x := Poly.check_sound (n := 12) (l := -0.7865) (h := 0.7865) (by decide +kernel)
    (by norm_num at h1 ⊢; exact h1) (by norm_num at h2 ⊢; exact h2)
  have u : 0 ≤ Poly.eval sinRelHigh x := Poly.check_sound (n := 12) (l := -0.7865) (h := 0.7865) (by decide +kernel)
    (by norm_num at h1 ⊢; exact h1) (by norm_num at h2 ⊢; exact h2)
  have r := rel_of (d := sinP x - sinT x) (c := 77 / 10 ^ 10) l u
    (by simp only [sinRelLow, Poly.eval_cons, Poly.eval_nil, sinT, sinP]; push_cast; ring)
    (by simp only [sinRelHigh, Poly.eval_cons, Poly.eval_nil, sinT, sinP]; push_cast; ring)
  have := abs_sub_le (sinP x) (sinT x) (Real.sin x)
  rw [abs_sub_comm (sinT x)] at this
  have := sinT_rel h
  linarith

theorem cos_large' {x : ℝ} (h : |x| ≤ 0.7865) : 0.706 ≤ Real.cos x := by
  obtain ⟨h1, h2⟩ := abs_le.mp h
  have l : 0 ≤ Poly.eval cosLarge x := Poly.check_sound (n := 12) (l := -0.7865) (h := 0.7865) (by decide +kernel)
    (by norm_num at h1 ⊢; exact h1) (by norm_num at h2 ⊢; exact h2)
  have e : Poly.eval cosLarge x = cosT x - 7061 / 10000 := by
    simp only [cosLarge, Poly.eval_cons, Poly.eval_nil, cosT]; push_cast; ring
  rw [e] at l
  have t := (abs_le.mp (cosT_rel h)).1
  generalize |x| = y at *
  norm_num at *
  linarith

theorem tanP_bound' {x : ℝ} (h : |x| ≤ 0.7865) : |tanP x| ≤ 1.1 := by
  have hz : x * x ≤ 0.7865 * 0.7865 := by rw [← abs_mul_abs_self]; exact mul_le_mul h h (abs_nonneg _) (by norm_num)
  have hz0 : 0 ≤ x * x := mul_self_nonneg x
  unfold tanP
  generalize hzv : x * x = z at *
  have a1 : 0 ≤ 11184751 / 2 ^ 25 + z * (4475767 / 2 ^ 25 + z * (7168511 / 2 ^ 27 + z *
    (1639825 / 2 ^ 26 + z * (6684479 / 2 ^ 31 + z * (2520397 / 2 ^ 28))))) := by positivity
  have a2 : 11184751 / 2 ^ 25 + z * (4475767 / 2 ^ 25 + z * (7168511 / 2 ^ 27 + z *
    (1639825 / 2 ^ 26 + z * (6684479 / 2 ^ 31 + z * (2520397 / 2 ^ 28))))) ≤ 0.45 := by
    calc _ ≤ (11184751 / 2 ^ 25 + (0.7865 * 0.7865) * (4475767 / 2 ^ 25 + (0.7865 * 0.7865) * (7168511 / 2 ^ 27 + (0.7865 * 0.7865) *
    (1639825 / 2 ^ 26 + (0.7865 * 0.7865) * (6684479 / 2 ^ 31 + (0.7865 * 0.7865) * (2520397 / 2 ^ 28))))) : ℝ) := by gcongr
      _ ≤ 0.45 := by norm_num
  generalize 11184751 / 2 ^ 25 + z * (4475767 / 2 ^ 25 + z * (7168511 / 2 ^ 27 + z *
    (1639825 / 2 ^ 26 + z * (6684479 / 2 ^ 31 + z * (2520397 / 2 ^ 28))))) = p at *
  rw [show x + x * z * p = x * (1 + z * p) by ring, abs_mul, abs_of_nonneg (a := 1 + z * p) (by positivity)]
  calc |x| * (1 + z * p) ≤ 0.7865 * (1 + (0.7865 * 0.7865) * 0.45) := by gcongr
    _ ≤ 1.1 := by norm_num

theorem tanP_rel {x : ℝ} (h : |x| ≤ 0.7865) : |tanP x - Real.tan x| ≤ 3 / 10 ^ 8 * |x| := by
  obtain ⟨h1, h2⟩ := abs_le.mp h
  have l : 0 ≤ Poly.eval tanRelLow x := Poly.check_sound (n := 12) (l := -0.7865) (h := 0.7865) (by decide +kernel)
    (by norm_num at h1 ⊢; exact h1) (by norm_num at h2 ⊢; exact h2)
  have u : 0 ≤ Poly.eval tanRelHigh x := Poly.check_sound (n := 12) (l := -0.7865) (h := 0.7865) (by decide +kernel)
    (by norm_num at h1 ⊢; exact h1) (by norm_num at h2 ⊢; exact h2)
  have r := rel_of (d := tanP x * cosT x - sinT x) (c := 205 / 10 ^ 10) l u
    (by simp only [tanRelLow, Poly.eval_cons, Poly.eval_nil, cosT, sinT, tanP]; push_cast; ring)
    (by simp only [tanRelHigh, Poly.eval_cons, Poly.eval_nil, cosT, sinT, tanP]; push_cast; ring)
  have hc := cos_large' h
  have hc0 : 0 < Real.cos x := by norm_num at hc; linarith
  have b1 : |tanP x * (Real.cos x - cosT x)| ≤ 1.1 * (3 / 10 ^ 10 * |x|) := by
    rw [abs_mul]; exact mul_le_mul (tanP_bound' h) (cosT_rel h) (abs_nonneg _) (by norm_num)
  have b2 := sinT_rel h
  have b3 : |tanP x * Real.cos x - Real.sin x| ≤ 2115 / 10 ^ 11 * |x| := by
    rw [show tanP x * Real.cos x - Real.sin x = tanP x * (Real.cos x - cosT x) + (tanP x * cosT x - sinT x) -
      (Real.sin x - sinT x) by ring]
    have h0 := abs_nonneg x
    generalize |x| = y at *
    rw [abs_le] at *
    norm_num at *
    constructor <;> linarith
  rw [Real.tan_eq_sin_div_cos, show tanP x - Real.sin x / Real.cos x =
    (tanP x * Real.cos x - Real.sin x) / Real.cos x by field_simp, abs_div, abs_of_pos hc0, div_le_iff₀ hc0]
  refine b3.trans ?_
  have h0 := abs_nonneg x
  have := mul_le_mul_of_nonneg_left hc (by positivity : 0 ≤ 3 / 10 ^ 8 * |x|)
  generalize |x| = y at *
  norm_num at *
  linarith

/-! ## The inner polynomials -/

/-- `sinP x = x + x³ sinQ (x²)` -/
noncomputable def sinQ (z : ℝ) : ℝ := (-13410809 / 2 ^ 36 * z + 4473295 / 2 ^ 29) * z - 11184803 / 2 ^ 26

/-- `tanP x = x + x³ tanQ (x²)` -/
noncomputable def tanQ (z : ℝ) : ℝ :=
  11184751 / 2 ^ 25 + z * (4475767 / 2 ^ 25 + z * (7168511 / 2 ^ 27 + z *
    (1639825 / 2 ^ 26 + z * (6684479 / 2 ^ 31 + z * (2520397 / 2 ^ 28)))))

namespace Contract
variable {c : Bool} {x : BitVec 32}

theorem sinInner_track {v : ℝ} {p p' : BitVec 32} (hx : Tr x v 0 0.7865)
    (m1 : p ∈ add c (.prod (litD (-1.9515295891e-4)) (binary32.mul x x)) (.reg (litD 8.3321608736e-3)))
    (m2 : p' ∈ sub c (.prod p (binary32.mul x x)) (.reg (litD 1.6666654611e-1))) :
    Tr p' (sinQ (v * v)) (3077/2^38) (2817/2^14) := by
  have t1 := Op.mul (D := 1267/2^11) (E := 2535/2^36) hx.op hx.op (by norm_num) (by norm_num) (by norm_num)
  have t2 := Op.const (x := litD (-1.9515295891e-4)) (-13410809/2^36) (3275/2^24) (by decide +kernel) (by norm_num)
  have t3 := Op.const (x := litD 8.3321608736e-3) (4473295/2^29) (2185/2^18) (by decide +kernel) (by norm_num)
  have t4 := Op.const (x := litD 1.6666654611e-1) (11184803/2^26) (2731/2^14) (by decide +kernel) (by norm_num)
  have t5 := Op.mul (D := 4053/2^25) (E := 2027/2^47) t2 t1 (by norm_num) (by norm_num) (by norm_num)
  have t6 := Op.add (D := 2217/2^18) (E := 2281/2^42) m1 t5 t3 (by norm_num) (by norm_num) (by norm_num)
  have t7 := Op.mul (D := 343/2^16) (E := 1039/2^40) t6 t1 (by norm_num) (by norm_num) (by norm_num)
  have t8 := Op.sub (D := 2817/2^14) (E := 3077/2^38) m2 t7 t4 (by norm_num) (by norm_num) (by norm_num)
  refine t8.tr.congr ?_
  unfold sinQ
  push_cast
  ring

theorem sinPoly_rel (hx : IsFin binary32 x) (hb : |binary32.toReal x| ≤ 0.7865) :
    ∀ r ∈ sinPoly c (binary32.mul x x) x, IsFin binary32 r ∧
      |binary32.toReal r - Real.sin (binary32.toReal x)| ≤ 11 / 10 ^ 8 * |binary32.toReal x| := by
  intro r hr
  unfold sinPoly at hr
  simp only [List.mem_flatMap] at hr
  obtain ⟨p, m1, p', m2, m3⟩ := hr
  have t := sinInner_track (Tr.exact hx hb) m1 m2
  obtain ⟨f, e⟩ := odd_poly_tanh (d := 101 / 10 ^ 9) hx hx rfl t hb (by norm_num) (by norm_num) (by norm_num)
    (by norm_num) r m3
  refine ⟨f, ?_⟩
  have p := sinP_rel hb
  have e2 : binary32.toReal x + binary32.toReal x ^ 3 * sinQ (binary32.toReal x * binary32.toReal x) =
    sinP (binary32.toReal x) := by unfold sinQ sinP; ring
  rw [e2] at e
  have := abs_sub_le (binary32.toReal r) (sinP (binary32.toReal x)) (Real.sin (binary32.toReal x))
  have h0 := abs_nonneg (binary32.toReal x)
  refine this.trans ((add_le_add e p).trans ?_)
  norm_num
  linarith

/-- `tanPoly` with the bound that holds for every argument and the one for arguments of at most `b`. -/
theorem tanPoly_rel {b d : ℝ} (hx : IsFin binary32 x) (hX : |binary32.toReal x| ≤ 0.7865)
    (hb : |binary32.toReal x| ≤ b) (hb1 : b ≤ 1)
    (hd : 1 / 2 ^ 24 + b ^ 2 * (32 / 10 ^ 8) ≤ d) (hd1 : 1.3 / 2 ^ 24 ≤ d) :
    ∀ r ∈ tanPoly c x, IsFin binary32 r ∧
      |binary32.toReal r - Real.tan (binary32.toReal x)| ≤ (d + 3 / 10 ^ 8) * |binary32.toReal x| := by
  intro r hr
  unfold tanPoly at hr
  try dsimp only at hr
  simp only [List.mem_flatMap] at hr
  obtain ⟨p1, m1, p2, m2, p3, m3, p4, m4, p5, m5, m6⟩ := hr
  have t : Tr p5 (tanQ (binary32.toReal x * binary32.toReal x)) (905/2^34) (3633/2^13) := by
    have hx := Tr.exact hx hX
    have t1 := Op.mul (D := 1267/2^11) (E := 2535/2^36) hx.op hx.op (by norm_num) (by norm_num) (by norm_num)
    have t2 := Op.const (x := litD 9.3892104923725128173828125e-3) (2520397/2^28) (1231/2^17) (by decide +kernel) (by norm_num)
    have t3 := Op.const (x := litD 3.1127030961215496063232421875e-3) (6684479/2^31) (51/2^14) (by decide +kernel) (by norm_num)
    have t4 := Op.const (x := litD 2.443529665470123291015625e-2) (1639825/2^26) (3203/2^17) (by decide +kernel) (by norm_num)
    have t5 := Op.const (x := litD 5.3409568965435028076171875e-2) (7168511/2^27) (3501/2^16) (by decide +kernel) (by norm_num)
    have t6 := Op.const (x := litD 0.1333882510662078857421875) (4475767/2^25) (1093/2^13) (by decide +kernel) (by norm_num)
    have t7 := Op.const (x := litD 0.3333315551280975341796875) (11184751/2^25) (2731/2^13) (by decide +kernel) (by norm_num)
    have t8 := Op.mul (D := 3047/2^19) (E := 381/2^39) t1 t2 (by norm_num) (by norm_num) (by norm_num)
    have t9 := Op.add (D := 585/2^16) (E := 2695/2^41) m1 t3 t8 (by norm_num) (by norm_num) (by norm_num)
    have t10 := Op.mul (D := 181/2^15) (E := 779/2^39) t1 t9 (by norm_num) (by norm_num) (by norm_num)
    have t11 := Op.add (D := 3927/2^17) (E := 1761/2^39) m2 t4 t10 (by norm_num) (by norm_num) (by norm_num)
    have t12 := Op.mul (D := 1215/2^16) (E := 2305/2^39) t1 t11 (by norm_num) (by norm_num) (by norm_num)
    have t13 := Op.add (D := 1179/2^14) (E := 583/2^36) m3 t5 t12 (by norm_num) (by norm_num) (by norm_num)
    have t14 := Op.mul (D := 1459/2^15) (E := 1451/2^37) t1 t13 (by norm_num) (by norm_num) (by norm_num)
    have t15 := Op.add (D := 729/2^12) (E := 1455/2^36) m4 t6 t14 (by norm_num) (by norm_num) (by norm_num)
    have t16 := Op.mul (D := 451/2^12) (E := 3605/2^37) t1 t15 (by norm_num) (by norm_num) (by norm_num)
    have t17 := Op.add (D := 3633/2^13) (E := 905/2^34) m5 t7 t16 (by norm_num) (by norm_num) (by norm_num)
    refine t17.tr.congr ?_
    unfold tanQ
    push_cast
    ring
  obtain ⟨f, e⟩ := odd_poly (d := d) hx hx rfl t hb hb1 (by norm_num) (by
    refine le_trans ?_ hd
    have := sq_nonneg b
    generalize b ^ 2 = y at *
    norm_num
    linarith) hd1 r m6
  refine ⟨f, ?_⟩
  have p := tanP_rel hX
  have e2 : binary32.toReal x + binary32.toReal x ^ 3 * tanQ (binary32.toReal x * binary32.toReal x) =
    tanP (binary32.toReal x) := by unfold tanQ tanP; ring
  rw [e2] at e
  have := abs_sub_le (binary32.toReal r) (tanP (binary32.toReal x)) (Real.tan (binary32.toReal x))
  rw [add_mul]
  exact this.trans (add_le_add e p)

end Contract
end Nova
