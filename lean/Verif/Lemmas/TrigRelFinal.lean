import Verif.Lemmas.TrigRelReduce
import Verif.Lemmas.ContractTan
import Mathlib.Analysis.SpecialFunctions.Trigonometric.Bounds

/-!
# Relative errors of `sin`, `cos` and `tan`
-/

namespace Nova
open FP VecMath

theorem sin_lower {v : ℝ} (hv : |v| ≤ 0.7864) : |v| - |v| ^ 3 / 6 ≤ |Real.sin v| := by
  have hp := Real.pi_gt_three
  rw [Real.abs_sin_eq_sin_abs_of_abs_le_pi (hv.trans (by norm_num; linarith))]
  rcases eq_or_lt_of_le (abs_nonneg v) with h | h
  · rw [← h]; simp
  · exact (Real.sin_gt_sub_cube h).le

theorem sin_lower1 {v : ℝ} (hv : |v| ≤ 0.7864) : 0.89 * |v| ≤ |Real.sin v| := by
  refine le_trans ?_ (sin_lower hv)
  have h0 := abs_nonneg v
  have h2 : |v| ^ 2 ≤ 0.7864 ^ 2 := pow_le_pow_left₀ h0 hv 2
  have h3 := mul_le_mul_of_nonneg_right h2 h0
  rw [show |v| ^ 3 = |v| ^ 2 * |v| by ring]
  generalize |v| ^ 2 * |v| = c at *
  generalize |v| = y at *
  norm_num at *
  linarith

theorem sin_lower2 {v : ℝ} (hv : |v| ≤ 0.01) : 0.9999 * |v| ≤ |Real.sin v| := by
  refine le_trans ?_ (sin_lower (hv.trans (by norm_num)))
  have h0 := abs_nonneg v
  have h2 : |v| ^ 2 ≤ 0.01 ^ 2 := pow_le_pow_left₀ h0 hv 2
  have h3 := mul_le_mul_of_nonneg_right h2 h0
  rw [show |v| ^ 3 = |v| ^ 2 * |v| by ring]
  generalize |v| ^ 2 * |v| = c at *
  generalize |v| = y at *
  norm_num at *
  linarith

theorem tan_lower {v : ℝ} (hv : |v| ≤ 0.7864) : |v| ≤ |Real.tan v| := by
  have hp := Real.pi_gt_three
  have h2 : |v| < Real.pi / 2 := by norm_num at hv; linarith
  have := Real.le_tan (abs_nonneg v) h2
  refine this.trans ?_
  rcases abs_cases v with ⟨h, -⟩ | ⟨h, -⟩
  · rw [h]; exact le_abs_self _
  · rw [h, Real.tan_neg]; exact neg_le_abs _

theorem tan_sub {a b : ℝ} (ha : Real.cos a ≠ 0) (hb : Real.cos b ≠ 0) :
    Real.tan a - Real.tan b = Real.sin (a - b) / (Real.cos a * Real.cos b) := by
  rw [Real.tan_eq_sin_div_cos, Real.tan_eq_sin_div_cos, Real.sin_sub]
  field_simp

/-- What the reduction gives. -/
def Reduced (R v : ℝ) : Prop :=
  |R - v| ≤ 63 / 10 ^ 9 * |v| ∨ |v| ≤ 0.01 ∧ |R - v| ≤ 328 / 10 ^ 9 * |v|

theorem Reduced.abs_le {R v : ℝ} (h : Reduced R v) : |R| ≤ 1.000001 * |v| := by
  have h0 := abs_nonneg v
  have : |R| ≤ |R - v| + |v| := by
    have := abs_add_le (R - v) v
    rwa [sub_add_cancel] at this
  rcases h with h | ⟨-, h⟩
  all_goals
    generalize |R - v| = a at *
    generalize |R| = b at *
    generalize |v| = y at *
    norm_num at *
    linarith

theorem sin_branch {S R v : ℝ} (hv : |v| ≤ 0.7864) (h : Reduced R v)
    (hS : |S - Real.sin R| ≤ 11 / 10 ^ 8 * |R|) : |S - Real.sin v| ≤ 5 / 10 ^ 7 * |Real.sin v| := by
  have h0 := abs_nonneg v
  have t1 := abs_sub_le S (Real.sin R) (Real.sin v)
  have t2 := Real.abs_sin_sub_sin_le R v
  have t3 := h.abs_le
  rcases h with h | ⟨h1, h⟩
  · have t4 := sin_lower1 hv
    generalize |S - Real.sin v| = a at *
    generalize |S - Real.sin R| = b at *
    generalize |Real.sin R - Real.sin v| = c at *
    generalize |Real.sin v| = d at *
    generalize |R - v| = e at *
    generalize |v| = y at *
    generalize |R| = f at *
    norm_num at *
    linarith
  · have t4 := sin_lower2 h1
    generalize |S - Real.sin v| = a at *
    generalize |S - Real.sin R| = b at *
    generalize |Real.sin R - Real.sin v| = c at *
    generalize |Real.sin v| = d at *
    generalize |R - v| = e at *
    generalize |v| = y at *
    generalize |R| = f at *
    norm_num at *
    linarith

theorem tan_change {R v : ℝ} (hv : |v| ≤ 0.7864) (hR : |R| ≤ 0.7865) :
    |Real.tan R - Real.tan v| ≤ |R - v| / (Real.cos R * Real.cos v) := by
  have c1 := cos_large' hR
  have c2 := cos_large' (hv.trans (by norm_num))
  have c1 : 0 < Real.cos R := by norm_num at c1; linarith
  have c2 : 0 < Real.cos v := by norm_num at c2; linarith
  rw [tan_sub c1.ne' c2.ne', abs_div, abs_of_pos (mul_pos c1 c2)]
  exact div_le_div_of_nonneg_right Real.abs_sin_le_abs (mul_pos c1 c2).le

theorem tan_branch {S R v : ℝ} (hv : |v| ≤ 0.7864) (hR : |R| ≤ 0.7865) (h : Reduced R v)
    (hS : |S - Real.tan R| ≤ 29 / 10 ^ 8 * |R|)
    (hS2 : |R| ≤ 0.0101 → |S - Real.tan R| ≤ 1076 / 10 ^ 10 * |R|) :
    |S - Real.tan v| ≤ 436 / 10 ^ 9 * |Real.tan v| := by
  have h0 := abs_nonneg v
  have t1 := abs_sub_le S (Real.tan R) (Real.tan v)
  have t2 := tan_change hv hR
  have t3 := h.abs_le
  have t5 := tan_lower hv
  have c1 := cos_large' hR
  have c2 := cos_large' (hv.trans (by norm_num))
  have c10 : 0 < Real.cos R := by norm_num at c1; linarith
  have c20 : 0 < Real.cos v := by norm_num at c2; linarith
  have es : |Real.sin v| = |Real.tan v| * Real.cos v := by
    rw [Real.tan_eq_sin_div_cos, abs_div, abs_of_pos c20]; field_simp
  rcases h with h | ⟨h1, h⟩
  · have t4 := sin_lower1 hv
    rw [es] at t4
    have t6 : |R - v| / (Real.cos R * Real.cos v) ≤ 101 / 10 ^ 9 * |Real.tan v| := by
      rw [div_le_iff₀ (mul_pos c10 c20)]
      have k := mul_le_mul_of_nonneg_right c1 (mul_nonneg (abs_nonneg (Real.tan v)) c20.le)
      rw [show 101 / 10 ^ 9 * |Real.tan v| * (Real.cos R * Real.cos v) =
        101 / 10 ^ 9 * (Real.cos R * (|Real.tan v| * Real.cos v)) by ring]
      generalize Real.cos R * (|Real.tan v| * Real.cos v) = k1 at *
      generalize |Real.tan v| * Real.cos v = k2 at *
      generalize |R - v| = e at *
      generalize |v| = y at *
      clear t1 t2 t3 hS hS2 hR
      norm_num at *
      linarith
    generalize |S - Real.tan v| = a at *
    generalize |S - Real.tan R| = b at *
    generalize |Real.tan R - Real.tan v| = c at *
    generalize |Real.tan v| = d at *
    generalize |R - v| = e at *
    generalize |v| = y at *
    generalize |R| = f at *
    generalize e / (Real.cos R * Real.cos v) = g at *
    clear hS2 es t4 c1 c2
    norm_num at *
    linarith
  · have t4 := sin_lower2 h1
    have hR' : |R| ≤ 0.0101 := by
      generalize |R| = f at *
      generalize |v| = y at *
      norm_num at *
      linarith
    have hS2 := hS2 hR'
    rw [es] at t4
    have c3 : 0.9999 ≤ Real.cos R := by
      have := Real.one_sub_sq_div_two_le_cos (x := R)
      have h2 : |R| ^ 2 ≤ 0.0101 ^ 2 := pow_le_pow_left₀ (abs_nonneg _) hR' 2
      rw [sq_abs] at h2
      generalize R ^ 2 = r at *
      norm_num at h2 ⊢
      linarith
    have t6 : |R - v| / (Real.cos R * Real.cos v) ≤ 3282 / 10 ^ 10 * |Real.tan v| := by
      rw [div_le_iff₀ (mul_pos c10 c20)]
      have k := mul_le_mul_of_nonneg_right c3 (mul_nonneg (abs_nonneg (Real.tan v)) c20.le)
      rw [show 3282 / 10 ^ 10 * |Real.tan v| * (Real.cos R * Real.cos v) =
        3282 / 10 ^ 10 * (Real.cos R * (|Real.tan v| * Real.cos v)) by ring]
      generalize Real.cos R * (|Real.tan v| * Real.cos v) = k1 at *
      generalize |Real.tan v| * Real.cos v = k2 at *
      generalize |R - v| = e at *
      generalize |v| = y at *
      clear t1 t2 t3 hS hS2 hR hR' c1 c3
      norm_num at *
      linarith
    generalize |S - Real.tan v| = a at *
    generalize |S - Real.tan R| = b at *
    generalize |Real.tan R - Real.tan v| = c at *
    generalize |Real.tan v| = d at *
    generalize |R - v| = e at *
    generalize |v| = y at *
    generalize |R| = f at *
    generalize e / (Real.cos R * Real.cos v) = g at *
    clear hS es t4 c1 c2 c3
    norm_num at *
    linarith

/-- The reciprocal of the approximation, relative. -/
theorem tan_recip_rel {m x : BitVec 32} {v : ℝ} (hm : IsFin binary32 m) (hm1 : binary32.toReal m = -1)
    (hx : IsFin binary32 x) (hv : |v| ≤ 0.7864)
    (he : |binary32.toReal x - Real.tan v| ≤ 436 / 10 ^ 9 * |Real.tan v|) (hs : 1 / 2 ^ 30 ≤ |v|) :
    IsFin binary32 (binary32.div m x) ∧
    |binary32.toReal (binary32.div m x) - -(Real.tan v)⁻¹| ≤ 5 / 10 ^ 7 * |-(Real.tan v)⁻¹| := by
  have hT : |v| ≤ |Real.tan v| := tan_lower hv
  have hc := cos_large' (hv.trans (by norm_num))
  have hT2 : |Real.tan v| ≤ 1.5 := by
    have hc0 : 0 < Real.cos v := by norm_num at hc; linarith
    rw [Real.tan_eq_sin_div_cos, abs_div, abs_of_pos hc0, div_le_iff₀ hc0]
    have := Real.abs_sin_le_one v
    norm_num at hc ⊢
    linarith
  generalize hA : binary32.toReal x = A at *
  generalize Real.tan v = T at *
  have hT1 : 1 / 2 ^ 30 ≤ |T| := hs.trans hT
  have hT0 : 0 < |T| := lt_of_lt_of_le (by norm_num) hT1
  have hTne : T ≠ 0 := abs_pos.mp hT0
  have hA1 : (1 - 436 / 10 ^ 9) * |T| ≤ |A| := by
    have h1 := abs_sub_abs_le_abs_sub T A
    rw [abs_sub_comm] at h1
    linarith
  have hA0 : 0 < |A| := lt_of_lt_of_le (mul_pos (by norm_num) hT0) hA1
  have hAne : A ≠ 0 := abs_pos.mp hA0
  have q1 : |(-1 : ℝ) / A| ≤ (1 + 437 / 10 ^ 9) * |T|⁻¹ := by
    rw [abs_div, abs_neg, abs_one, ← div_eq_mul_inv, div_le_div_iff₀ hA0 hT0]
    have := mul_le_mul_of_nonneg_left hA1 (show (0 : ℝ) ≤ 1 + 437 / 10 ^ 9 by norm_num)
    generalize |T| = t at *
    generalize |A| = a at *
    norm_num at *
    linarith
  have hTi : |T|⁻¹ ≤ 2 ^ 30 := by
    rw [inv_le_comm₀ hT0 (by positivity)]
    refine le_trans (le_of_eq ?_) hT1
    norm_num
  have hTi2 : 0.6 ≤ |T|⁻¹ := by
    rw [le_inv_comm₀ (by norm_num) hT0]
    exact hT2.trans (by norm_num)
  obtain ⟨f, e⟩ := div_near32 hm hx (by rw [hA]; exact hAne) (by
    rw [hm1, hA]; refine q1.trans ?_
    generalize |T|⁻¹ = t at *
    norm_num at *
    linarith)
  rw [hm1, hA] at e
  refine ⟨f, ?_⟩
  generalize binary32.toReal (binary32.div m x) = R at *
  have h3 : |(-1 : ℝ) / A - -(T⁻¹)| ≤ 4361 / 10 ^ 10 * |T|⁻¹ := by
    rw [show (-1 : ℝ) / A - -(T⁻¹) = (A - T) / (A * T) by field_simp; ring, abs_div, abs_mul,
      ← div_eq_mul_inv, div_le_div_iff₀ (by positivity) (by positivity)]
    have h5 : |A - T| * |T| ≤ 436 / 10 ^ 9 * |T| * |T| := mul_le_mul_of_nonneg_right he (by positivity)
    have h6 := mul_le_mul_of_nonneg_right hA1 hT0.le
    have h7 : 0 ≤ |T| * |T| := mul_self_nonneg _
    rw [mul_assoc] at h5 h6
    generalize |A - T| * |T| = a at *
    generalize |T| * |T| = b at *
    generalize |A| * |T| = c at *
    norm_num at h5 h6 ⊢
    linarith
  have h4 : |R - -(T⁻¹)| ≤ |R - -1 / A| + |(-1 : ℝ) / A - -(T⁻¹)| := by
    have := abs_add_le (R - -1 / A) (-1 / A - -(T⁻¹))
    rwa [sub_add_sub_cancel] at this
  rw [abs_neg, abs_inv]
  generalize |R - -(T⁻¹)| = a1 at *
  generalize |R - -1 / A| = a2 at *
  generalize |(-1 : ℝ) / A - -(T⁻¹)| = a3 at *
  generalize |(-1 : ℝ) / A| = a4 at *
  generalize |T|⁻¹ = t at *
  clear he hT hA1 hT1 hT2 hA0 hT0
  norm_num at *
  linarith

namespace Contract

theorem trig_reduce_rel {c : Bool} {V : LaneOps 32} (h : V.Ieee) {x : BitVec 32} (hx : IsFin binary32 x)
    (h0 : binary32.neg x = false) (hr : binary32.toReal x ≤ 8192) :
    ∃ q : ℕ, q ≤ 5216 ∧ (quadrant V x).toNat = 2 * q ∧ (1 ≤ q → 0.7853 ≤ binary32.toReal x) ∧
      ∀ r ∈ reduceArg c x (V.convertToFloat (quadrant V x)), Tr r (binary32.toReal x - q * (Real.pi / 2))
        (4728/10^11) 0.7864 ∧
        (1 / 2 ^ 26 * binary32.toReal x ≤ |binary32.toReal x - q * (Real.pi / 2)| →
          Reduced (binary32.toReal r) (binary32.toReal x - q * (Real.pi / 2))) := by
  obtain ⟨q, q1, q2, q3, q4, f1, f2⟩ := trig_octant h hx h0 hr
  exact ⟨q, q1, q2, q4, fun r hr => ⟨reduceArg_track hx h0 q1 q3 q4 f1 f2 r hr, fun hv =>
    (reduceArg_rel hx h0 q1 q3 q4 f1 f2 hv r hr).2⟩⟩

/-- The two approximations, relative. -/
theorem sinPoly_near {c : Bool} {x : BitVec 32} {v : ℝ} (hx : Tr x v (4728/10^11) 0.7864)
    (h : Reduced (binary32.toReal x) v) :
    ∀ r ∈ sinPoly c (binary32.mul x x) x, Tr r (Real.sin v) (5 / 10 ^ 7 * |Real.sin v|) 1 := by
  intro r hr
  obtain ⟨f, e⟩ := sinPoly_rel hx.fin (hx.abs_le.trans (by norm_num)) r hr
  exact ⟨f, sin_branch hx.bnd h e, Real.abs_sin_le_one _⟩

theorem cosPoly_near {c : Bool} {x : BitVec 32} {v : ℝ} (hx : Tr x v (4728/10^11) 0.7864) :
    ∀ r ∈ cosPoly c (binary32.mul x x), Tr r (Real.cos v) (5 / 10 ^ 7 * |Real.cos v|) 1 := by
  intro r hr
  have t := (trig_polys hx).2 r hr
  refine ⟨t.fin, t.err.trans ?_, t.bnd⟩
  have hc := cos_large' (hx.bnd.trans (by norm_num))
  have := hc.trans (le_abs_self _)
  norm_num at this ⊢
  linarith

/-- The relative error of the sine, away from its zeros. -/
theorem vecSin_rel {c : Bool} {V : LaneOps 32} (h : V.Ieee) {x : BitVec 32} (hx : IsFin binary32 x)
    (hr : |binary32.toReal x| ≤ 8192)
    (hs : 1 / 2 ^ 26 * |binary32.toReal x| ≤ |Real.sin (binary32.toReal x)|) :
    ∀ y ∈ vecSin c V x, Tr y (Real.sin (binary32.toReal x)) (5 / 10 ^ 7 * |Real.sin (binary32.toReal x)|) 1 := by
  intro y hy
  obtain ⟨a1, a2, a3⟩ := fabs_facts hx hr
  obtain ⟨q, q1, q2, -, q3⟩ := trig_reduce_rel (c := c) h a1 a2 a3
  unfold vecSin at hy
  dsimp only at hy
  rw [abs_and h, h.sign, sign_and, swap_bit, poly_mask] at hy
  simp only [List.mem_flatMap, List.mem_map] at hy
  obtain ⟨r, hr, c1, h1, s1, h2, rfl⟩ := hy
  rw [h.sel]
  obtain ⟨t, ht⟩ := q3 r hr
  have hq := sin_quadrant (binary32.toReal (binary32.fabs x) - q * (Real.pi / 2)) q
  rw [sub_add_cancel, binary32.toReal_fabs] at hq
  have habs : |Real.sin (binary32.toReal x)| = |if q % 2 = 0 then Real.sin (|binary32.toReal x| - q * (Real.pi / 2))
      else Real.cos (|binary32.toReal x| - q * (Real.pi / 2))| := by
    have : |Real.sin (binary32.toReal x)| = |Real.sin (|binary32.toReal x|)| := by
      rcases abs_cases (binary32.toReal x) with ⟨e, -⟩ | ⟨e, -⟩ <;> rw [e]
      rw [Real.sin_neg, abs_neg]
    rw [this, hq]
    split <;> simp [abs_neg]
  have hsel : Tr (if decide ((quadrant V (binary32.fabs x)).toNat / 2 % 2 = 0) = true then s1 else c1)
      (if q % 2 = 0 then Real.sin (binary32.toReal (binary32.fabs x) - q * (Real.pi / 2))
      else Real.cos (binary32.toReal (binary32.fabs x) - q * (Real.pi / 2)))
      (5 / 10 ^ 7 * |Real.sin (binary32.toReal x)|) 1 := by
    rw [q2, habs]
    by_cases hq : q % 2 = 0
    · rw [if_pos hq] at habs
      rw [if_pos hq, if_pos hq, if_pos (decide_eq_true (by omega))]
      rw [binary32.toReal_fabs] at ht t ⊢
      refine sinPoly_near t (ht ?_) _ h2
      rw [habs] at hs
      exact hs.trans Real.abs_sin_le_abs
    · rw [if_neg hq, if_neg hq, if_neg (by rw [decide_eq_true_eq]; omega)]
      rw [binary32.toReal_fabs] at t ⊢
      exact cosPoly_near t _ h1
  have s1 := hsel.signed (decide ((quadrant V (binary32.fabs x)).toNat / 4 % 2 = 1))
  have s2 := s1.signed (binary32.neg x)
  rw [show signBit (binary32.neg x) ^^^ signBit (decide ((quadrant V (binary32.fabs x)).toNat / 4 % 2 = 1)) =
    signBit (decide ((quadrant V (binary32.fabs x)).toNat / 4 % 2 = 1)) ^^^ signBit (binary32.neg x) from
    BitVec.xor_comm _ _, ← BitVec.xor_assoc]
  refine s2.congr ?_
  rw [binary32.toReal_fabs, q2]
  have e : decide (2 * q / 4 % 2 = 1) = decide (q / 2 % 2 = 1) := by congr 1; rw [eq_iff_iff]; omega
  rw [e]
  simp only [decide_eq_true_eq]
  rw [← hq]
  conv_rhs => rw [toReal_eq_signed x]
  cases binary32.neg x
  · rfl
  · simp only [if_true]; rw [Real.sin_neg]

/-- The relative error of the cosine, away from its zeros. -/
theorem vecCos_rel {c : Bool} {V : LaneOps 32} (h : V.Ieee) {x : BitVec 32} (hx : IsFin binary32 x)
    (hr : |binary32.toReal x| ≤ 8192)
    (hs : 1 / 2 ^ 26 * |binary32.toReal x| ≤ |Real.cos (binary32.toReal x)|) :
    ∀ y ∈ vecCos c V x, Tr y (Real.cos (binary32.toReal x)) (5 / 10 ^ 7 * |Real.cos (binary32.toReal x)|) 1 := by
  intro y hy
  obtain ⟨a1, a2, a3⟩ := fabs_facts hx hr
  obtain ⟨q, q1, q2, -, q3⟩ := trig_reduce_rel (c := c) h a1 a2 a3
  unfold vecCos at hy
  dsimp only at hy
  obtain ⟨c1, c2⟩ := cos_sign q1 q2
  rw [abs_and h, h.intAndnot, c1, c2] at hy
  simp only [List.mem_flatMap, List.mem_map] at hy
  obtain ⟨r, hr, d1, h1, s1, h2, rfl⟩ := hy
  rw [h.sel]
  obtain ⟨t, ht⟩ := q3 r hr
  have hq := cos_quadrant (binary32.toReal (binary32.fabs x) - q * (Real.pi / 2)) q
  rw [sub_add_cancel, binary32.toReal_fabs, Real.cos_abs] at hq
  have habs : |Real.cos (binary32.toReal x)| = |if q % 2 = 0 then Real.cos (|binary32.toReal x| - q * (Real.pi / 2))
      else Real.sin (|binary32.toReal x| - q * (Real.pi / 2))| := by
    rw [hq]
    split <;> simp [abs_neg]
  have hsel : Tr (if decide (q % 2 = 1) = true then s1 else d1)
      (if q % 2 = 0 then Real.cos (binary32.toReal (binary32.fabs x) - q * (Real.pi / 2))
      else Real.sin (binary32.toReal (binary32.fabs x) - q * (Real.pi / 2)))
      (5 / 10 ^ 7 * |Real.cos (binary32.toReal x)|) 1 := by
    rw [habs]
    by_cases hq : q % 2 = 0
    · rw [if_pos hq, if_pos hq, if_neg (by rw [decide_eq_true_eq]; omega)]
      rw [binary32.toReal_fabs] at t ⊢
      exact cosPoly_near t _ h1
    · rw [if_neg hq] at habs
      rw [if_neg hq, if_neg hq, if_pos (decide_eq_true (by omega))]
      rw [binary32.toReal_fabs] at ht t ⊢
      refine sinPoly_near t (ht ?_) _ h2
      rw [habs] at hs
      exact hs.trans Real.abs_sin_le_abs
  have s1 := hsel.signed (decide ((q + 1) / 2 % 2 = 1))
  refine s1.congr ?_
  rw [binary32.toReal_fabs]
  simp only [decide_eq_true_eq]
  rw [← hq]

/-- The relative error of the tangent, away from its zeros and poles. -/
theorem vecTan_rel {c : Bool} {V : LaneOps 32} (h : V.Ieee) {x : BitVec 32} (hx : IsFin binary32 x)
    (hr : |binary32.toReal x| ≤ 8192)
    (hs : 1 / 2 ^ 26 * |binary32.toReal x| ≤ |Real.sin (binary32.toReal x)|)
    (hc : 1 / 2 ^ 26 * |binary32.toReal x| ≤ |Real.cos (binary32.toReal x)|) :
    ∀ y ∈ vecTan c V x, IsFin binary32 y ∧
    |binary32.toReal y - Real.tan (binary32.toReal x)| ≤ 5 / 10 ^ 7 * |Real.tan (binary32.toReal x)| := by
  intro y hy
  obtain ⟨a1, a2, a3⟩ := fabs_facts hx hr
  obtain ⟨q, q1, q2, q4, q3⟩ := trig_reduce_rel (c := c) h a1 a2 a3
  unfold vecTan at hy
  dsimp only at hy
  rw [abs_and h, h.sign, sign_and, poly_mask, q2] at hy
  simp only [List.mem_flatMap, List.mem_map] at hy
  obtain ⟨r, hr, t, ht, rfl⟩ := hy
  rw [h.sel]
  obtain ⟨q3, q5⟩ := q3 r hr
  have hv := q3.bnd
  have hm : binary32.toReal (litD (-1)) = -1 := by
    rw [isVal_value (q := -1) (by decide +kernel)]; norm_num
  have hmf : IsFin binary32 (litD (-1)) := isVal_fin (q := -1) (by decide +kernel)
  have htq := tan_quadrant (binary32.toReal (binary32.fabs x) - q * (Real.pi / 2)) q
  have hcq := cos_quadrant (binary32.toReal (binary32.fabs x) - q * (Real.pi / 2)) q
  have hsq := sin_quadrant (binary32.toReal (binary32.fabs x) - q * (Real.pi / 2)) q
  rw [sub_add_cancel] at htq hcq hsq
  rw [binary32.toReal_fabs] at *
  rw [Real.cos_abs] at hcq
  have hsa : |Real.sin (binary32.toReal x)| = |Real.sin (|binary32.toReal x|)| := by
    rcases abs_cases (binary32.toReal x) with ⟨e, -⟩ | ⟨e, -⟩ <;> rw [e]
    rw [Real.sin_neg, abs_neg]
  rw [hsa] at hs
  generalize |binary32.toReal x| - q * (Real.pi / 2) = v at *
  have hd : 1 / 2 ^ 26 * |binary32.toReal x| ≤ |v| := by
    by_cases hq : q % 2 = 0
    · rw [hsq, if_pos hq] at hs
      refine hs.trans (le_trans (le_of_eq ?_) Real.abs_sin_le_abs)
      split <;> simp [abs_neg]
    · rw [hcq, if_neg hq] at hc
      refine hc.trans (le_trans (le_of_eq ?_) Real.abs_sin_le_abs)
      split <;> simp [abs_neg]
  have hR : |binary32.toReal r| ≤ 0.7865 := q3.abs_le.trans (by norm_num)
  obtain ⟨tf, e1⟩ := tanPoly_rel (b := 0.7865) (d := 26 / 10 ^ 8) q3.fin hR hR (by norm_num) (by norm_num)
    (by norm_num) t ht
  have e := tan_branch (S := binary32.toReal t) hv hR (q5 hd)
    (e1.trans (mul_le_mul_of_nonneg_right (by norm_num) (abs_nonneg _)))
    (fun hb => ((tanPoly_rel (b := 0.0101) (d := 1.3 / 2 ^ 24) q3.fin hR hb (by norm_num) (by norm_num)
      (by norm_num) t ht).2).trans (mul_le_mul_of_nonneg_right (by norm_num) (abs_nonneg _)))
  -- the approximation of tan |x|
  have key : IsFin binary32 (if decide (2 * q / 2 % 2 = 0) = true then t
      else V.div (litD (-1)) (t)) ∧
      |binary32.toReal (if decide (2 * q / 2 % 2 = 0) = true then t
      else V.div (litD (-1)) (t)) - (Real.tan |binary32.toReal x|)| ≤
      5 / 10 ^ 7 * |Real.tan (|binary32.toReal x|)| := by
    by_cases hq : q % 2 = 0
    · rw [if_pos (decide_eq_true (by omega)), htq, if_pos hq]
      exact ⟨tf, e.trans (mul_le_mul_of_nonneg_right (by norm_num) (abs_nonneg _))⟩
    · rw [if_neg (by rw [decide_eq_true_eq]; omega), htq, if_neg hq, h.div]
      refine tan_recip_rel hmf hm tf hv e ?_
      have := q4 (by omega)
      norm_num at hd this ⊢
      linarith
  generalize (if decide (2 * q / 2 % 2 = 0) = true then t
      else V.div (litD (-1)) (t)) = R at *
  have tr : Tr R (Real.tan |binary32.toReal x|) _ _ := ⟨key.1, key.2, le_rfl⟩
  have ts := tr.signed (binary32.neg x)
  refine ⟨ts.fin, ?_⟩
  have e : Real.tan (binary32.toReal x) = if binary32.neg x then -Real.tan |binary32.toReal x|
      else Real.tan |binary32.toReal x| := by
    conv_lhs => rw [toReal_eq_signed x]
    cases binary32.neg x
    · rfl
    · simp only [if_true]; rw [Real.tan_neg]
  have e' : |Real.tan (binary32.toReal x)| = |Real.tan (|binary32.toReal x|)| := by
    rw [e]; split <;> simp [abs_neg]
  rw [e', e]
  exact ts.err

end Contract
end Nova
