import Verif.Lemmas.OddPoly
import Mathlib.Analysis.Complex.Exponential
import Mathlib.Analysis.Complex.ExponentialBounds
import Mathlib.Analysis.SpecialFunctions.Trigonometric.DerivHyp

/-!
# The polynomial of `vec_tanh_float`
-/

namespace Nova
open FP VecMath

/-- The inner polynomial of `vec_tanh_float`, with its coefficients as real numbers. -/
noncomputable def tanhQ (z : ℝ) : ℝ :=
  -11184793 / 33554432 + z * (8946579 / 67108864 + z * (-14425645 / 268435456 + z * (5540263 / 268435456 + z * (-6125685 / 1073741824))))

/-- The approximation of tanh. -/
noncomputable def tanhP (x : ℝ) : ℝ := x + x ^ 3 * tanhQ (x * x)

/-- The Taylor polynomials of cosh and of `sinh x / x`, as polynomials in `x²`. -/
def coshTs : List ℚ := [1, 1/2, 1/24, 1/720, 1/40320, 1/3628800, 1/479001600]
def sinhTs : List ℚ := [1, 1/6, 1/120, 1/5040, 1/362880, 1/39916800]
/-- `9.3e-9 - (tanhP x / x * cosh - sinh / x)` -/
def tanhLow : List ℚ := [93/10000000000, -53/100663296, 9389/503316480, -1029257/4697620480, 1699982737/1522029035520, -341883883703/133938555125760, 259165355303/125567395430400, 422588032103/2009078326886400, 2486651051/334846387814400, 17476395379/128581012920729600, 98303671/64290506460364800, 408379/34288270112194560]
/-- `9.3e-9 + (tanhP x / x * cosh - sinh / x)` -/
def tanhHigh : List ℚ := [93/10000000000, 53/100663296, -9389/503316480, 1029257/4697620480, -1699982737/1522029035520, 341883883703/133938555125760, -259165355303/125567395430400, -422588032103/2009078326886400, -2486651051/334846387814400, -17476395379/128581012920729600, -98303671/64290506460364800, -408379/34288270112194560]

/-- The Taylor polynomials with their remainders. -/
theorem exp_taylor {x : ℝ} (hx : |x| ≤ 1) :
    |Real.exp x - (Poly.eval coshTs (x * x) + x * Poly.eval sinhTs (x * x))| ≤ |x| ^ 13 * (2 / 10 ^ 10) := by
  have := Real.exp_bound hx (n := 13) (by norm_num)
  have e : ∑ m ∈ Finset.range 13, x ^ m / (m.factorial : ℝ) =
      Poly.eval coshTs (x * x) + x * Poly.eval sinhTs (x * x) := by
    simp only [coshTs, sinhTs, Poly.eval_cons, Poly.eval_nil, Finset.sum_range_succ, Finset.sum_range_zero, Nat.factorial]
    push_cast
    ring
  rw [e] at this
  refine this.trans (mul_le_mul_of_nonneg_left ?_ (by positivity))
  simp only [Nat.factorial]
  norm_num

theorem cosh_taylor {x : ℝ} (hx : |x| ≤ 1) : |Real.cosh x - Poly.eval coshTs (x * x)| ≤ |x| ^ 13 * (2 / 10 ^ 10) := by
  have h1 := abs_le.mp (exp_taylor hx)
  have h2 := abs_le.mp (exp_taylor (x := -x) (by rw [abs_neg]; exact hx))
  rw [abs_neg, neg_mul_neg] at h2
  rw [Real.cosh_eq, abs_le]
  constructor <;> linarith

theorem sinh_taylor {x : ℝ} (hx : |x| ≤ 1) :
    |Real.sinh x - x * Poly.eval sinhTs (x * x)| ≤ |x| ^ 13 * (2 / 10 ^ 10) := by
  have h1 := abs_le.mp (exp_taylor hx)
  have h2 := abs_le.mp (exp_taylor (x := -x) (by rw [abs_neg]; exact hx))
  rw [abs_neg, neg_mul_neg] at h2
  rw [Real.sinh_eq, abs_le]
  constructor <;> linarith

theorem tanhQ_bound {z : ℝ} (h0 : 0 ≤ z) (h1 : z ≤ 0.390625) : -0.34 ≤ tanhQ z ∧ tanhQ z ≤ 0 := by
  unfold tanhQ
  have l : 0 ≤ Poly.eval [5592847/838860800, 8946579/67108864, -14425645/268435456, 5540263/268435456, -6125685/1073741824] z :=
    Poly.check_sound (n := 12) (l := 0) (h := 0.390625) (by decide +kernel) (by norm_num; exact h0) (by norm_num at h1 ⊢; exact h1)
  have u : 0 ≤ Poly.eval [11184793/33554432, -8946579/67108864, 14425645/268435456, -5540263/268435456, 6125685/1073741824] z :=
    Poly.check_sound (n := 12) (l := 0) (h := 0.390625) (by decide +kernel) (by norm_num; exact h0) (by norm_num at h1 ⊢; exact h1)
  simp only [Poly.eval_cons, Poly.eval_nil] at l u
  push_cast at l u
  norm_num at l u ⊢
  constructor <;> linarith

theorem tanhP_error {x : ℝ} (hx : |x| ≤ 0.625) : |tanhP x - Real.tanh x| ≤ 94 / 10 ^ 10 * |x| := by
  wlog h0 : 0 ≤ x generalizing x
  · have := this (x := -x) (by rw [abs_neg]; exact hx) (by linarith)
    rw [abs_neg, Real.tanh_neg, show tanhP (-x) = -tanhP x by unfold tanhP; rw [neg_mul_neg]; ring,
      neg_sub_neg, abs_sub_comm] at this
    exact this
  rw [abs_of_nonneg h0] at *
  have hz0 : 0 ≤ x * x := mul_self_nonneg x
  have hz : x * x ≤ 0.390625 := by
    have := mul_le_mul hx hx h0 (by norm_num)
    refine this.trans (by norm_num)
  have l : 0 ≤ Poly.eval tanhLow (x * x) := Poly.check_sound (n := 12) (l := 0) (h := 0.390625) (by decide +kernel)
    (by norm_num; exact hz0) (by norm_num at hz ⊢; exact hz)
  have u : 0 ≤ Poly.eval tanhHigh (x * x) := Poly.check_sound (n := 12) (l := 0) (h := 0.390625) (by decide +kernel)
    (by norm_num; exact hz0) (by norm_num at hz ⊢; exact hz)
  have e1 : x * Poly.eval tanhLow (x * x) = 93 / 10 ^ 10 * x -
      (tanhP x * Poly.eval coshTs (x * x) - x * Poly.eval sinhTs (x * x)) := by
    simp only [tanhLow, coshTs, sinhTs, Poly.eval_cons, Poly.eval_nil, tanhP, tanhQ]; push_cast; ring
  have e2 : x * Poly.eval tanhHigh (x * x) = 93 / 10 ^ 10 * x +
      (tanhP x * Poly.eval coshTs (x * x) - x * Poly.eval sinhTs (x * x)) := by
    simp only [tanhHigh, coshTs, sinhTs, Poly.eval_cons, Poly.eval_nil, tanhP, tanhQ]; push_cast; ring
  have l' := mul_nonneg h0 l
  have u' := mul_nonneg h0 u
  rw [e1] at l'
  rw [e2] at u'
  have hP : |tanhP x| ≤ 1 := by
    obtain ⟨q1, q2⟩ := tanhQ_bound hz0 hz
    have e : tanhP x = x * (1 + x * x * tanhQ (x * x)) := by unfold tanhP; ring
    have a1 : -0.34 ≤ x * x * tanhQ (x * x) := by nlinarith
    have a2 : x * x * tanhQ (x * x) ≤ 0 := by nlinarith
    rw [e, abs_mul, abs_of_nonneg h0]
    have : |1 + x * x * tanhQ (x * x)| ≤ 1 := by rw [abs_le]; norm_num at *; constructor <;> linarith
    calc _ ≤ (1 : ℝ) * 1 := mul_le_mul (hx.trans (by norm_num)) this (abs_nonneg _) (by norm_num)
      _ = 1 := by norm_num
  have hx1 : |x| ≤ 1 := by rw [abs_of_nonneg h0]; exact hx.trans (by norm_num)
  have c := cosh_taylor hx1
  have s := sinh_taylor hx1
  rw [abs_of_nonneg h0] at c s
  have hr : x ^ 13 * (2 / 10 ^ 10) ≤ x * (1 / 10 ^ 12) := by
    have h12 : x ^ 12 ≤ 0.625 ^ 12 := pow_le_pow_left₀ h0 hx 12
    rw [pow_succ' x 12, mul_assoc]
    refine mul_le_mul_of_nonneg_left ?_ h0
    norm_num at h12 ⊢
    linarith
  have key : |tanhP x * Real.cosh x - Real.sinh x| ≤ 94 / 10 ^ 10 * x := by
    rw [show tanhP x * Real.cosh x - Real.sinh x = (tanhP x * Poly.eval coshTs (x * x) - x * Poly.eval sinhTs (x * x)) +
      (tanhP x * (Real.cosh x - Poly.eval coshTs (x * x)) - (Real.sinh x - x * Poly.eval sinhTs (x * x))) by ring]
    have a1 : |tanhP x * (Real.cosh x - Poly.eval coshTs (x * x))| ≤ x * (1 / 10 ^ 12) := by
      rw [abs_mul]
      calc _ ≤ 1 * (x * (1 / 10 ^ 12)) := mul_le_mul hP (c.trans hr) (abs_nonneg _) (by norm_num)
        _ = _ := one_mul _
    have a2 := abs_sub (tanhP x * (Real.cosh x - Poly.eval coshTs (x * x))) (Real.sinh x - x * Poly.eval sinhTs (x * x))
    refine (abs_add_le _ _).trans ?_
    have a3 : |tanhP x * Poly.eval coshTs (x * x) - x * Poly.eval sinhTs (x * x)| ≤ 93 / 10 ^ 10 * x := by
      rw [abs_le]; constructor <;> linarith
    have a4 := s.trans hr
    generalize |tanhP x * (Real.cosh x - Poly.eval coshTs (x * x)) - (Real.sinh x - x * Poly.eval sinhTs (x * x))| = g at *
    norm_num at *
    linarith
  have hc := Real.one_le_cosh x
  have hc0 : 0 < Real.cosh x := by linarith
  rw [Real.tanh_eq_sinh_div_cosh, show tanhP x - Real.sinh x / Real.cosh x =
    (tanhP x * Real.cosh x - Real.sinh x) / Real.cosh x by field_simp, abs_div, abs_of_pos hc0]
  exact (div_le_self (abs_nonneg _) hc).trans key

/-- The inner polynomial of `vec_tanh_float` (detail/vec_math.hpp:501-510). -/
def tanhHorner (V : LaneOps 32) (argSqr : BitVec 32) : BitVec 32 :=
  V.add (V.mul (V.add (V.mul (V.add (V.mul (V.add (V.mul (litD (-5.70498872745e-3)) argSqr) (litD 2.06390887954e-2))
    argSqr) (litD (-5.37397155531e-2))) argSqr) (litD 1.33314422036e-1)) argSqr) (litD (-3.33332819422e-1))

theorem tanhHorner_track {V : LaneOps 32} (h : V.Ieee) {a : BitVec 32} {v : ℝ} (ha : Tr a v 0 (5/2^3)) :
    Tr (tanhHorner V (binary32.mul a a)) (tanhQ (v * v)) (2513/2^36) (3237/2^13) := by
  have t1 := Tr.mul (D := 25/2^6) (E := 3201/2^37) ha ha (by norm_num) (by norm_num) (by norm_num)
  have t2 := Tr.const (x := litD (-5.70498872745e-3)) (-6125685/2^30) (187/2^15) (by decide +kernel) (by norm_num)
  have t3 := Tr.const (x := litD 2.06390887954e-2) (5540263/2^28) (1353/2^16) (by decide +kernel) (by norm_num)
  have t4 := Tr.const (x := litD (-5.37397155531e-2)) (-14425645/2^28) (1761/2^15) (by decide +kernel) (by norm_num)
  have t5 := Tr.const (x := litD 1.33314422036e-1) (8946579/2^26) (2185/2^14) (by decide +kernel) (by norm_num)
  have t6 := Tr.const (x := litD (-3.33332819422e-1)) (-11184793/2^25) (2731/2^13) (by decide +kernel) (by norm_num)
  have t7 := Tr.mul (D := 1169/2^19) (E := 2339/2^43) t2 t1 (by norm_num) (by norm_num) (by norm_num)
  have t8 := Tr.add (D := 2999/2^17) (E := 7/2^32) t7 t3 (by norm_num) (by norm_num) (by norm_num)
  have t9 := Tr.mul (D := 2343/2^18) (E := 117/2^36) t8 t1 (by norm_num) (by norm_num) (by norm_num)
  have t10 := Tr.add (D := 1027/2^14) (E := 2991/2^39) t9 t4 (by norm_num) (by norm_num) (by norm_num)
  have t11 := Tr.mul (D := 1605/2^16) (E := 1387/2^38) t10 t1 (by norm_num) (by norm_num) (by norm_num)
  have t12 := Tr.add (D := 2587/2^14) (E := 3975/2^38) t11 t5 (by norm_num) (by norm_num) (by norm_num)
  have t13 := Tr.mul (D := 4043/2^16) (E := 3575/2^38) t12 t1 (by norm_num) (by norm_num) (by norm_num)
  have t14 := Tr.add (D := 3237/2^13) (E := 2513/2^36) t13 t6 (by norm_num) (by norm_num) (by norm_num)

  unfold tanhHorner
  rw [h.add, h.mul]
  refine t14.congr ?_
  unfold tanhQ
  push_cast
  ring

/-- The term of third order of `vec_tanh_float`. -/
theorem cubic_term' {x a p : BitVec 32} {P E C : ℝ} (hx : IsFin binary32 x) (ha : IsFin binary32 a)
    (hxa : |binary32.toReal a| = |binary32.toReal x|) (hp : Tr p P E C)
    (hb : |binary32.toReal x| ≤ 1) (hl : 1 / 2 ^ 16 ≤ |binary32.toReal x|) (hC : C + E ≤ 1) :
    IsFin binary32 (binary32.mul (binary32.mul p (binary32.mul a a)) x) ∧
    |binary32.toReal (binary32.mul (binary32.mul p (binary32.mul a a)) x) - binary32.toReal x ^ 3 * P| ≤
      |binary32.toReal x| ^ 3 * (3.1 / 2 ^ 24 * (C + E) + E + 1 / 2 ^ 100) := by
  have hX0 := abs_nonneg (binary32.toReal x)
  have hx2 : 1 / 2 ^ 32 ≤ |binary32.toReal x| ^ 2 := by
    have := pow_le_pow_left₀ (by norm_num : (0 : ℝ) ≤ 1 / 2 ^ 16) hl 2
    norm_num at this ⊢; linarith
  have hx3 : 1 / 2 ^ 48 ≤ |binary32.toReal x| ^ 3 := by
    have := pow_le_pow_left₀ (by norm_num : (0 : ℝ) ≤ 1 / 2 ^ 16) hl 3
    norm_num at this ⊢; exact this
  have hx21 : |binary32.toReal x| ^ 2 ≤ 1 := pow_le_one₀ hX0 hb
  have hx31 : |binary32.toReal x| ^ 3 ≤ 1 := pow_le_one₀ hX0 hb
  have hp1 := hp.abs_le
  have hC0 : 0 ≤ C + E := (abs_nonneg _).trans hp1
  have hE0 := hp.e_nonneg
  -- a * a
  have aa : binary32.toReal a * binary32.toReal a = binary32.toReal x ^ 2 := by
    rw [← abs_mul_abs_self, hxa, abs_mul_abs_self, sq]
  have n1 : |binary32.toReal a * binary32.toReal a| = |binary32.toReal x| ^ 2 := by rw [aa, abs_pow]
  obtain ⟨f1, e1⟩ := mul_near32 ha ha (by rw [n1]; exact hx21.trans (by norm_num))
  rw [n1, aa] at e1
  generalize binary32.mul a a = z at *
  have e1' : |binary32.toReal z - binary32.toReal x ^ 2| ≤ |binary32.toReal x| ^ 2 * (1.01 / 2 ^ 24) := by
    generalize |binary32.toReal z - binary32.toReal x ^ 2| = g at *
    generalize |binary32.toReal x| ^ 2 = w at *
    norm_num at e1 hx2 ⊢; linarith
  have hz : |binary32.toReal z| ≤ |binary32.toReal x| ^ 2 * (1 + 1.01 / 2 ^ 24) := by
    have := abs_add_le (binary32.toReal z - binary32.toReal x ^ 2) (binary32.toReal x ^ 2)
    rw [sub_add_cancel, abs_pow] at this
    linarith
  -- p * z
  have n2 : |binary32.toReal p * binary32.toReal z| ≤ (C + E) * (|binary32.toReal x| ^ 2 * (1 + 1.01 / 2 ^ 24)) := by
    rw [abs_mul]; exact mul_le_mul hp1 hz (abs_nonneg _) hC0
  have n2' : (C + E) * (|binary32.toReal x| ^ 2 * (1 + 1.01 / 2 ^ 24)) ≤ 2 := by
    calc _ ≤ (1 : ℝ) * (1 * (1 + 1.01 / 2 ^ 24)) := by gcongr
      _ ≤ 2 := by norm_num
  obtain ⟨f2, e2⟩ := mul_near32 hp.fin f1 (n2.trans (n2'.trans (by norm_num)))
  have h1 : |binary32.toReal p * binary32.toReal z - P * binary32.toReal x ^ 2| ≤
      (C + E) * (|binary32.toReal x| ^ 2 * (1.01 / 2 ^ 24)) + E * |binary32.toReal x| ^ 2 := by
    rw [show binary32.toReal p * binary32.toReal z - P * binary32.toReal x ^ 2 =
      binary32.toReal p * (binary32.toReal z - binary32.toReal x ^ 2) +
      (binary32.toReal p - P) * binary32.toReal x ^ 2 by ring]
    refine (abs_add_le _ _).trans (add_le_add ?_ ?_)
    · rw [abs_mul]; exact mul_le_mul hp1 e1' (abs_nonneg _) hC0
    · rw [abs_mul, abs_pow]; exact mul_le_mul_of_nonneg_right hp.err (by positivity)
  have e2' : |binary32.toReal (binary32.mul p z) - P * binary32.toReal x ^ 2| ≤
      |binary32.toReal x| ^ 2 * (2.03 / 2 ^ 24 * (C + E) + E + 1 / 2 ^ 110) := by
    have h2 := abs_add_le (binary32.toReal (binary32.mul p z) - binary32.toReal p * binary32.toReal z)
      (binary32.toReal p * binary32.toReal z - P * binary32.toReal x ^ 2)
    rw [sub_add_sub_cancel] at h2
    refine h2.trans ((add_le_add e2 h1).trans ?_)
    have h3 := mul_le_mul_of_nonneg_left n2 (by norm_num : (0 : ℝ) ≤ 1 / 2 ^ 24)
    generalize |binary32.toReal p * binary32.toReal z| = g at *
    generalize |binary32.toReal x| ^ 2 = w at *
    have hw : 0 ≤ w := le_trans (by norm_num) hx2
    have hs : 0 ≤ w * (C + E) := mul_nonneg hw hC0
    rw [show (C + E) * (w * (1 + 1.01 / 2 ^ 24)) = (1 + 1.01 / 2 ^ 24) * (w * (C + E)) by ring] at h3
    rw [show (C + E) * (w * (1.01 / 2 ^ 24)) + E * w = 1.01 / 2 ^ 24 * (w * (C + E)) + E * w by ring,
      show w * (2.03 / 2 ^ 24 * (C + E) + E + 1 / 2 ^ 110) = 2.03 / 2 ^ 24 * (w * (C + E)) + E * w + w / 2 ^ 110 by ring]
    generalize w * (C + E) = s at *
    norm_num at h3 hx2 hs ⊢
    linarith
  generalize binary32.mul p z = y at *
  generalize hK : 2.03 / 2 ^ 24 * (C + E) + E + 1 / 2 ^ 110 = K at *
  have hK0 : 0 ≤ K := by rw [← hK]; positivity
  -- y * x
  have h4 : |binary32.toReal y * binary32.toReal x - binary32.toReal x ^ 3 * P| ≤ |binary32.toReal x| ^ 3 * K := by
    rw [show binary32.toReal y * binary32.toReal x - binary32.toReal x ^ 3 * P =
      (binary32.toReal y - P * binary32.toReal x ^ 2) * binary32.toReal x by ring, abs_mul]
    calc _ ≤ |binary32.toReal x| ^ 2 * K * |binary32.toReal x| := mul_le_mul_of_nonneg_right e2' hX0
      _ = _ := by ring
  have h5 : |binary32.toReal x ^ 3 * P| ≤ |binary32.toReal x| ^ 3 * C := by
    rw [abs_mul, abs_pow]; exact mul_le_mul_of_nonneg_left hp.bnd (by positivity)
  have hC1 := hp.b_nonneg
  have h6 : |binary32.toReal y * binary32.toReal x| ≤ |binary32.toReal x| ^ 3 * (K + C) := by
    have := abs_add_le (binary32.toReal y * binary32.toReal x - binary32.toReal x ^ 3 * P) (binary32.toReal x ^ 3 * P)
    rw [sub_add_cancel] at this
    linarith
  have hKC : K + C ≤ 1.001 * (C + E) + 1 / 2 ^ 110 := by
    rw [← hK]; norm_num at *; linarith
  have h7 : |binary32.toReal x| ^ 3 * (K + C) ≤ 2 := by
    calc _ ≤ (1 : ℝ) * (1.001 * (C + E) + 1 / 2 ^ 110) := mul_le_mul hx31 hKC (by positivity) (by norm_num)
      _ ≤ 2 := by norm_num at *; linarith
  obtain ⟨f3, e3⟩ := mul_near32 f2 hx (h6.trans (h7.trans (by norm_num)))
  refine ⟨f3, ?_⟩
  have h8 := abs_add_le (binary32.toReal (binary32.mul y x) - binary32.toReal y * binary32.toReal x)
    (binary32.toReal y * binary32.toReal x - binary32.toReal x ^ 3 * P)
  rw [sub_add_sub_cancel] at h8
  refine h8.trans ((add_le_add e3 h4).trans ?_)
  have h9 := mul_le_mul_of_nonneg_left (h6.trans (mul_le_mul_of_nonneg_left hKC (by positivity)))
    (by norm_num : (0 : ℝ) ≤ 1 / 2 ^ 24)
  rw [← hK]
  generalize |binary32.toReal y * binary32.toReal x| = g at *
  generalize |binary32.toReal x| ^ 3 = w at *
  have hs : 0 ≤ w * (C + E) := mul_nonneg (le_trans (by norm_num) hx3) hC0
  rw [show w * (1.001 * (C + E) + 1 / 2 ^ 110) = 1.001 * (w * (C + E)) + w / 2 ^ 110 by ring] at h9
  rw [show w * (2.03 / 2 ^ 24 * (C + E) + E + 1 / 2 ^ 110) = 2.03 / 2 ^ 24 * (w * (C + E)) + w * E + w / 2 ^ 110 by ring,
    show w * (3.1 / 2 ^ 24 * (C + E) + E + 1 / 2 ^ 100) = 3.1 / 2 ^ 24 * (w * (C + E)) + w * E + w / 2 ^ 100 by ring]
  generalize w * (C + E) = s at *
  norm_num at h9 hx3 hs ⊢
  linarith

/-- The whole polynomial of `vec_tanh_float`. -/
theorem odd_poly_tanh {x a p : BitVec 32} {P E C b d : ℝ} (hx : IsFin binary32 x) (ha : IsFin binary32 a)
    (hxa : |binary32.toReal a| = |binary32.toReal x|) (hp : Tr p P E C)
    (hb : |binary32.toReal x| ≤ b) (hb1 : b ≤ 1) (hC : C + E ≤ 1)
    (hd : b ^ 2 * (3.1 / 2 ^ 24 * (C + E) + E + 1 / 2 ^ 100) + 1 / 2 ^ 24 *
      (1 + b ^ 2 * C + b ^ 2 * (3.1 / 2 ^ 24 * (C + E) + E + 1 / 2 ^ 100)) ≤ d) (hd1 : 1.3 / 2 ^ 24 ≤ d) :
    IsFin binary32 (binary32.add (binary32.mul (binary32.mul p (binary32.mul a a)) x) x) ∧
    |binary32.toReal (binary32.add (binary32.mul (binary32.mul p (binary32.mul a a)) x) x) -
      (binary32.toReal x + binary32.toReal x ^ 3 * P)| ≤ d * |binary32.toReal x| := by
  have hX0 := abs_nonneg (binary32.toReal x)
  have hp1 := hp.abs_le
  have hE0 := hp.e_nonneg
  have hC0 := hp.b_nonneg
  by_cases hl : 1 / 2 ^ 16 ≤ |binary32.toReal x|
  · obtain ⟨f1, e1⟩ := cubic_term' hx ha hxa hp (hb.trans hb1) hl hC
    generalize hK : 3.1 / 2 ^ 24 * (C + E) + E + 1 / 2 ^ 100 = K at *
    have hK0 : 0 ≤ K := by rw [← hK]; positivity
    have hK1 : K ≤ 2 := by rw [← hK]; norm_num at *; linarith
    generalize binary32.mul (binary32.mul p (binary32.mul a a)) x = t at *
    have h3 : |binary32.toReal x| ^ 3 ≤ |binary32.toReal x| * b ^ 2 := by
      rw [pow_succ' _ 2]; exact mul_le_mul_of_nonneg_left (pow_le_pow_left₀ hX0 hb 2) hX0
    have e1' : |binary32.toReal t - binary32.toReal x ^ 3 * P| ≤ |binary32.toReal x| * (b ^ 2 * K) := by
      refine e1.trans ?_
      rw [← mul_assoc]; exact mul_le_mul_of_nonneg_right h3 hK0
    have h4 : |binary32.toReal x ^ 3 * P| ≤ |binary32.toReal x| * (b ^ 2 * C) := by
      rw [abs_mul, abs_pow, ← mul_assoc]
      exact mul_le_mul h3 hp.bnd (abs_nonneg _) (by positivity)
    have h5 : |binary32.toReal t + binary32.toReal x| ≤ |binary32.toReal x| * (1 + b ^ 2 * C + b ^ 2 * K) := by
      rw [show binary32.toReal t + binary32.toReal x = binary32.toReal x + binary32.toReal x ^ 3 * P +
        (binary32.toReal t - binary32.toReal x ^ 3 * P) by ring]
      refine (abs_add_le _ _).trans ?_
      have := abs_add_le (binary32.toReal x) (binary32.toReal x ^ 3 * P)
      linarith
    have h6 : |binary32.toReal x| * (1 + b ^ 2 * C + b ^ 2 * K) ≤ 1 * (1 + 1 * 1 + 1 * 2) := by
      have hb0 : 0 ≤ b := hX0.trans hb
      have hb2 : b ^ 2 ≤ 1 := pow_le_one₀ hb0 hb1
      have : C ≤ 1 := by linarith
      gcongr
      exact hb.trans hb1
    obtain ⟨f2, e2⟩ := add_near32 f1 hx (h5.trans (h6.trans (by norm_num)))
    refine ⟨f2, ?_⟩
    have h7 := abs_add_le (binary32.toReal (binary32.add t x) - (binary32.toReal t + binary32.toReal x))
      (binary32.toReal t - binary32.toReal x ^ 3 * P)
    rw [show binary32.toReal (binary32.add t x) - (binary32.toReal t + binary32.toReal x) +
      (binary32.toReal t - binary32.toReal x ^ 3 * P) = binary32.toReal (binary32.add t x) -
      (binary32.toReal x + binary32.toReal x ^ 3 * P) by ring] at h7
    refine h7.trans ?_
    have h8 := mul_le_mul_of_nonneg_right hd hX0
    have h9 := mul_le_mul_of_nonneg_left h5 (by norm_num : (0 : ℝ) ≤ 1 / 2 ^ 24)
    refine le_trans ?_ h8
    rw [show (b ^ 2 * K + 1 / 2 ^ 24 * (1 + b ^ 2 * C + b ^ 2 * K)) * |binary32.toReal x| =
      1 / 2 ^ 24 * (|binary32.toReal x| * (1 + b ^ 2 * C + b ^ 2 * K)) + |binary32.toReal x| * (b ^ 2 * K) by ring]
    linarith
  · rw [not_le] at hl
    have hx1 : |binary32.toReal x| ≤ 1 := hb.trans hb1
    have hx2 : |binary32.toReal x| ^ 2 ≤ 1 / 2 ^ 32 := by
      have := pow_le_pow_left₀ hX0 hl.le 2
      norm_num at this ⊢; linarith
    have n1 : |binary32.toReal a * binary32.toReal a| = |binary32.toReal x| ^ 2 := by rw [abs_mul, hxa, sq]
    have r1 : |binary32.toReal a * binary32.toReal a| ≤ 2 ^ 127 := by rw [n1]; exact hx2.trans (by norm_num)
    have s1 := mul_size32 ha ha r1
    have f1 := (mul_near32 ha ha r1).1
    rw [n1] at s1
    generalize binary32.mul a a = z at *
    have s1' : |binary32.toReal z| ≤ 4 / 2 ^ 32 := by
      refine s1.trans ?_
      norm_num at hx2 ⊢; linarith
    have n2 : |binary32.toReal p * binary32.toReal z| ≤ 4 / 2 ^ 32 := by
      rw [abs_mul]
      calc _ ≤ 1 * (4 / 2 ^ 32 : ℝ) := mul_le_mul (hp1.trans hC) s1' (abs_nonneg _) (by norm_num)
        _ = _ := one_mul _
    have r2 : |binary32.toReal p * binary32.toReal z| ≤ 2 ^ 127 := n2.trans (by norm_num)
    have s2 := mul_size32 hp.fin f1 r2
    have f2 := (mul_near32 hp.fin f1 r2).1
    generalize binary32.mul p z = y at *
    have s2' : |binary32.toReal y| ≤ 16 / 2 ^ 32 := by
      refine s2.trans ?_
      norm_num at n2 ⊢; linarith
    have n3 : |binary32.toReal y * binary32.toReal x| ≤ |binary32.toReal x| * (16 / 2 ^ 32) := by
      rw [abs_mul, mul_comm]; exact mul_le_mul_of_nonneg_left s2' hX0
    have r3 : |binary32.toReal y * binary32.toReal x| ≤ 2 ^ 127 := by
      refine n3.trans ?_
      norm_num at hx1 ⊢; linarith
    have s3 := mul_size32 f2 hx r3
    have f3 := (mul_near32 f2 hx r3).1
    generalize binary32.mul y x = t at *
    have s3' : |binary32.toReal t| ≤ |binary32.toReal x| * (64 / 2 ^ 32) := by
      refine s3.trans ?_
      norm_num at n3 ⊢; linarith
    have h4 : |binary32.toReal x ^ 3 * P| ≤ |binary32.toReal x| * (1 / 2 ^ 32) := by
      rw [abs_mul, abs_pow, pow_succ' _ 2]
      calc _ ≤ |binary32.toReal x| * (1 / 2 ^ 32) * 1 := by
            refine mul_le_mul (mul_le_mul_of_nonneg_left hx2 hX0) (hp.bnd.trans (by linarith)) (abs_nonneg _) (by positivity)
        _ = _ := mul_one _
    have h5 := abs_add_le (binary32.toReal t) (binary32.toReal x)
    obtain ⟨f4, e4⟩ := add_near32 f3 hx (h5.trans (by norm_num at s3' hx1 ⊢; linarith))
    refine ⟨f4, ?_⟩
    have h7 := abs_add_le (binary32.toReal (binary32.add t x) - (binary32.toReal t + binary32.toReal x))
      (binary32.toReal t - binary32.toReal x ^ 3 * P)
    rw [show binary32.toReal (binary32.add t x) - (binary32.toReal t + binary32.toReal x) +
      (binary32.toReal t - binary32.toReal x ^ 3 * P) = binary32.toReal (binary32.add t x) -
      (binary32.toReal x + binary32.toReal x ^ 3 * P) by ring] at h7
    have h8 := abs_sub (binary32.toReal t) (binary32.toReal x ^ 3 * P)
    have h9 := mul_le_mul_of_nonneg_right hd1 hX0
    refine le_trans ?_ h9
    generalize |binary32.toReal x ^ 3 * P| = a1 at *
    generalize |binary32.toReal t - binary32.toReal x ^ 3 * P| = a2 at *
    norm_num at h4 s3' h8 h7 e4 h5 ⊢
    linarith

/-- The error for small arguments, relative to the argument. -/
theorem tanhSmall_error {V : LaneOps 32} (h : V.Ieee) {x a : BitVec 32} (hx : IsFin binary32 x)
    (ha : IsFin binary32 a) (hxa : |binary32.toReal a| = |binary32.toReal x|) (hb : |binary32.toReal x| ≤ 0.625) :
    IsFin binary32 (tanhSmall V x a) ∧
    |binary32.toReal (tanhSmall V x a) - Real.tanh (binary32.toReal x)| ≤ 13 / 10 ^ 8 * |binary32.toReal x| := by
  have t := tanhHorner_track h (Tr.exact ha (B := 5/2^3) (by rw [hxa]; exact hb.trans (by norm_num)))
  have aa : binary32.toReal a * binary32.toReal a = binary32.toReal x * binary32.toReal x := by
    rw [← abs_mul_abs_self, hxa, abs_mul_abs_self]
  rw [aa] at t
  obtain ⟨f, e⟩ := odd_poly_tanh (d := 12 / 10 ^ 8) hx ha hxa t hb (by norm_num) (by norm_num) (by norm_num) (by norm_num)
  have e1 : tanhSmall V x a = binary32.add (binary32.mul (binary32.mul (tanhHorner V (binary32.mul a a))
      (binary32.mul a a)) x) x := by
    unfold tanhSmall tanhHorner; dsimp only; rw [h.add, h.mul]
  rw [e1]
  refine ⟨f, ?_⟩
  have p := tanhP_error hb
  have e2 : binary32.toReal x + binary32.toReal x ^ 3 * tanhQ (binary32.toReal x * binary32.toReal x) =
    tanhP (binary32.toReal x) := rfl
  rw [e2] at e
  have := abs_sub_le (binary32.toReal (binary32.add (binary32.mul (binary32.mul (tanhHorner V (binary32.mul a a))
      (binary32.mul a a)) x) x)) (tanhP (binary32.toReal x)) (Real.tanh (binary32.toReal x))
  have h0 := abs_nonneg (binary32.toReal x)
  refine this.trans ((add_le_add e p).trans ?_)
  norm_num
  linarith

end Nova
