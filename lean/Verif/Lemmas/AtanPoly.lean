import Verif.Lemmas.OddPoly
import Mathlib.Analysis.SpecialFunctions.Trigonometric.ArctanDeriv
import Mathlib.Analysis.SpecialFunctions.Trigonometric.Arctan
import Mathlib.Analysis.Calculus.MeanValue
import Mathlib.Analysis.Calculus.Deriv.Pow

/-!
# The polynomial of `vec_atan_float`
-/

namespace Nova
open FP VecMath

/-- The inner polynomial of `vec_atan_float`, with its coefficients as real numbers. -/
noncomputable def atanQ (z : ℝ) : ℝ :=
  -5592341 / 2 ^ 24 + z * (13406829 / 2 ^ 26 + z * (-4656643 / 2 ^ 25 + z * (5405139 / 2 ^ 26)))

/-- The approximation of arctan. -/
noncomputable def atanP (x : ℝ) : ℝ := x + x ^ 3 * atanQ (x * x)

/-- The Taylor polynomial of arctan of degree 21, divided by `x`, as a polynomial in `x²`. -/
def atanTs : List ℚ := [1, -1/3, 1/5, -1/7, 1/9, -1/11, 1/13, -1/15, 1/17, -1/19, 1/21]
/-- `2.06e-8 - (atanP x / x - T x / x)` -/
def atanLow : List ℚ := [103/5000000000, -193/50331648, 74719/335544320, -957931/234881024, 18462613/603979776, -1/11, 1/13, -1/15, 1/17, -1/19, 1/21]
/-- `2.06e-8 + (atanP x / x - T x / x)` -/
def atanHigh : List ℚ := [103/5000000000, 193/50331648, -74719/335544320, 957931/234881024, -18462613/603979776, 1/11, -1/13, 1/15, -1/17, 1/19, -1/21]

/-- A function on the nonnegative numbers with nonnegative derivative that starts at 0. -/
theorem nonneg_of_deriv {g g' : ℝ → ℝ} (h0 : g 0 = 0) (hd : ∀ x, HasDerivAt g (g' x) x) (hp : ∀ x, 0 ≤ x → 0 ≤ g' x)
    {x : ℝ} (hx : 0 ≤ x) : 0 ≤ g x := by
  rw [← h0]
  refine monotoneOn_of_deriv_nonneg (convex_Ici 0) (fun y _ => (hd y).continuousAt.continuousWithinAt)
    (fun y _ => (hd y).differentiableAt.differentiableWithinAt) ?_ (Set.mem_Ici.mpr le_rfl) (Set.mem_Ici.mpr hx) hx
  intro y hy
  rw [interior_Ici] at hy
  rw [(hd y).deriv]
  exact hp y (le_of_lt hy)

theorem atanT_deriv (x : ℝ) : HasDerivAt (fun x : ℝ => x * Poly.eval atanTs (x * x))
    ((1 + x ^ 22) / (1 + x ^ 2)) x := by
  have e : (fun x : ℝ => x * Poly.eval atanTs (x * x)) = fun x => (1) / 1 * x ^ 1 + (-1) / 3 * x ^ 3 + (1) / 5 * x ^ 5 + (-1) / 7 * x ^ 7 + (1) / 9 * x ^ 9 + (-1) / 11 * x ^ 11 + (1) / 13 * x ^ 13 + (-1) / 15 * x ^ 15 + (1) / 17 * x ^ 17 + (-1) / 19 * x ^ 19 + (1) / 21 * x ^ 21 := by
    funext x
    simp only [atanTs, Poly.eval_cons, Poly.eval_nil]; push_cast; ring
  rw [e]
  have h : ∀ (n : ℕ) (c : ℝ), HasDerivAt (fun x : ℝ => c * x ^ (n + 1)) (c * ((n + 1 : ℕ) * x ^ n)) x := by
    intro n c
    have := (hasDerivAt_pow (n + 1) x).const_mul c
    simpa using this
  have s := (((((((((((h 0 ((1) / 1)).add (h 2 ((-1) / 3))).add (h 4 ((1) / 5))).add (h 6 ((-1) / 7))).add (h 8 ((1) / 9))).add (h 10 ((-1) / 11))).add (h 12 ((1) / 13))).add (h 14 ((-1) / 15))).add (h 16 ((1) / 17))).add (h 18 ((-1) / 19))).add (h 20 ((1) / 21)))
  refine s.congr_deriv ?_
  rw [eq_div_iff (by positivity)]
  push_cast
  ring

theorem atanT_error {x : ℝ} (hx : 0 ≤ x) (h : x ≤ 0.4143) :
    |Real.arctan x - x * Poly.eval atanTs (x * x)| ≤ 2 / 10 ^ 10 * x := by
  have hd : ∀ y, HasDerivAt (fun y => y * Poly.eval atanTs (y * y) - Real.arctan y)
      ((1 + y ^ 22) / (1 + y ^ 2) - 1 / (1 + y ^ 2)) y := fun y => (atanT_deriv y).sub (Real.hasDerivAt_arctan y)
  have l := nonneg_of_deriv (by simp) hd (fun y hy => by
    rw [← sub_div]; apply div_nonneg <;> [(ring_nf; positivity); positivity]) hx
  have hd2 : ∀ y, HasDerivAt (fun y => 1 / 23 * y ^ 23 - (y * Poly.eval atanTs (y * y) - Real.arctan y))
      (y ^ 22 - ((1 + y ^ 22) / (1 + y ^ 2) - 1 / (1 + y ^ 2))) y := fun y => by
    refine HasDerivAt.sub ?_ (hd y)
    refine ((hasDerivAt_pow 23 y).const_mul (1 / 23)).congr_deriv ?_
    norm_num
    ring
  have u := nonneg_of_deriv (by simp) hd2 (fun y hy => by
    rw [← sub_div, sub_nonneg, div_le_iff₀ (by positivity)]
    have : 0 ≤ y ^ 22 * y ^ 2 := by positivity
    nlinarith) hx
  have h22 : x ^ 22 ≤ 0.4143 ^ 22 := pow_le_pow_left₀ hx h 22
  have h23 : x ^ 23 ≤ 0.4143 ^ 22 * x := by
    rw [pow_succ]; exact mul_le_mul_of_nonneg_right h22 hx
  have h3 : (0.4143 : ℝ) ^ 22 ≤ 4 / 10 ^ 9 := by norm_num
  have h4 := mul_le_mul_of_nonneg_right h3 hx
  rw [abs_sub_comm, abs_of_nonneg l]
  norm_num at u h4 h23 ⊢
  linarith

theorem atanP_error {x : ℝ} (hx : |x| ≤ 0.4143) : |atanP x - Real.arctan x| ≤ 208 / 10 ^ 10 * |x| := by
  wlog h0 : 0 ≤ x generalizing x
  · have := this (x := -x) (by rw [abs_neg]; exact hx) (by linarith)
    rw [abs_neg, Real.arctan_neg, show atanP (-x) = -atanP x by unfold atanP; rw [neg_mul_neg]; ring,
      neg_sub_neg, abs_sub_comm] at this
    exact this
  rw [abs_of_nonneg h0] at *
  have hz0 : 0 ≤ x * x := mul_self_nonneg x
  have hz : x * x ≤ 0.17165 := by
    have := mul_le_mul hx hx h0 (by norm_num)
    refine this.trans (by norm_num)
  have l : 0 ≤ Poly.eval atanLow (x * x) := Poly.check_sound (n := 12) (l := 0) (h := 0.17165) (by decide +kernel)
    (by norm_num; exact hz0) (by norm_num at hz ⊢; exact hz)
  have u : 0 ≤ Poly.eval atanHigh (x * x) := Poly.check_sound (n := 12) (l := 0) (h := 0.17165) (by decide +kernel)
    (by norm_num; exact hz0) (by norm_num at hz ⊢; exact hz)
  have e1 : x * Poly.eval atanLow (x * x) = 206 / 10 ^ 10 * x - (atanP x - x * Poly.eval atanTs (x * x)) := by
    simp only [atanLow, atanTs, Poly.eval_cons, Poly.eval_nil, atanP, atanQ]; push_cast; ring
  have e2 : x * Poly.eval atanHigh (x * x) = 206 / 10 ^ 10 * x + (atanP x - x * Poly.eval atanTs (x * x)) := by
    simp only [atanHigh, atanTs, Poly.eval_cons, Poly.eval_nil, atanP, atanQ]; push_cast; ring
  have l' := mul_nonneg h0 l
  have u' := mul_nonneg h0 u
  rw [e1] at l'
  rw [e2] at u'
  have t := abs_le.mp (atanT_error h0 hx)
  rw [abs_le]
  norm_num at *
  constructor <;> linarith

/-- The inner polynomial of `vec_atan_float` (detail/vec_math.hpp:470-474). -/
def atanHorner (V : LaneOps 32) (x2 : BitVec 32) : BitVec 32 :=
  V.add (litD (-0.333329498767852783203125))
    (V.mul x2 (V.add (litD 0.19977732002735137939453125)
    (V.mul x2 (V.add (litD (-0.1387787759304046630859375))
    (V.mul x2 (litD 8.054284751415252685546875e-2))))))

theorem atanHorner_track {V : LaneOps 32} (h : V.Ieee) {x : BitVec 32} {v : ℝ} (hx : Tr x v 0 0.4143) :
    Tr (atanHorner V (binary32.mul x x)) (atanQ (v * v)) (2061/2^36) (3049/2^13) := by
  have t1 := Tr.mul (D := 2813/2^14) (E := 1407/2^37) hx hx (by norm_num) (by norm_num) (by norm_num)
  have t2 := Tr.const (x := litD (-0.333329498767852783203125)) (-5592341/2^24) (2731/2^13) (by decide +kernel) (by norm_num)
  have t3 := Tr.const (x := litD 0.19977732002735137939453125) (13406829/2^26) (1637/2^13) (by decide +kernel) (by norm_num)
  have t4 := Tr.const (x := litD (-0.1387787759304046630859375)) (-4656643/2^25) (1137/2^13) (by decide +kernel) (by norm_num)
  have t5 := Tr.const (x := litD 8.054284751415252685546875e-2) (5405139/2^26) (165/2^11) (by decide +kernel) (by norm_num)
  have t6 := Tr.mul (D := 3627/2^18) (E := 907/2^39) t1 t5 (by norm_num) (by norm_num) (by norm_num)
  have t7 := Tr.add (D := 2501/2^14) (E := 2955/2^38) t4 t6 (by norm_num) (by norm_num) (by norm_num)
  have t8 := Tr.mul (D := 859/2^15) (E := 2733/2^39) t1 t7 (by norm_num) (by norm_num) (by norm_num)
  have t9 := Tr.add (D := 463/2^11) (E := 317/2^34) t3 t8 (by norm_num) (by norm_num) (by norm_num)
  have t10 := Tr.mul (D := 159/2^12) (E := 2143/2^38) t1 t9 (by norm_num) (by norm_num) (by norm_num)
  have t11 := Tr.add (D := 3049/2^13) (E := 2061/2^36) t2 t10 (by norm_num) (by norm_num) (by norm_num)
  unfold atanHorner
  rw [h.add, h.mul]
  refine t11.congr ?_
  unfold atanQ
  push_cast
  ring

end Nova
