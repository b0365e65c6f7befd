import Verif.Lemmas.ExpError

/-!
# The polynomial of `vec_exp_float` on the interval of its comment
-/

namespace Nova
open FP VecMath

/-- `3.5e-8 * T - (P - T) - 2e-12`, where `T` is the Taylor polynomial of degree 11 -/
def expHalfLow : List ℚ := [17499/500000000000, -1057187/3276800000000, 4526251/13107200000000, 289866459/26214400000000, -89154479/26214400000000, -183414362289/2097152000000000, 5806916181/2097152000000000, 22222223/112000000000, 22222223/896000000000, 22222223/8064000000000, 22222223/80640000000000, 22222223/887040000000000]
/-- `3.5e-8 * T + (P - T) - 2e-12` -/
def expHalfHigh : List ℚ := [17499/500000000000, 1286563/3276800000000, -4067499/13107200000000, -868681873/78643200000000, 267692813/78643200000000, 550246756883/6291456000000000, -52260410621/18874368000000000, -199999993/1008000000000, -199999993/8064000000000, -199999993/72576000000000, -199999993/725760000000000, -199999993/7983360000000000]

/-- The Taylor polynomial of degree 11. -/
noncomputable def expT11 (x : ℝ) : ℝ := ∑ m ∈ Finset.range 12, x ^ m / m.factorial

theorem expT11_error {x : ℝ} (h : |x| ≤ 0.5) : |Real.exp x - expT11 x| ≤ 1 / 10 ^ 12 := by
  have := Real.exp_bound (x := x) (h.trans (by norm_num)) (n := 12) (by norm_num)
  refine this.trans ?_
  have h2 : |x| ^ 12 ≤ 0.5 ^ 12 := pow_le_pow_left₀ (abs_nonneg _) h 12
  refine (mul_le_mul_of_nonneg_right h2 (by positivity)).trans ?_
  norm_num [Nat.factorial]

theorem expP_half {x : ℝ} (h : |x| ≤ 0.5) : |expP x - Real.exp x| ≤ 35 / 10 ^ 9 * Real.exp x := by
  obtain ⟨a1, a2⟩ := abs_le.mp h
  have h1 : 0 ≤ Poly.eval expHalfLow x := by
    refine Poly.check_sound (n := 14) (l := -0.5) (h := 0.5) (by decide +kernel) ?_ ?_
    · norm_num at a1 ⊢; exact a1
    · norm_num at a2 ⊢; exact a2
  have h2 : 0 ≤ Poly.eval expHalfHigh x := by
    refine Poly.check_sound (n := 14) (l := -0.5) (h := 0.5) (by decide +kernel) ?_ ?_
    · norm_num at a1 ⊢; exact a1
    · norm_num at a2 ⊢; exact a2
  obtain ⟨t1, t2⟩ := abs_le.mp (expT11_error h)
  have e1 : Poly.eval expHalfLow x = 35 / 10 ^ 9 * expT11 x - (expP x - expT11 x) - 2 / 10 ^ 12 := by
    simp only [expHalfLow, Poly.eval_cons, Poly.eval_nil, expT11, expP, Finset.sum_range_succ, Finset.sum_range_zero,
      Nat.factorial]
    push_cast
    ring
  have e2 : Poly.eval expHalfHigh x = 35 / 10 ^ 9 * expT11 x + (expP x - expT11 x) - 2 / 10 ^ 12 := by
    simp only [expHalfHigh, Poly.eval_cons, Poly.eval_nil, expT11, expP, Finset.sum_range_succ, Finset.sum_range_zero,
      Nat.factorial]
    push_cast
    ring
  rw [e1] at h1
  rw [e2] at h2
  rw [abs_le]
  constructor <;> linarith

end Nova
