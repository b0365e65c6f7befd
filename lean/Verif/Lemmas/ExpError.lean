import Verif.Analysis.Poly
import Verif.Lemmas.IeeeClass
import Mathlib.Analysis.Complex.Exponential
import Mathlib.Analysis.SpecialFunctions.Log.Deriv

/-!
# The error of `vec_exp_float`
-/

namespace Nova
open FP VecMath

/-! ## The polynomial in real arithmetic -/

/-- The polynomial of `vec_exp_float`, with its coefficients as real numbers. -/
noncomputable def expP (x : ℝ) : ℝ :=
  1 + x * (8388611 / 2 ^ 23 + x * (16777205 / 2 ^ 25 + x * (11184069 / 2 ^ 26 + x * (2796431 / 2 ^ 26 +
    x * (9041757 / 2 ^ 30 + x * (1488335 / 2 ^ 30))))))

/-- `3.6e-8 * T - (P - T) - 2e-11`, where `T` is the Taylor polynomial -/
def expLow : List ℚ := [1799/50000000000, -5269551/16384000000000, 22664023/65536000000000, 4348062421/393216000000000, -1337300801/393216000000000, -2751215172191/31457280000000000, 261311359217/94371840000000000, 35714287/180000000000, 35714287/1440000000000, 35714287/12960000000000]
/-- `3.6e-8 * T + (P - T) - 2e-11` -/
def expHigh : List ℚ := [1799/50000000000, 6449199/16384000000000, -20304727/65536000000000, -4343343829/393216000000000, 1338480449/393216000000000, 2751234046559/31457280000000000, -261301922033/94371840000000000, -249999991/1260000000000, -249999991/10080000000000, -249999991/90720000000000]

theorem expLow_nonneg {x : ℝ} (h : |x| ≤ 0.34667) : 0 ≤ Poly.eval expLow x := by
  obtain ⟨h1, h2⟩ := abs_le.mp h
  refine Poly.check_sound (n := 12) (l := -0.34667) (h := 0.34667) (by decide +kernel) ?_ ?_
  · norm_num at h1 ⊢; exact h1
  · norm_num at h2 ⊢; exact h2

theorem expHigh_nonneg {x : ℝ} (h : |x| ≤ 0.34667) : 0 ≤ Poly.eval expHigh x := by
  obtain ⟨h1, h2⟩ := abs_le.mp h
  refine Poly.check_sound (n := 12) (l := -0.34667) (h := 0.34667) (by decide +kernel) ?_ ?_
  · norm_num at h1 ⊢; exact h1
  · norm_num at h2 ⊢; exact h2

/-- The Taylor polynomial of degree 9. -/
noncomputable def expT (x : ℝ) : ℝ := ∑ m ∈ Finset.range 10, x ^ m / m.factorial

theorem expT_error {x : ℝ} (h : |x| ≤ 0.34667) : |Real.exp x - expT x| ≤ 1 / 10 ^ 11 := by
  have := Real.exp_bound (x := x) (h.trans (by norm_num)) (n := 10) (by norm_num)
  refine this.trans ?_
  have h2 : |x| ^ 10 ≤ 0.34667 ^ 10 := pow_le_pow_left₀ (abs_nonneg _) h 10
  refine (mul_le_mul_of_nonneg_right h2 (by positivity)).trans ?_
  norm_num [Nat.factorial]

theorem expP_error {x : ℝ} (h : |x| ≤ 0.34667) : |expP x - Real.exp x| ≤ 36 / 10 ^ 9 * Real.exp x := by
  have h1 := expLow_nonneg h
  have h2 := expHigh_nonneg h
  obtain ⟨t1, t2⟩ := abs_le.mp (expT_error h)
  have e1 : Poly.eval expLow x = 36 / 10 ^ 9 * expT x - (expP x - expT x) - 2 / 10 ^ 11 := by
    simp only [expLow, Poly.eval_cons, Poly.eval_nil, expT, expP, Finset.sum_range_succ, Finset.sum_range_zero,
      Nat.factorial]
    push_cast
    ring
  have e2 : Poly.eval expHigh x = 36 / 10 ^ 9 * expT x + (expP x - expT x) - 2 / 10 ^ 11 := by
    simp only [expHigh, Poly.eval_cons, Poly.eval_nil, expT, expP, Finset.sum_range_succ, Finset.sum_range_zero,
      Nat.factorial]
    push_cast
    ring
  rw [e1] at h1
  rw [e2] at h2
  rw [abs_le]
  constructor <;> linarith

/-! ## The polynomial in float arithmetic -/

theorem one_track : Tr 0x3f800000#32 1 0 1 := by
  have := Tr.const (x := 0x3f800000#32) 1 1 (by decide +kernel) (by norm_num)
  exact this.congr (by norm_num)

theorem expPoly_track {V : LaneOps 32} (h : V.Ieee) {one x : BitVec 32} {v : ℝ} (h1 : Tr one 1 0 1)
    (hx : Tr x v (1/2^24) 0.34667) : Tr (expPoly V one x) (expP v) (3903/2^34) (2897/2^11) := by
  have t1 := Tr.const (x := litF 1.386119984090328216552734375e-3) (1488335/2^30) (2907/2^21) (by decide +kernel) (by norm_num)
  have t2 := Tr.const (x := litF 8.420792408287525177001953125e-3) (9041757/2^30) (69/2^13) (by decide +kernel) (by norm_num)
  have t3 := Tr.const (x := litF 4.167006909847259521484375e-2) (2796431/2^26) (2731/2^16) (by decide +kernel) (by norm_num)
  have t4 := Tr.const (x := litF 0.16665561497211456298828125) (11184069/2^26) (2731/2^14) (by decide +kernel) (by norm_num)
  have t5 := Tr.const (x := litF 0.4999996721744537353515625) (16777205/2^25) (1/2^1) (by decide +kernel) (by norm_num)
  have t6 := Tr.const (x := litF 1.00000035762786865234375) (8388611/2^23) (2049/2^11) (by decide +kernel) (by norm_num)
  have t7 := Tr.mul (D := 63/2^17) (E := 979/2^43) hx t1 (by norm_num) (by norm_num) (by norm_num)
  have t8 := Tr.add (D := 1167/2^17) (E := 353/2^39) t2 t7 (by norm_num) (by norm_num) (by norm_num)
  have t9 := Tr.mul (D := 3237/2^20) (E := 1031/2^40) hx t8 (by norm_num) (by norm_num) (by norm_num)
  have t10 := Tr.add (D := 1467/2^15) (E := 1983/2^39) t3 t9 (by norm_num) (by norm_num) (by norm_num)
  have t11 := Tr.mul (D := 4069/2^18) (E := 333/2^36) hx t10 (by norm_num) (by norm_num) (by norm_num)
  have t12 := Tr.add (D := 1493/2^13) (E := 135/2^33) t4 t11 (by norm_num) (by norm_num) (by norm_num)
  have t13 := Tr.mul (D := 2071/2^15) (E := 345/2^34) hx t12 (by norm_num) (by norm_num) (by norm_num)
  have t14 := Tr.add (D := 2307/2^12) (E := 461/2^33) t5 t13 (by norm_num) (by norm_num) (by norm_num)
  have t15 := Tr.mul (D := 25/2^7) (E := 2193/2^35) hx t14 (by norm_num) (by norm_num) (by norm_num)
  have t16 := Tr.add (D := 2449/2^11) (E := 1161/2^33) t6 t15 (by norm_num) (by norm_num) (by norm_num)
  have t17 := Tr.mul (D := 849/2^11) (E := 1227/2^33) hx t16 (by norm_num) (by norm_num) (by norm_num)
  have t18 := Tr.add (D := 2897/2^11) (E := 3903/2^34) h1 t17 (by norm_num) (by norm_num) (by norm_num)
  unfold expPoly
  rw [h.add, h.mul]
  refine t18.congr ?_
  unfold expP
  push_cast
  ring

end Nova
