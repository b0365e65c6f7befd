import Verif.Lemmas.ExpError
import Mathlib.Analysis.Complex.ExponentialBounds

/-!
# Argument reduction of `vec_exp_float`
-/

namespace Nova
open FP VecMath

theorem toInt32_integral {z : BitVec 32} {k : ℤ} (hz : IsFin binary32 z) (hk : binary32.toReal z = k)
    (hb : |k| < 2 ^ 31) : (binary32.toInt32 z).toInt = k := by
  have hb' : |binary32.toReal z| < 2 ^ 31 := by rw [hk]; exact_mod_cast hb
  obtain ⟨n, h1, -, h3, h4⟩ := toInt32_value hz hb'
  rw [hk] at h3 h4
  have hn : (n : ℤ) = |k| := by
    have a : (n : ℤ) ≤ |k| := by exact_mod_cast h3
    have b : |k| < (n : ℤ) + 1 := by exact_mod_cast h4
    omega
  have hs := binary32.toReal_eq z
  rw [hk] at hs
  have hm : (0 : ℝ) ≤ (mag binary32.mb (binary32.code z) : ℝ) / 2 ^ binary32.scale := by positivity
  rw [h1, hn]
  cases hneg : binary32.neg z
  · rw [hneg] at hs
    simp only [Bool.false_eq_true, if_false, one_mul] at hs ⊢
    have : (0 : ℝ) ≤ k := by rw [hs]; exact hm
    exact abs_of_nonneg (by exact_mod_cast this)
  · rw [hneg] at hs
    simp only [if_true] at hs ⊢
    have : (k : ℝ) ≤ 0 := by rw [hs]; linarith
    rw [abs_of_nonpos (by exact_mod_cast this), neg_neg]

/-- The integer chosen by the reduction. -/
theorem expScale_value {V : LaneOps 32} (h : V.Ieee) {x : BitVec 32} (hx : IsFin binary32 x)
    (hr : |binary32.toReal x| ≤ 89) :
    ∃ k : ℤ, |k| ≤ 128 ∧ (V.truncateToInt (expScale V x)).toInt = k ∧
      |(k : ℝ) - 12102203 / 2 ^ 23 * binary32.toReal x| ≤ 0.50001 ∧
      IsFin binary32 (expScale V x) ∧ binary32.toReal (expScale V x) = k := by
  have hX := Tr.exact hx hr
  generalize hXv : binary32.toReal x = X at *
  have c := Tr.const (x := litF 1.44269504088896341) (12102203/2^23) (1.4428) (by decide +kernel) (by norm_num)
  have t := Tr.mul (D := 129) (E := 8/10^6) c hX (by norm_num) (by norm_num) (by norm_num)
  have ty := t.abs_le
  have hcode := code_lt_of_value (lt_of_le_of_lt ty (by norm_num))
  unfold expScale
  rw [h.mul, h.round _ hcode, h.toInt]
  obtain ⟨z1, z2, k, z3, z4, -⟩ := binary32.roundInt_value Fmt.wide32 .nearest t.fin
  have terr := t.err
  generalize binary32.mul (litF 1.44269504088896341) x = y at *
  generalize binary32.roundInt .nearest y = z at *
  have hk1 : |(k : ℝ) - 12102203 / 2 ^ 23 * X| ≤ 0.50001 := by
    push_cast at terr
    rw [abs_le] at *
    norm_num at *
    constructor <;> linarith
  have hk2 : |(k : ℝ)| < 129 := by
    rw [abs_le] at hk1
    rw [abs_lt]
    obtain ⟨r1, r2⟩ := abs_le.mp hr
    norm_num at *
    constructor <;> linarith
  have hk3 : |k| ≤ 128 := by
    have : |k| < 129 := by exact_mod_cast hk2
    omega
  exact ⟨k, hk3, toInt32_integral z1 z3 (by omega), hk1, z1, z3⟩

/-- The reduced argument in the reals. -/
theorem exp_red_reals {X : ℝ} {k : ℤ} (hk3 : |k| ≤ 128) (hr : |X| ≤ 89.01)
    (hk1 : |(k : ℝ) - 12102203 / 2 ^ 23 * X| ≤ 0.50003) :
    |X - k * Real.log 2| ≤ 0.34667 ∧ |X - k * (355 / 2 ^ 9)| ≤ 0.374 ∧
    |X - k * (355 / 2 ^ 9) - k * ((-14581891/2^36 : ℚ) : ℝ) - (X - k * Real.log 2)| ≤ 1.49 / 10 ^ 8 ∧
    |X - k * (355 / 2 ^ 9) - k * ((-14581891/2^36 : ℚ) : ℝ)| ≤ 0.3467 := by
  have L1 := Real.log_two_gt_d9
  have L2 := Real.log_two_lt_d9
  have L3 := Real.log_two_near_10
  have hk4 : |(k : ℝ)| ≤ 128 := by exact_mod_cast hk3
  have hred : |X - k * Real.log 2| ≤ 0.34667 := by
    have e : X - k * Real.log 2 = X * (1 - 12102203 / 2 ^ 23 * Real.log 2) -
        ((k : ℝ) - 12102203 / 2 ^ 23 * X) * Real.log 2 := by ring
    rw [e]
    refine (abs_sub _ _).trans ?_
    rw [abs_mul, abs_mul]
    have a1 : |1 - 12102203 / 2 ^ 23 * Real.log 2| ≤ 2 / 10 ^ 8 := by
      rw [abs_le]; constructor <;> norm_num at * <;> linarith
    have a2 : |Real.log 2| ≤ 0.6931471808 := by
      rw [abs_of_pos (by linarith)]; exact L2.le
    have b1 := mul_le_mul hr a1 (abs_nonneg _) (by norm_num)
    have b2 := mul_le_mul hk1 a2 (abs_nonneg _) (by norm_num)
    norm_num at *
    linarith
  have d1 : |X - k * (355 / 2 ^ 9)| ≤ 0.374 := by
    have e : X - k * (355 / 2 ^ 9) = (X - k * Real.log 2) - k * (355 / 2 ^ 9 - Real.log 2) := by ring
    rw [e]
    refine (abs_sub _ _).trans ?_
    rw [abs_mul]
    have a1 : |355 / 2 ^ 9 - Real.log 2| ≤ 0.0002123 := by
      rw [abs_le]; constructor <;> norm_num at * <;> linarith
    have b1 := mul_le_mul hk4 a1 (abs_nonneg _) (by norm_num)
    norm_num at *
    linarith
  have f : |X - k * (355 / 2 ^ 9) - k * ((-14581891/2^36 : ℚ) : ℝ) - (X - k * Real.log 2)| ≤ 1.49 / 10 ^ 8 := by
    have e : X - k * (355 / 2 ^ 9) - k * ((-14581891/2^36 : ℚ) : ℝ) - (X - k * Real.log 2) =
        k * (Real.log 2 - 355 / 2 ^ 9 - ((-14581891/2^36 : ℚ) : ℝ)) := by ring
    rw [e, abs_mul]
    have a1 : |Real.log 2 - 355 / 2 ^ 9 - ((-14581891/2^36 : ℚ) : ℝ)| ≤ 1.16 / 10 ^ 10 := by
      push_cast
      rw [abs_le] at L3 ⊢; constructor <;> norm_num at * <;> linarith
    have b1 := mul_le_mul hk4 a1 (abs_nonneg _) (by norm_num)
    norm_num at *
    linarith
  have d2 : |X - k * (355 / 2 ^ 9) - k * ((-14581891/2^36 : ℚ) : ℝ)| ≤ 0.3467 := by
    rw [abs_le] at f hred ⊢; norm_num at *; constructor <;> linarith
  exact ⟨hred, d1, f, d2⟩

/-- The integer and the first product, which is exact. -/
theorem exp_prod {z : BitVec 32} {k : ℤ} (hk3 : |k| ≤ 128) (z1 : IsFin binary32 z) (z3 : binary32.toReal z = k) :
    Tr z k 0 128 ∧ Tr (binary32.mul z (litF 0.693359375)) (k * (355 / 2 ^ 9)) 0 89 ∧
    binary32.toReal z * binary32.toReal (litF 0.693359375) = k * (355 / 2 ^ 9) := by
  have hk4 : |(k : ℝ)| ≤ 128 := by exact_mod_cast hk3
  have c1 := Tr.const (x := litF 0.693359375) (355/2^9) (0.6934) (by decide +kernel) (by norm_num)
  have c1v : binary32.toReal (litF 0.693359375) = 355 / 2 ^ 9 := by
    rw [isVal_value (q := 355/2^9) (by decide +kernel)]; norm_num
  have m1 := mul_exact32 z1 c1.fin (m := k.natAbs * 355) (s := 140)
    (by have : k.natAbs ≤ 128 := by rw [← Int.natCast_natAbs] at hk3; exact_mod_cast hk3
        omega)
    (by
      have : k.natAbs * 355 ≤ 2 ^ 16 := by
        have : k.natAbs ≤ 128 := by rw [← Int.natCast_natAbs] at hk3; exact_mod_cast hk3
        omega
      have h2 : ((k.natAbs * 355 : ℕ) : ℝ) ≤ 2 ^ 16 := by exact_mod_cast this
      calc ((k.natAbs * 355 : ℕ) : ℝ) * 2 ^ 140 / 2 ^ 149 ≤ 2 ^ 16 * 2 ^ 140 / 2 ^ 149 := by gcongr
        _ ≤ 2 ^ 127 := by norm_num)
    (by
      rw [z3, c1v, abs_mul]
      have : (k.natAbs : ℝ) = |(k : ℝ)| := by rw [← Int.cast_abs, ← Int.natCast_natAbs]; rfl
      rw [Nat.cast_mul, this, abs_of_pos (show (0 : ℝ) < 355 / 2 ^ 9 by norm_num)]
      norm_num
      ring)
  rw [z3, c1v] at m1
  have p1 : Tr (binary32.mul z (litF 0.693359375)) (k * (355 / 2 ^ 9)) 0 89 := by
    refine ⟨m1.1, by rw [m1.2, sub_self, abs_zero], ?_⟩
    rw [abs_mul, abs_of_pos (show (0 : ℝ) < 355 / 2 ^ 9 by norm_num)]
    refine (mul_le_mul_of_nonneg_right hk4 (by norm_num)).trans (by norm_num)
  have hz : Tr z k 0 128 := ⟨z1, by rw [z3, sub_self, abs_zero], hk4⟩
  exact ⟨hz, p1, by rw [z3, c1v]⟩

/-- The integer chosen by the reduction, and the reduced argument. -/
theorem expReduce_track {V : LaneOps 32} (h : V.Ieee) {x : BitVec 32} (hx : IsFin binary32 x)
    (hr : |binary32.toReal x| ≤ 89) :
    ∃ k : ℤ, |k| ≤ 128 ∧ (V.truncateToInt (expScale V x)).toInt = k ∧
      |(k : ℝ) - 12102203 / 2 ^ 23 * binary32.toReal x| ≤ 0.50001 ∧
      Tr (expReduce V x (expScale V x)) (binary32.toReal x - k * Real.log 2) (1/2^24) 0.34667 := by
  obtain ⟨k, hk3, k2, hk1, z1, z3⟩ := expScale_value h hx hr
  refine ⟨k, hk3, k2, hk1, ?_⟩
  obtain ⟨hred, d1, f, d2⟩ := exp_red_reals hk3 (hr.trans (by norm_num)) (hk1.trans (by norm_num))
  obtain ⟨hz, p1, -⟩ := exp_prod hk3 z1 z3
  have hX := Tr.exact hx hr
  have c2 := Tr.const (x := litF (-2.12194440e-4)) (-14581891/2^36) (0.0002123) (by decide +kernel) (by norm_num)
  have p2 := Tr.mul (D := 0.0272) (E := 0.0273/2^24) hz c2 (by norm_num) (by norm_num) (by norm_num)
  have s1 := Tr.sub_of (D := 0.374) (E := 0.3741/2^24) hX p1 d1 (by norm_num) (by norm_num)
  have s2 := Tr.sub_of (D := 0.3467) (E := 0.7482/2^24) s1 p2 d2 (by norm_num) (by norm_num)
  unfold expReduce
  rw [h.sub, h.mul]
  exact s2.recenter f (by norm_num) hred

end Nova
