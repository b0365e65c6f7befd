import Verif.Lemmas.TrigPoly
import Verif.Lemmas.SimdMath
import Verif.Float.Grid
import Mathlib.Analysis.Real.Pi.Bounds

/-!
# Argument reduction of `vec_sin_float`, `vec_cos_float` and `vec_tan_float`
-/

namespace Nova
open FP VecMath

/-- A difference whose exact value is representable. -/
theorem sub_zero32 {x y : BitVec 32} (hx : IsFin binary32 x) (hy : IsFin binary32 y)
    (h0 : binary32.toReal y = 0) :
    IsFin binary32 (binary32.sub x y) ∧ binary32.toReal (binary32.sub x y) = binary32.toReal x := by
  have hu : binary32.units y = 0 := by
    unfold Fmt.toReal at h0
    rw [div_eq_zero_iff] at h0
    rcases h0 with h0 | h0
    · exact_mod_cast h0
    · exact absurd h0 (by positivity)
  rw [binary32.sub_num (binary32.isFinite_not_nan hx) (binary32.isFinite_not_nan hy)]
  have hn : IsFin binary32 (binary32.negate y) := by unfold IsFin; rw [binary32.isFinite_negate]; exact hy
  by_cases hc : binary32.code x = 0
  · have hux : binary32.units x = 0 := binary32.units_eq_zero.mpr hc
    rw [binary32.add_zero_sum hx hn (by rw [binary32.units_negate, hu, hux]; rfl)]
    refine ⟨binary32.isFinite_pack _ binary32.infCode_pos, ?_⟩
    rw [binary32.toReal_pack _ binary32.infCode_pos, mag_zero]
    unfold Fmt.toReal
    rw [hux]; simp
  · rw [binary32.add_exact hx hn hx (by rw [binary32.units_negate, hu]; omega) hc]
    exact ⟨hx, rfl⟩

theorem mul_zero32 {x y : BitVec 32} (hx : IsFin binary32 x) (hy : IsFin binary32 y)
    (h0 : binary32.toReal x = 0) :
    IsFin binary32 (binary32.mul x y) ∧ binary32.toReal (binary32.mul x y) = 0 := by
  have := mul_exact32 hx hy (m := 0) (s := 0) (by norm_num) (by norm_num) (by rw [h0]; norm_num)
  rw [h0, zero_mul] at this
  exact this

/-- The octant: an even number `2 q` and the argument `X` is within `0.7864` of `q π / 2`. -/
theorem quadrant_value {V : LaneOps 32} (h : V.Ieee) {x : BitVec 32} (hx : IsFin binary32 x)
    (h0 : binary32.neg x = false) (hr : binary32.toReal x ≤ 8192) :
    ∃ q : ℕ, q ≤ 5216 ∧ (quadrant V x).toNat = 2 * q ∧ |binary32.toReal x - q * (Real.pi / 2)| ≤ 0.7864 ∧
      (1 ≤ q → 0.7853 ≤ binary32.toReal x) := by
  have P1 := Real.pi_gt_d20
  have P2 := Real.pi_lt_d20
  have hX0 := toReal_nonneg h0
  have hX := Tr.exact (B := 8192) hx (by rw [abs_of_nonneg hX0]; exact hr)
  generalize hXv : binary32.toReal x = X at *
  have c := Tr.const (x := litD 1.27323954473516268615107010698011489627567716592367) (10680707/2^23) (1.274)
    (by decide +kernel) (by norm_num)
  -- the product has a relative error
  have cv : binary32.toReal (litD 1.27323954473516268615107010698011489627567716592367) =
      ((10680707/2^23 : ℚ) : ℝ) := isVal_value (by decide +kernel)
  have m := mul_near32 hx c.fin (by
    rw [hXv, cv, abs_of_nonneg (by positivity)]
    push_cast; norm_num; linarith)
  rw [hXv, cv] at m
  have hm1 : (0 : ℝ) ≤ X * ((10680707/2^23 : ℚ) : ℝ) := by positivity
  rw [abs_of_nonneg hm1] at m
  unfold quadrant
  dsimp only
  rw [h.mul, h.toInt]
  have hneg : binary32.neg (binary32.mul x (litD 1.27323954473516268615107010698011489627567716592367)) = false := by
    rw [binary32.mul_finite hx c.fin, h0]
    unfold Fmt.packRnd
    rw [binary32.neg_pack]
    · decide +kernel
    · exact lt_of_le_of_lt (Nat.min_le_left _ _) (by decide)
  generalize binary32.mul x (litD 1.27323954473516268615107010698011489627567716592367) = y at *
  obtain ⟨m1, m2⟩ := m
  push_cast at m2 hm1
  obtain ⟨m3, m4⟩ := abs_le.mp m2
  have hY0 := toReal_nonneg hneg
  generalize hYv : binary32.toReal y = Y at *
  have hY : Y ≤ 10431 := by norm_num at *; linarith
  obtain ⟨k, k1, k2, k3, k4⟩ := toInt32_value m1 (by rw [hYv, abs_of_nonneg hY0]; norm_num; linarith)
  rw [hneg] at k1
  simp only [Bool.false_eq_true, if_false] at k1
  rw [hYv, abs_of_nonneg hY0] at k3 k4
  have hk : k ≤ 10431 := by
    have : (k : ℝ) ≤ 10431 := k3.trans hY
    exact_mod_cast this
  have kn : (binary32.toInt32 y).toNat = k := by
    have := BitVec.toInt_eq_toNat_cond (binary32.toInt32 y)
    rw [k1] at this
    have hl := (binary32.toInt32 y).isLt
    split at this <;> omega
  refine ⟨(k + 1) / 2, by omega, ?_, ?_, ?_⟩
  · rw [BitVec.toNat_and, BitVec.toNat_add, kn, BitVec.toNat_not, BitVec.toNat_ofNat]
    have e : (k + 1 % 2 ^ 32) % 2 ^ 32 = k + 1 := by omega
    rw [e]
    have e2 : (2 ^ 32 - 1 - 1 % 2 ^ 32) = 2 ^ 32 - 2 := by decide
    rw [e2]
    apply Nat.eq_of_testBit_eq
    intro i
    rw [Nat.testBit_and]
    have t1 : (2 ^ 32 - 2 : ℕ).testBit i = (decide (1 ≤ i) && decide (i < 32)) := by
      rw [show (2 ^ 32 - 2 : ℕ) = 2 * (2 ^ 31 - 1) by decide]
      cases i with
      | zero => simp
      | succ i =>
        rw [Nat.testBit_succ, Nat.mul_div_cancel_left _ (by decide), Nat.testBit_two_pow_sub_one,
          decide_eq_true (show 1 ≤ i + 1 by omega), Bool.true_and]
        by_cases hi : i < 31
        · rw [decide_eq_true hi, decide_eq_true (by omega)]
        · rw [decide_eq_false hi, decide_eq_false (by omega)]
    rw [t1]
    cases i with
    | zero => simp
    | succ i =>
      rw [Nat.testBit_succ, Nat.testBit_succ, Nat.mul_div_cancel_left _ (by decide)]
      rw [decide_eq_true (show 1 ≤ i + 1 by omega), Bool.true_and]
      by_cases hi : i + 1 < 32
      · rw [decide_eq_true hi, Bool.and_true]
      · have : ((k + 1) / 2).testBit i = false := by
          apply Nat.testBit_lt_two_pow
          calc (k + 1) / 2 < 2 ^ 14 := by omega
            _ ≤ 2 ^ i := Nat.pow_le_pow_right (by decide) (by omega)
        rw [this]; simp
  · -- |Y - 2 q| ≤ 1
    have hq : |Y - 2 * (((k + 1) / 2 : ℕ) : ℝ)| ≤ 1 := by
      rcases Nat.even_or_odd' k with ⟨t, ht | ht⟩
      · have : (k + 1) / 2 = t := by omega
        rw [this]
        have hc : (k : ℝ) = 2 * t := by exact_mod_cast ht
        rw [abs_le]; constructor <;> linarith
      · have : (k + 1) / 2 = t + 1 := by omega
        rw [this]
        have hc : (k : ℝ) = 2 * t + 1 := by exact_mod_cast ht
        push_cast
        rw [abs_le]; constructor <;> linarith
    generalize (((k + 1) / 2 : ℕ) : ℝ) = q at *
    have e : X - q * (Real.pi / 2) = (X * (1 - 10680707 / 2 ^ 23 * (Real.pi / 4))) -
        (Y - X * (10680707 / 2 ^ 23)) * (Real.pi / 4) + (Y - 2 * q) * (Real.pi / 4) := by ring
    rw [e]
    have a1 : |1 - 10680707 / 2 ^ 23 * (Real.pi / 4)| ≤ 5 / 10 ^ 8 := by
      rw [abs_le]; constructor <;> norm_num at * <;> linarith
    have a2 : |Real.pi / 4| ≤ 0.7853982 := by
      rw [abs_of_pos (by linarith)]; norm_num at *; linarith
    have a3 : |Y - X * (10680707 / 2 ^ 23)| ≤ 0.0007 := by
      rw [abs_le]; norm_num at *; constructor <;> linarith
    have b1 : |X * (1 - 10680707 / 2 ^ 23 * (Real.pi / 4))| ≤ 8192 * (5 / 10 ^ 8) := by
      rw [abs_mul]
      exact mul_le_mul (by rw [abs_of_nonneg hX0]; exact hr) a1 (abs_nonneg _) (by norm_num)
    have b2 : |(Y - X * (10680707 / 2 ^ 23)) * (Real.pi / 4)| ≤ 0.0007 * 0.7853982 := by
      rw [abs_mul]; exact mul_le_mul a3 a2 (abs_nonneg _) (by norm_num)
    have b3 : |(Y - 2 * q) * (Real.pi / 4)| ≤ 1 * 0.7853982 := by
      rw [abs_mul]; exact mul_le_mul hq a2 (abs_nonneg _) (by norm_num)
    rw [abs_le] at *
    norm_num at *
    constructor <;> linarith
  · intro hq
    have : (1 : ℝ) ≤ k := by exact_mod_cast (show 1 ≤ k by omega)
    norm_num at m4 ⊢
    linarith

/-- The two leading products of the reduction and their subtractions are exact. -/
theorem reduceArg_exact {x : BitVec 32} (hx : IsFin binary32 x)
    (h0 : binary32.neg x = false) {q : ℕ} (hq : q ≤ 5216)
    (hX : |binary32.toReal x - q * (Real.pi / 2)| ≤ 0.7864) (hx1 : 1 ≤ q → 0.7853 ≤ binary32.toReal x)
    {y : BitVec 32} (hy : IsFin binary32 y) (hyv : binary32.toReal y = ((2 * q : ℕ) : ℝ)) :
    (IsFin binary32 (binary32.mul y (litD 0.78515625)) ∧
      binary32.toReal (binary32.mul y (litD 0.78515625)) = binary32.toReal y * binary32.toReal (litD 0.78515625)) ∧
    (IsFin binary32 (binary32.mul y (litD 2.4187564849853515625e-4)) ∧
      binary32.toReal (binary32.mul y (litD 2.4187564849853515625e-4)) =
        binary32.toReal y * binary32.toReal (litD 2.4187564849853515625e-4)) ∧
    IsFin binary32 (binary32.sub x (binary32.mul y (litD 0.78515625))) ∧
    IsFin binary32 (binary32.sub (binary32.sub x (binary32.mul y (litD 0.78515625)))
      (binary32.mul y (litD 2.4187564849853515625e-4))) ∧
    binary32.toReal (binary32.sub (binary32.sub x (binary32.mul y (litD 0.78515625)))
      (binary32.mul y (litD 2.4187564849853515625e-4))) =
      binary32.toReal x - q * (201 / 2 ^ 7 + 2029 / 2 ^ 22) := by
  have P1 := Real.pi_gt_d20
  have P2 := Real.pi_lt_d20
  have hX0 := toReal_nonneg h0
  have c1 : binary32.toReal (litD 0.78515625) = ((201/2^8 : ℚ) : ℝ) := isVal_value (by decide +kernel)
  have f1 : IsFin binary32 (litD 0.78515625) := isVal_fin (q := 201/2^8) (by decide +kernel)
  have c2 : binary32.toReal (litD 2.4187564849853515625e-4) = ((2029/2^23 : ℚ) : ℝ) := isVal_value (by decide +kernel)
  have f2 : IsFin binary32 (litD 2.4187564849853515625e-4) := isVal_fin (q := 2029/2^23) (by decide +kernel)
  have hqr : (q : ℝ) ≤ 5216 := by exact_mod_cast hq
  have hq0 : (0 : ℝ) ≤ q := Nat.cast_nonneg q
  rcases Nat.eq_zero_or_pos q with hz | hp
  · have y0 : binary32.toReal y = 0 := by rw [hyv, hz]; simp
    obtain ⟨a1, a2⟩ := mul_zero32 hy f1 y0
    obtain ⟨b1, b2⟩ := mul_zero32 hy f2 y0
    obtain ⟨d1, d2⟩ := sub_zero32 hx a1 a2
    obtain ⟨e1, e2⟩ := sub_zero32 d1 b1 b2
    exact ⟨⟨a1, by rw [a2, y0, zero_mul]⟩, ⟨b1, by rw [b2, y0, zero_mul]⟩, d1, e1, by rw [e2, d2, hz]; simp⟩
  · have hX1 := hx1 hp
    obtain ⟨a1, a2⟩ := mul_exact32 hy f1 (m := q * 201) (s := 142) (by omega)
      (by
        have : ((q * 201 : ℕ) : ℝ) ≤ 2 ^ 20 := by push_cast; norm_num; linarith
        calc ((q * 201 : ℕ) : ℝ) * 2 ^ 142 / 2 ^ 149 ≤ 2 ^ 20 * 2 ^ 142 / 2 ^ 149 := by gcongr
          _ ≤ 2 ^ 127 := by norm_num)
      (by
        rw [hyv, c1, abs_of_nonneg (by positivity)]
        push_cast; norm_num; ring)
    obtain ⟨b1, b2⟩ := mul_exact32 hy f2 (m := q * 2029) (s := 127) (by omega)
      (by
        have : ((q * 2029 : ℕ) : ℝ) ≤ 2 ^ 24 := by push_cast; norm_num; linarith
        calc ((q * 2029 : ℕ) : ℝ) * 2 ^ 127 / 2 ^ 149 ≤ 2 ^ 24 * 2 ^ 127 / 2 ^ 149 := by gcongr
          _ ≤ 2 ^ 127 := by norm_num)
      (by
        rw [hyv, c2, abs_of_nonneg (by positivity)]
        push_cast; norm_num; ring)
    rw [hyv, c1] at a2
    rw [hyv, c2] at b2
    have a3 : binary32.toReal (binary32.mul y (litD 0.78515625)) = ((q * 201 : ℕ) : ℤ) * 2 ^ 142 / 2 ^ 149 := by
      rw [a2]; push_cast; norm_num; ring
    have b3 : binary32.toReal (binary32.mul y (litD 2.4187564849853515625e-4)) =
        ((q * 2029 : ℕ) : ℤ) * 2 ^ 127 / 2 ^ 149 := by
      rw [b2]; push_cast; norm_num; ring
    have ga := grid_of_value a3
    have gb := grid_of_value b3
    have e1 : |(q : ℝ) * (Real.pi / 2) - q * (201 / 2 ^ 7)| ≤ (q : ℝ) * (4.84 / 10 ^ 4) := by
      rw [← mul_sub, abs_mul, abs_of_nonneg hq0]
      refine mul_le_mul_of_nonneg_left ?_ hq0
      rw [abs_le]; norm_num at *; constructor <;> linarith
    have e2 : |q * (Real.pi / 2) - q * (201 / 2 ^ 7 + 2029 / 2 ^ 22)| ≤ 4 / 10 ^ 4 := by
      rw [← mul_sub, abs_mul, abs_of_nonneg hq0]
      have : |Real.pi / 2 - (201 / 2 ^ 7 + 2029 / 2 ^ 22)| ≤ 7.6 / 10 ^ 8 := by
        rw [abs_le]; norm_num at *; constructor <;> linarith
      refine (mul_le_mul hqr this (abs_nonneg _) (by norm_num)).trans (by norm_num)
    have w1 : binary32.toReal x - ((2 * q : ℕ) : ℝ) * ((201/2^8 : ℚ) : ℝ) =
        binary32.toReal x - q * (201 / 2 ^ 7) := by push_cast; ring
    have w2 : binary32.toReal x - q * (201 / 2 ^ 7) - ((2 * q : ℕ) : ℝ) * ((2029/2^23 : ℚ) : ℝ) =
        binary32.toReal x - q * (201 / 2 ^ 7 + 2029 / 2 ^ 22) := by push_cast; ring
    -- the grid of the argument
    have hs : ∃ s : ℕ, 125 ≤ s ∧ s ≤ 127 ∧ (2 ^ s : ℤ) ∣ binary32.units x ∧
        |binary32.toReal x - q * (201 / 2 ^ 7)| ≤ 2 ^ (s + 24) / 2 ^ 149 := by
      rcases le_total 2 (binary32.toReal x) with h2 | h2
      · refine ⟨127, by omega, by omega, grid_of_large (by rw [abs_of_nonneg hX0]; norm_num; exact h2), ?_⟩
        rw [abs_le] at hX e1 ⊢; norm_num at hX e1 ⊢; constructor <;> linarith
      · refine ⟨125, by omega, by omega, grid_of_large (by rw [abs_of_nonneg hX0]; norm_num at *; linarith), ?_⟩
        have : (q : ℝ) ≤ 2 := by
          rw [abs_le] at hX
          have h3 : (q : ℝ) * (3 / 2) ≤ q * (Real.pi / 2) := by
            refine mul_le_mul_of_nonneg_left ?_ hq0; norm_num at P1; linarith
          norm_num at hX
          linarith
        rw [abs_le] at hX e1 ⊢
        generalize (q : ℝ) = Q at *
        norm_num at hX e1 ⊢; constructor <;> linarith
    obtain ⟨s, s1, s2, s3, s4⟩ := hs
    obtain ⟨d1, d2⟩ := sub_grid32 hx a1 s s3 ((pow_dvd_pow 2 (by omega)).trans ga)
      (by rw [a2, w1]; exact s4) (by omega)
    rw [a2, w1] at d2
    have gd : (2 ^ s : ℤ) ∣ binary32.units (binary32.sub x (binary32.mul y (litD 0.78515625))) := by
      have eu : binary32.units (binary32.sub x (binary32.mul y (litD 0.78515625))) =
          binary32.units x - binary32.units (binary32.mul y (litD 0.78515625)) := by
        have h3 : binary32.toReal (binary32.sub x (binary32.mul y (litD 0.78515625))) =
            binary32.toReal x - binary32.toReal (binary32.mul y (litD 0.78515625)) := by rw [d2, a2, w1]
        unfold Fmt.toReal at h3
        rw [← sub_div, div_left_inj' (by positivity)] at h3
        exact_mod_cast h3
      rw [eu]
      exact dvd_sub s3 ((pow_dvd_pow 2 (by omega)).trans ga)
    obtain ⟨i1, i2⟩ := sub_grid32 d1 b1 s gd ((pow_dvd_pow 2 (by omega)).trans gb)
      (by
        rw [d2, b2, w2]
        have : (1 : ℝ) ≤ 2 ^ (s + 24) / 2 ^ 149 := by
          rw [le_div_iff₀ (by positivity), one_mul]
          exact pow_le_pow_right₀ (by norm_num) (by omega)
        refine le_trans ?_ this
        rw [abs_le] at *; norm_num at *; constructor <;> linarith) (by omega)
    exact ⟨⟨a1, by rw [a2, hyv, c1]⟩, ⟨b1, by rw [b2, hyv, c2]⟩, d1, i1, by rw [i2, d2, b2, w2]⟩

/-- The last subtraction of the reduction, in the reals. -/
theorem reduceArg_reals {X : ℝ} {q : ℕ} (hq : q ≤ 5216) (hX : |X - q * (Real.pi / 2)| ≤ 0.7864) :
    |X - q * (201 / 2 ^ 7 + 2029 / 2 ^ 22)| ≤ 0.7868 ∧
    |X - q * (201 / 2 ^ 7 + 2029 / 2 ^ 22) - 2 * q * ((10625385/2^48 : ℚ) : ℝ) - (X - q * (Real.pi / 2))| ≤
      3 / 10 ^ 11 ∧
    |X - q * (201 / 2 ^ 7 + 2029 / 2 ^ 22) - 2 * q * ((10625385/2^48 : ℚ) : ℝ)| ≤ 0.78641 := by
  have P1 := Real.pi_gt_d20
  have P2 := Real.pi_lt_d20
  have hqr : (q : ℝ) ≤ 5216 := by exact_mod_cast hq
  have hq0 : (0 : ℝ) ≤ q := Nat.cast_nonneg q
  have k1 : |q * (Real.pi / 2) - q * (201 / 2 ^ 7 + 2029 / 2 ^ 22)| ≤ 4 / 10 ^ 4 := by
    rw [← mul_sub, abs_mul, abs_of_nonneg hq0]
    have : |Real.pi / 2 - (201 / 2 ^ 7 + 2029 / 2 ^ 22)| ≤ 7.6 / 10 ^ 8 := by
      rw [abs_le]; norm_num at *; constructor <;> linarith
    refine (mul_le_mul hqr this (abs_nonneg _) (by norm_num)).trans (by norm_num)
  have hf : |X - q * (201 / 2 ^ 7 + 2029 / 2 ^ 22) - 2 * q * ((10625385/2^48 : ℚ) : ℝ) -
      (X - q * (Real.pi / 2))| ≤ 3 / 10 ^ 11 := by
    rw [show X - q * (201 / 2 ^ 7 + 2029 / 2 ^ 22) - 2 * q * ((10625385/2^48 : ℚ) : ℝ) -
      (X - q * (Real.pi / 2)) = q * (Real.pi / 2 - (201 / 2 ^ 7 + 2029 / 2 ^ 22) -
        2 * ((10625385/2^48 : ℚ) : ℝ)) by ring, abs_mul, abs_of_nonneg hq0]
    have : |Real.pi / 2 - (201 / 2 ^ 7 + 2029 / 2 ^ 22) - 2 * ((10625385/2^48 : ℚ) : ℝ)| ≤ 5.6 / 10 ^ 15 := by
      push_cast
      rw [abs_le]; norm_num at *; constructor <;> linarith
    refine (mul_le_mul hqr this (abs_nonneg _) (by norm_num)).trans (by norm_num)
  refine ⟨?_, hf, ?_⟩
  · rw [abs_le] at *; norm_num at *; constructor <;> linarith
  · rw [abs_le] at *; norm_num at *; constructor <;> linarith

theorem double_track {y : BitVec 32} {q : ℕ} (hq : q ≤ 5216) (hy : IsFin binary32 y)
    (hyv : binary32.toReal y = ((2 * q : ℕ) : ℝ)) : Tr y (2 * q) 0 10432 := by
  have hqr : (q : ℝ) ≤ 5216 := by exact_mod_cast hq
  refine ⟨hy, by rw [hyv]; simp, ?_⟩
  rw [abs_of_nonneg (by positivity)]; linarith

/-- The reduced argument. -/
theorem reduceArg_track {V : LaneOps 32} (h : V.Ieee) {x : BitVec 32} (hx : IsFin binary32 x)
    (h0 : binary32.neg x = false) {q : ℕ} (hq : q ≤ 5216)
    (hX : |binary32.toReal x - q * (Real.pi / 2)| ≤ 0.7864) (hx1 : 1 ≤ q → 0.7853 ≤ binary32.toReal x)
    {y : BitVec 32} (hy : IsFin binary32 y) (hyv : binary32.toReal y = ((2 * q : ℕ) : ℝ)) :
    Tr (reduceArg V x y) (binary32.toReal x - q * (Real.pi / 2)) (4728/10^11) 0.7864 := by
  have t3 := Tr.const (x := litD 3.77489497744594108e-8) (10625385/2^48) (3.7749/10^8) (by decide +kernel) (by norm_num)
  obtain ⟨-, -, -, g1, g3⟩ := reduceArg_exact hx h0 hq hX hx1 hy hyv
  obtain ⟨hb, hf, hD⟩ := reduceArg_reals hq hX
  have hv2 := Tr.exact (B := 0.7868) g1 (by rw [g3]; exact hb)
  rw [g3] at hv2
  have p3 := Tr.mul (D := 0.000394) (E := 24/10^12) (double_track hq hy hyv) t3 (by norm_num) (by norm_num) (by norm_num)
  have s3 := Tr.sub_of (D := 0.78641) (E := 46898/10^12) hv2 p3 hD (by norm_num) (by norm_num)
  have := s3.recenter hf (E := 4728/10^11) (by norm_num) hX
  unfold reduceArg
  rw [h.sub, h.mul]
  exact this

end Nova
