import Verif.Lemmas.ExpReduce
import Verif.Lemmas.SimdMath
import Mathlib.Analysis.SpecialFunctions.Pow.Real

/-!
# `vec_exp_float` and `vec_exp_tanh_float`: from the reduced argument to the result
-/

namespace Nova
open FP VecMath

/-- The polynomial's value and the exponential of the reduced argument. -/
theorem exp_core_of {x q : BitVec 32} {v : ℝ} (t : Tr x v (1/2^24) 0.34667)
    (p : Tr q (expP v) (3903/2^34) (2897/2^11)) :
    IsNormal q ∧ binary32.neg q = false ∧ |binary32.toReal q - Real.exp v| ≤ (39 / 10 ^ 8) * Real.exp v ∧
    |v| ≤ 0.34667 := by
  have hb := t.bnd
  have e := expP_error hb
  have l := Real.add_one_le_exp v
  have he := p.err
  have l2 : 0.65 ≤ Real.exp v := by
    have := (abs_le.mp hb).1
    norm_num at *; linarith
  have herr : |binary32.toReal q - Real.exp v| ≤ 39 / 10 ^ 8 * Real.exp v := by
    have := abs_add_le (binary32.toReal q - expP v) (expP v - Real.exp v)
    rw [sub_add_sub_cancel] at this
    norm_num at *
    linarith
  have hpos : 0.6 ≤ binary32.toReal q := by
    have := (abs_le.mp herr).1
    norm_num at *
    linarith
  refine ⟨isNormal_of_value p.fin ?_, neg_of_toReal (lt_of_lt_of_le (by norm_num) hpos), herr, hb⟩
  rw [abs_of_nonneg (le_trans (by norm_num) hpos)]
  exact le_trans (by norm_num) hpos

theorem exp_core {V : LaneOps 32} (h : V.Ieee) {one x : BitVec 32} (h1 : Tr one 1 0 1)
    (hx : IsFin binary32 x) (hr : |binary32.toReal x| ≤ 89) :
    ∃ k : ℤ, |k| ≤ 128 ∧ (V.truncateToInt (expScale V x)).toInt = k ∧
      |(k : ℝ) - 12102203 / 2 ^ 23 * binary32.toReal x| ≤ 0.50001 ∧
      IsNormal (expPoly V one (expReduce V x (expScale V x))) ∧
      binary32.neg (expPoly V one (expReduce V x (expScale V x))) = false ∧
      |binary32.toReal (expPoly V one (expReduce V x (expScale V x))) -
        Real.exp (binary32.toReal x - k * Real.log 2)| ≤
        (39 / 10 ^ 8) * Real.exp (binary32.toReal x - k * Real.log 2) ∧
      |binary32.toReal x - k * Real.log 2| ≤ 0.34667 := by
  obtain ⟨k, k1, k2, k3, t⟩ := expReduce_track h hx hr
  refine ⟨k, k1, k2, k3, ?_⟩
  exact exp_core_of t (expPoly_track h h1 t)

/-- Powers of two as exponentials. -/
theorem zpow_eq_exp (n : ℤ) : (2 : ℝ) ^ n = Real.exp (n * Real.log 2) := by
  rw [← Real.rpow_intCast, Real.rpow_def_of_pos (by norm_num), mul_comm]

theorem exp_split (X : ℝ) (k : ℤ) : Real.exp (X - k * Real.log 2) * 2 ^ k = Real.exp X := by
  rw [zpow_eq_exp, ← Real.exp_add]; congr 1; ring

/-- The scaled polynomial is accurate where the exponential is a normal number. -/
theorem exp_scaled_of {V : LaneOps 32} (hV : IsX86Class V) {q n : BitVec 32} {k : ℤ} {X : ℝ} (k2 : n.toInt = k)
    (n1 : IsNormal q) (n2 : binary32.neg q = false)
    (n3 : |binary32.toReal q - Real.exp (X - k * Real.log 2)| ≤ (39 / 10 ^ 8) * Real.exp (X - k * Real.log 2))
    (hlo : -87.3301 ≤ X) (hhi : X ≤ 88.7228356) :
    IsNormal (ldexp V q n) ∧ |binary32.toReal (ldexp V q n) - Real.exp X| ≤ (39 / 10 ^ 8) * Real.exp X := by
  have hk : (0 : ℝ) < 2 ^ k := zpow_pos (by norm_num) _
  have herr : |binary32.toReal q * 2 ^ k - Real.exp X| ≤ 39 / 10 ^ 8 * Real.exp X := by
    rw [← exp_split X k, ← sub_mul, abs_mul, abs_of_pos hk, ← mul_assoc]
    exact mul_le_mul_of_nonneg_right n3 hk.le
  have hq0 := toReal_nonneg n2
  have L1 := Real.log_two_gt_d9
  have L2 := Real.log_two_lt_d9
  have hlow : (2 : ℝ) ^ (-126 : ℤ) ≤ |binary32.toReal q| * 2 ^ n.toInt := by
    rw [k2, abs_of_nonneg hq0]
    have e1 : Real.exp X = 2 ^ (-126 : ℤ) * Real.exp (X + 126 * Real.log 2) := by
      rw [zpow_eq_exp, ← Real.exp_add]; congr 1; push_cast; ring
    have e2 := Real.add_one_le_exp (X + 126 * Real.log 2)
    have hp : (0 : ℝ) < 2 ^ (-126 : ℤ) := zpow_pos (by norm_num) _
    have e3 := (abs_le.mp herr).1
    have e4 : 2 ^ (-126 : ℤ) * 1.001 ≤ Real.exp X := by
      rw [e1]
      refine mul_le_mul_of_nonneg_left (le_trans ?_ e2) hp.le
      norm_num at *; linarith
    generalize (2 : ℝ) ^ (-126 : ℤ) = T at *
    norm_num at *
    linarith
  have hhigh : |binary32.toReal q| * 2 ^ n.toInt < 2 ^ (128 : ℤ) := by
    rw [k2, abs_of_nonneg hq0]
    have e1 : Real.exp X * Real.exp (128 * Real.log 2 - X) = 2 ^ (128 : ℤ) := by
      rw [zpow_eq_exp, ← Real.exp_add]; congr 1; push_cast; ring
    have e2 := Real.add_one_le_exp (128 * Real.log 2 - X)
    have e3 := (abs_le.mp herr).2
    have e4 : Real.exp X * 1.0000032 ≤ 2 ^ (128 : ℤ) := by
      rw [← e1]
      refine mul_le_mul_of_nonneg_left (le_trans ?_ e2) (Real.exp_pos _).le
      norm_num at *; linarith
    have e5 := Real.exp_pos X
    generalize (2 : ℝ) ^ (128 : ℤ) = T at *
    norm_num at *
    linarith
  obtain ⟨a1, a2⟩ := C44_ldexp hV q n n1 hlow hhigh
  refine ⟨a1, ?_⟩
  rw [a2, k2]; exact herr

theorem exp_scaled {V : LaneOps 32} (h : V.Ieee) (hV : IsX86Class V) {one x : BitVec 32} (h1 : Tr one 1 0 1)
    (hx : IsFin binary32 x) (hlo : -87.33 ≤ binary32.toReal x) (hhi : binary32.toReal x ≤ 88.722832) :
    let r := ldexp V (expPoly V one (expReduce V x (expScale V x))) (V.truncateToInt (expScale V x))
    IsNormal r ∧ |binary32.toReal r - Real.exp (binary32.toReal x)| ≤
      (39 / 10 ^ 8) * Real.exp (binary32.toReal x) := by
  have hr : |binary32.toReal x| ≤ 89 := by
    rw [abs_le]; constructor <;> norm_num at * <;> linarith
  obtain ⟨k, k1, k2, k3, n1, n2, n3, -⟩ := exp_core h h1 hx hr
  exact exp_scaled_of hV k2 n1 n2 n3 (by norm_num at *; linarith) (by norm_num at *; linarith)

/-- Below the normal numbers: a positive number of at most `2^-125`, never a NaN. -/
theorem exp_tiny_of {V : LaneOps 32} (h : V.Ieee) {q n : BitVec 32} {k : ℤ} {X : ℝ} (k2 : n.toInt = k)
    (n1 : IsNormal q) (n2 : binary32.neg q = false)
    (n3 : |binary32.toReal q - Real.exp (X - k * Real.log 2)| ≤ (39 / 10 ^ 8) * Real.exp (X - k * Real.log 2))
    (n4 : |X - k * Real.log 2| ≤ 0.34667) (k3 : |(k : ℝ) - 12102203 / 2 ^ 23 * X| ≤ 0.50003)
    (hlo : -88.0001 ≤ X) (hhi : X ≤ -87.3299) :
    binary32.code (ldexp V q n) < 2 * 2 ^ 23 ∧ binary32.neg (ldexp V q n) = false := by
  have L1 := Real.log_two_gt_d9
  have L2 := Real.log_two_lt_d9
  have hk1 : (k : ℝ) < -125 := by
    have := (abs_le.mp k3).2
    norm_num at *; linarith
  have hk2 : -128 < (k : ℝ) := by
    have := (abs_le.mp k3).1
    norm_num at *; linarith
  have hk1' : k < -125 := by exact_mod_cast hk1
  have hk2' : -128 < k := by exact_mod_cast hk2
  obtain ⟨b1, b2⟩ := normal_bounds n1
  rw [abs_of_nonneg (toReal_nonneg n2)] at b1 b2
  have he := Real.exp_pos (X - k * Real.log 2)
  obtain ⟨c1, c2⟩ := abs_le.mp n3
  obtain ⟨d1, d2⟩ := abs_le.mp n4
  have hE1 : (expField q : ℤ) ≤ 127 := by
    have u : Real.exp (X - k * Real.log 2) ≤ 1.6 := by
      have e2 := Real.add_one_le_exp (-(X - k * Real.log 2))
      have e3 : Real.exp (X - k * Real.log 2) * Real.exp (-(X - k * Real.log 2)) = 1 := by
        rw [← Real.exp_add]; simp
      have e4 : 0.65 ≤ Real.exp (-(X - k * Real.log 2)) := by norm_num at *; linarith
      have e5 := mul_le_mul_of_nonneg_left e4 he.le
      rw [e3] at e5
      norm_num at *; linarith
    have : (2 : ℝ) ^ ((expField q : ℤ) - 127) < 2 ^ (1 : ℤ) := by
      refine lt_of_le_of_lt b1 ?_
      norm_num at *; linarith
    rw [zpow_lt_zpow_iff_right₀ (by norm_num)] at this
    omega
  have hE2 : 126 ≤ (expField q : ℤ) := by
    have l2 : 0.65 ≤ Real.exp (X - k * Real.log 2) := by
      have := Real.add_one_le_exp (X - k * Real.log 2)
      norm_num at *; linarith
    have : (2 : ℝ) ^ (-1 : ℤ) < 2 ^ ((expField q : ℤ) - 126) := by
      refine lt_of_le_of_lt ?_ b2
      norm_num at *; linarith
    rw [zpow_lt_zpow_iff_right₀ (by norm_num)] at this
    omega
  have hE3 : k = -127 → 127 ≤ (expField q : ℤ) := by
    rintro rfl
    have l2 : 1.02 ≤ Real.exp (X - ((-127 : ℤ) : ℝ) * Real.log 2) := by
      have := Real.add_one_le_exp (X - ((-127 : ℤ) : ℝ) * Real.log 2)
      norm_num at *; linarith
    have : (2 : ℝ) ^ (0 : ℤ) < 2 ^ ((expField q : ℤ) - 126) := by
      refine lt_of_le_of_lt ?_ b2
      norm_num at *; linarith
    rw [zpow_lt_zpow_iff_right₀ (by norm_num)] at this
    omega
  have hd : expField q = binary32.code q / 2 ^ 23 := rfl
  obtain ⟨s1, s2⟩ := ldexp_code h.toExps (x := q) (n := n) (by rw [k2]; omega) (by rw [k2]; omega)
  refine ⟨?_, s1.trans n2⟩
  rw [k2] at s2
  omega

theorem exp_tiny {V : LaneOps 32} (h : V.Ieee) {one x : BitVec 32} (h1 : Tr one 1 0 1)
    (hx : IsFin binary32 x) (hlo : -88 ≤ binary32.toReal x) (hhi : binary32.toReal x ≤ -87.33) :
    let r := ldexp V (expPoly V one (expReduce V x (expScale V x))) (V.truncateToInt (expScale V x))
    binary32.code r < 2 * 2 ^ 23 ∧ binary32.neg r = false := by
  have hr : |binary32.toReal x| ≤ 89 := by
    rw [abs_le]; constructor <;> norm_num at * <;> linarith
  obtain ⟨k, k1, k2, k3, n1, n2, n3, n4⟩ := exp_core h h1 hx hr
  exact exp_tiny_of h k2 n1 n2 n3 n4 (k3.trans (by norm_num)) (by norm_num at *; linarith) (by norm_num at *; linarith)

end Nova
