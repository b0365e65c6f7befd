import Verif.Lemmas.LogPoly
import Verif.Lemmas.SimdMath
import Verif.Lemmas.TrigReduce
import Mathlib.Analysis.Complex.ExponentialBounds

/-!
# `vec_log_float`: the sum of the polynomial and the multiple of log 2
-/

namespace Nova
open FP VecMath

/-- The last lines of `vec_log_float` (detail/vec_math.hpp:182-199). -/
def logTail (V : LaneOps 32) (x fe : BitVec 32) : BitVec 32 :=
  let y := logPoly V x
  let y := V.add y (V.mul fe (litD (-2.12194440e-4)))
  let y := V.sub y (V.mul (V.mul (litD 0.5) x) x)
  let z := V.add x y
  V.add z (V.mul (litD 0.693359375) fe)

/-- Half the logarithm of 2 bounds the logarithm of the reduced argument. -/
theorem log_half {v : ℝ} (h1 : -0.29290 ≤ v) (h2 : v ≤ 0.41422) : |Real.log (1 + v)| ≤ 0.34659 := by
  have L1 := Real.log_two_gt_d9
  have L2 := Real.log_two_lt_d9
  norm_num at h1 h2
  have hp : 0 < 1 + v := by linarith
  have e : 2 * Real.log (1 + v) = Real.log 2 + Real.log ((1 + v) ^ 2 / 2) := by
    rw [Real.log_div (by positivity) (by norm_num), Real.log_pow]; push_cast; ring
  have e' : 2 * Real.log (1 + v) = -Real.log 2 + Real.log ((1 + v) ^ 2 * 2) := by
    rw [Real.log_mul (by positivity) (by norm_num), Real.log_pow]; push_cast; ring
  have u : Real.log ((1 + v) ^ 2 / 2) ≤ (1 + v) ^ 2 / 2 - 1 := Real.log_le_sub_one_of_pos (by positivity)
  have l : 1 - ((1 + v) ^ 2 * 2)⁻¹ ≤ Real.log ((1 + v) ^ 2 * 2) := Real.one_sub_inv_le_log_of_pos (by positivity)
  have u2 : (1 + v) ^ 2 / 2 - 1 ≤ 2 / 10 ^ 5 := by nlinarith
  have l2 : ((1 + v) ^ 2 * 2)⁻¹ ≤ 1 + 2 / 10 ^ 5 := by
    rw [inv_le_iff_one_le_mul₀ (by positivity)]; nlinarith
  rw [abs_le]
  norm_num at *
  constructor <;> linarith

/-- `0.693359375 * e` is exact. -/
theorem log_product32 {fe : BitVec 32} {k : ℤ} {K : ℕ} {B : ℝ} (hf : Tr fe k 0 B)
    (hk : |k| ≤ K) (hK : K ≤ 128) : Tr (binary32.mul (litD 0.693359375) fe) (k * (355 / 2 ^ 9)) 0 89 := by
  have c1v : binary32.toReal (litD 0.693359375) = 355 / 2 ^ 9 := by
    rw [isVal_value (q := 355/2^9) (by decide +kernel)]; norm_num
  have c1f : IsFin binary32 (litD 0.693359375) := isVal_fin (q := 355/2^9) (by decide +kernel)
  have hfv : binary32.toReal fe = k := by
    have := hf.err; rw [abs_nonpos_iff, sub_eq_zero] at this; exact this
  have hk3 : k.natAbs ≤ 128 := by rw [← Int.natCast_natAbs] at hk; omega
  have hk4 : |(k : ℝ)| ≤ 128 := by
    have : |k| ≤ 128 := by omega
    exact_mod_cast this
  have m1 := mul_exact32 c1f hf.fin (m := k.natAbs * 355) (s := 140) (by omega)
    (by
      have : k.natAbs * 355 ≤ 2 ^ 16 := by omega
      have h2 : ((k.natAbs * 355 : ℕ) : ℝ) ≤ 2 ^ 16 := by exact_mod_cast this
      calc ((k.natAbs * 355 : ℕ) : ℝ) * 2 ^ 140 / 2 ^ 149 ≤ 2 ^ 16 * 2 ^ 140 / 2 ^ 149 := by gcongr
        _ ≤ 2 ^ 127 := by norm_num)
    (by
      rw [hfv, c1v, abs_mul]
      have : (k.natAbs : ℝ) = |(k : ℝ)| := by rw [← Int.cast_abs, ← Int.natCast_natAbs]; rfl
      rw [Nat.cast_mul, this, abs_of_pos (show (0 : ℝ) < 355 / 2 ^ 9 by norm_num)]
      norm_num
      ring)
  rw [hfv, c1v, mul_comm] at m1
  refine ⟨m1.1, by rw [m1.2, sub_self, abs_zero], ?_⟩
  rw [abs_mul, abs_of_pos (show (0 : ℝ) < 355 / 2 ^ 9 by norm_num)]
  refine (mul_le_mul_of_nonneg_right hk4 (by norm_num)).trans (by norm_num)

theorem log_product {V : LaneOps 32} (h : V.Ieee) {fe : BitVec 32} {k : ℤ} {K : ℕ} {B : ℝ} (hf : Tr fe k 0 B)
    (hk : |k| ≤ K) (hK : K ≤ 128) : Tr (V.mul (litD 0.693359375) fe) (k * (355 / 2 ^ 9)) 0 89 := by
  rw [h.mul]; exact log_product32 hf hk hK

theorem log_tail1 {V : LaneOps 32} (h : V.Ieee) {x fe : BitVec 32} {v : ℝ} {k : ℤ} (ht : Tr x v 0 0.41422)
    (h1 : -0.29290 ≤ v) (h2 : v ≤ 0.41422) (hf : Tr fe k 0 1) (hk : |k| ≤ 1) :
    IsFin binary32 (logTail V x fe) ∧
    |binary32.toReal (logTail V x fe) - (Real.log (1 + v) + k * Real.log 2)| ≤
      53 / 10 ^ 9 + 1 / 2 ^ 24 * |Real.log (1 + v) + k * Real.log 2| := by
  have L3 := Real.log_two_near_10
  have hp := logHorner_track h ht
  have hl := log_half h1 h2
  have hP := logP_error h1 h2
  have hv : |v| ≤ 0.41422 := by rw [abs_le]; norm_num at *; constructor <;> linarith
  have hkr : |(k : ℝ)| ≤ 1 := by exact_mod_cast hk
  have hP' : |logP v - Real.log (1 + v)| ≤ 166 / 10 ^ 11 := by
    refine hP.trans ?_; norm_num at *; linarith
  have hkc : |(k : ℝ) * (-14581891 / 2 ^ 36)| ≤ 1 * (2.122 / 10 ^ 4) := by
    rw [abs_mul]; exact mul_le_mul hkr (by norm_num [abs_of_neg]) (abs_nonneg _) (by norm_num)
  have hz : |v + (logQ v * v * v * v + k * ((-14581891/2^36 : ℚ) : ℝ) - ((1/2^1 : ℚ) : ℝ) * v * v)| ≤ 87/250 := by
    have e : v + (logQ v * v * v * v + k * ((-14581891/2^36 : ℚ) : ℝ) - ((1/2^1 : ℚ) : ℝ) * v * v) =
        (logP v - Real.log (1 + v)) + Real.log (1 + v) + k * (-14581891 / 2 ^ 36) := by
      unfold logP; push_cast; ring
    rw [e]
    rw [abs_le] at hP' hl hkc ⊢
    norm_num at hP' hl hkc ⊢
    constructor <;> linarith
  have s1 := Tr.mul (D := 831/2^12) (E := 1235/2^35) hp ht (by norm_num) (by norm_num) (by norm_num)
  have s2 := Tr.mul (D := 1377/2^14) (E := 2735/2^37) s1 ht (by norm_num) (by norm_num) (by norm_num)
  have s3 := Tr.mul (D := 1141/2^15) (E := 2837/2^38) s2 ht (by norm_num) (by norm_num) (by norm_num)
  have s4 := Tr.const (x := litD (-2.12194440e-4)) (-14581891/2^36) (3561/2^24) (by decide +kernel) (by norm_num)
  have s5 := Tr.mul (D := 3561/2^24) (E := 1781/2^47) hf s4 (by norm_num) (by norm_num) (by norm_num)
  have s6 := Tr.add (D := 287/2^13) (E := 3415/2^38) s3 s5 (by norm_num) (by norm_num) (by norm_num)
  have s7 := Tr.const (x := litD 0.5) (1/2^1) (1/2^1) (by decide +kernel) (by norm_num)
  have s8 := Tr.mul (D := 1697/2^13) (E := 3395/2^38) s7 ht (by norm_num) (by norm_num) (by norm_num)
  have s9 := Tr.mul (D := 703/2^13) (E := 2813/2^38) s8 ht (by norm_num) (by norm_num) (by norm_num)
  have s10 := Tr.sub (D := 495/2^12) (E := 2053/2^36) s6 s9 (by norm_num) (by norm_num) (by norm_num)
  have s11 := Tr.add_of (D := 87/250) (E := 3479/2^36) ht s10 hz (by norm_num) (by norm_num)
  have m1 := log_product h (K := 1) hf hk (by norm_num)
  rw [h.mul] at m1
  have hg : |(logP v + k * (-14581891 / 2 ^ 36) + k * (355 / 2 ^ 9)) - (Real.log (1 + v) + k * Real.log 2)| ≤ 18 / 10 ^ 10 := by
    rw [show (logP v + k * (-14581891 / 2 ^ 36) + k * (355 / 2 ^ 9)) - (Real.log (1 + v) + k * Real.log 2) =
      (logP v - Real.log (1 + v)) + k * (-14581891 / 2 ^ 36 + 355 / 2 ^ 9 - Real.log 2) by ring]
    have a1 : |-14581891 / 2 ^ 36 + 355 / 2 ^ 9 - Real.log 2| ≤ 1.163 / 10 ^ 10 := by
      rw [abs_le] at L3 ⊢; constructor <;> norm_num at * <;> linarith
    have a2 : |(k : ℝ) * (-14581891 / 2 ^ 36 + 355 / 2 ^ 9 - Real.log 2)| ≤ 1 * (1.163 / 10 ^ 10) := by
      rw [abs_mul]; exact mul_le_mul hkr a1 (abs_nonneg _) (by norm_num)
    rw [abs_le] at hP' a2 ⊢
    norm_num at hP' a2 ⊢
    constructor <;> linarith
  have hsum : |v + (logQ v * v * v * v + k * ((-14581891/2^36 : ℚ) : ℝ) - ((1/2^1 : ℚ) : ℝ) * v * v) + k * (355 / 2 ^ 9) -
      (Real.log (1 + v) + k * Real.log 2)| ≤ 18 / 10 ^ 10 := by
    refine le_trans (le_of_eq ?_) hg
    congr 1
    unfold logP; push_cast; ring
  have hD : |v + (logQ v * v * v * v + k * ((-14581891/2^36 : ℚ) : ℝ) - ((1/2^1 : ℚ) : ℝ) * v * v) + k * (355 / 2 ^ 9)| ≤
      |Real.log (1 + v) + k * Real.log 2| + 18 / 10 ^ 10 := by
    have := abs_sub_abs_le_abs_sub (v + (logQ v * v * v * v + k * ((-14581891/2^36 : ℚ) : ℝ) - ((1/2^1 : ℚ) : ℝ) * v * v) +
      k * (355 / 2 ^ 9)) (Real.log (1 + v) + k * Real.log 2)
    linarith
  have hL : |Real.log (1 + v) + k * Real.log 2| ≤ 100 := by
    refine (abs_add_le _ _).trans ?_
    rw [abs_mul]
    have a1 : |Real.log 2| ≤ 0.7 := by rw [abs_le] at L3 ⊢; constructor <;> norm_num at * <;> linarith
    have a2 := mul_le_mul hkr a1 (abs_nonneg _) (by norm_num)
    norm_num at *
    linarith
  generalize |Real.log (1 + v) + k * Real.log 2| = L at *
  have r1 := Tr.add_of (D := L + 18 / 10 ^ 10) (E := 3479/2^36 + 1 / 2 ^ 24 * (L + 18 / 10 ^ 10 + 3479/2^36)) s11 m1 hD (by norm_num)
    (by norm_num at *; linarith)
  unfold logTail
  dsimp only
  rw [logPoly_eq, h.add, h.mul, h.sub]
  refine ⟨r1.fin, ?_⟩
  have e1 := r1.err
  generalize binary32.toReal (binary32.add _ _) = R at *
  have := abs_add_le (R - (v + (logQ v * v * v * v + k * ((-14581891/2^36 : ℚ) : ℝ) - ((1/2^1 : ℚ) : ℝ) * v * v) +
    k * (355 / 2 ^ 9))) (v + (logQ v * v * v * v + k * ((-14581891/2^36 : ℚ) : ℝ) - ((1/2^1 : ℚ) : ℝ) * v * v) +
    k * (355 / 2 ^ 9) - (Real.log (1 + v) + k * Real.log 2))
  rw [sub_add_sub_cancel] at this
  have fin := this.trans (add_le_add e1 hsum)
  refine fin.trans ?_
  norm_num
  linarith


theorem log_tail128 {V : LaneOps 32} (h : V.Ieee) {x fe : BitVec 32} {v : ℝ} {k : ℤ} (ht : Tr x v 0 0.41422)
    (h1 : -0.29290 ≤ v) (h2 : v ≤ 0.41422) (hf : Tr fe k 0 128) (hk : |k| ≤ 128) :
    IsFin binary32 (logTail V x fe) ∧
    |binary32.toReal (logTail V x fe) - (Real.log (1 + v) + k * Real.log 2)| ≤
      74 / 10 ^ 9 + 1 / 2 ^ 24 * |Real.log (1 + v) + k * Real.log 2| := by
  have L3 := Real.log_two_near_10
  have hp := logHorner_track h ht
  have hl := log_half h1 h2
  have hP := logP_error h1 h2
  have hv : |v| ≤ 0.41422 := by rw [abs_le]; norm_num at *; constructor <;> linarith
  have hkr : |(k : ℝ)| ≤ 128 := by exact_mod_cast hk
  have hP' : |logP v - Real.log (1 + v)| ≤ 166 / 10 ^ 11 := by
    refine hP.trans ?_; norm_num at *; linarith
  have hkc : |(k : ℝ) * (-14581891 / 2 ^ 36)| ≤ 128 * (2.122 / 10 ^ 4) := by
    rw [abs_mul]; exact mul_le_mul hkr (by norm_num [abs_of_neg]) (abs_nonneg _) (by norm_num)
  have hz : |v + (logQ v * v * v * v + k * ((-14581891/2^36 : ℚ) : ℝ) - ((1/2^1 : ℚ) : ℝ) * v * v)| ≤ 3/2^3 := by
    have e : v + (logQ v * v * v * v + k * ((-14581891/2^36 : ℚ) : ℝ) - ((1/2^1 : ℚ) : ℝ) * v * v) =
        (logP v - Real.log (1 + v)) + Real.log (1 + v) + k * (-14581891 / 2 ^ 36) := by
      unfold logP; push_cast; ring
    rw [e]
    rw [abs_le] at hP' hl hkc ⊢
    norm_num at hP' hl hkc ⊢
    constructor <;> linarith
  have s1 := Tr.mul (D := 831/2^12) (E := 1235/2^35) hp ht (by norm_num) (by norm_num) (by norm_num)
  have s2 := Tr.mul (D := 1377/2^14) (E := 2735/2^37) s1 ht (by norm_num) (by norm_num) (by norm_num)
  have s3 := Tr.mul (D := 1141/2^15) (E := 2837/2^38) s2 ht (by norm_num) (by norm_num) (by norm_num)
  have s4 := Tr.const (x := litD (-2.12194440e-4)) (-14581891/2^36) (3561/2^24) (by decide +kernel) (by norm_num)
  have s5 := Tr.mul (D := 3561/2^17) (E := 1781/2^40) hf s4 (by norm_num) (by norm_num) (by norm_num)
  have s6 := Tr.add (D := 4063/2^16) (E := 1075/2^36) s3 s5 (by norm_num) (by norm_num) (by norm_num)
  have s7 := Tr.const (x := litD 0.5) (1/2^1) (1/2^1) (by decide +kernel) (by norm_num)
  have s8 := Tr.mul (D := 1697/2^13) (E := 3395/2^38) s7 ht (by norm_num) (by norm_num) (by norm_num)
  have s9 := Tr.mul (D := 703/2^13) (E := 2813/2^38) s8 ht (by norm_num) (by norm_num) (by norm_num)
  have s10 := Tr.sub (D := 1211/2^13) (E := 149/2^32) s6 s9 (by norm_num) (by norm_num) (by norm_num)
  have s11 := Tr.add_of (D := 3/2^3) (E := 3921/2^36) ht s10 hz (by norm_num) (by norm_num)
  have m1 := log_product h (K := 128) hf hk (by norm_num)
  rw [h.mul] at m1
  have hg : |(logP v + k * (-14581891 / 2 ^ 36) + k * (355 / 2 ^ 9)) - (Real.log (1 + v) + k * Real.log 2)| ≤ 1656 / 10 ^ 11 := by
    rw [show (logP v + k * (-14581891 / 2 ^ 36) + k * (355 / 2 ^ 9)) - (Real.log (1 + v) + k * Real.log 2) =
      (logP v - Real.log (1 + v)) + k * (-14581891 / 2 ^ 36 + 355 / 2 ^ 9 - Real.log 2) by ring]
    have a1 : |-14581891 / 2 ^ 36 + 355 / 2 ^ 9 - Real.log 2| ≤ 1.163 / 10 ^ 10 := by
      rw [abs_le] at L3 ⊢; constructor <;> norm_num at * <;> linarith
    have a2 : |(k : ℝ) * (-14581891 / 2 ^ 36 + 355 / 2 ^ 9 - Real.log 2)| ≤ 128 * (1.163 / 10 ^ 10) := by
      rw [abs_mul]; exact mul_le_mul hkr a1 (abs_nonneg _) (by norm_num)
    rw [abs_le] at hP' a2 ⊢
    norm_num at hP' a2 ⊢
    constructor <;> linarith
  have hsum : |v + (logQ v * v * v * v + k * ((-14581891/2^36 : ℚ) : ℝ) - ((1/2^1 : ℚ) : ℝ) * v * v) + k * (355 / 2 ^ 9) -
      (Real.log (1 + v) + k * Real.log 2)| ≤ 1656 / 10 ^ 11 := by
    refine le_trans (le_of_eq ?_) hg
    congr 1
    unfold logP; push_cast; ring
  have hD : |v + (logQ v * v * v * v + k * ((-14581891/2^36 : ℚ) : ℝ) - ((1/2^1 : ℚ) : ℝ) * v * v) + k * (355 / 2 ^ 9)| ≤
      |Real.log (1 + v) + k * Real.log 2| + 1656 / 10 ^ 11 := by
    have := abs_sub_abs_le_abs_sub (v + (logQ v * v * v * v + k * ((-14581891/2^36 : ℚ) : ℝ) - ((1/2^1 : ℚ) : ℝ) * v * v) +
      k * (355 / 2 ^ 9)) (Real.log (1 + v) + k * Real.log 2)
    linarith
  have hL : |Real.log (1 + v) + k * Real.log 2| ≤ 100 := by
    refine (abs_add_le _ _).trans ?_
    rw [abs_mul]
    have a1 : |Real.log 2| ≤ 0.7 := by rw [abs_le] at L3 ⊢; constructor <;> norm_num at * <;> linarith
    have a2 := mul_le_mul hkr a1 (abs_nonneg _) (by norm_num)
    norm_num at *
    linarith
  generalize |Real.log (1 + v) + k * Real.log 2| = L at *
  have r1 := Tr.add_of (D := L + 1656 / 10 ^ 11) (E := 3921/2^36 + 1 / 2 ^ 24 * (L + 1656 / 10 ^ 11 + 3921/2^36)) s11 m1 hD (by norm_num)
    (by norm_num at *; linarith)
  unfold logTail
  dsimp only
  rw [logPoly_eq, h.add, h.mul, h.sub]
  refine ⟨r1.fin, ?_⟩
  have e1 := r1.err
  generalize binary32.toReal (binary32.add _ _) = R at *
  have := abs_add_le (R - (v + (logQ v * v * v * v + k * ((-14581891/2^36 : ℚ) : ℝ) - ((1/2^1 : ℚ) : ℝ) * v * v) +
    k * (355 / 2 ^ 9))) (v + (logQ v * v * v * v + k * ((-14581891/2^36 : ℚ) : ℝ) - ((1/2^1 : ℚ) : ℝ) * v * v) +
    k * (355 / 2 ^ 9) - (Real.log (1 + v) + k * Real.log 2))
  rw [sub_add_sub_cancel] at this
  have fin := this.trans (add_le_add e1 hsum)
  refine fin.trans ?_
  norm_num
  linarith

end Nova
