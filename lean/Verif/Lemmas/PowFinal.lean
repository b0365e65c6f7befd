import Verif.Props.C46_Exp
import Verif.Lemmas.LogFinal
import Verif.Lemmas.TanhFinal
import Mathlib.Analysis.SpecialFunctions.Pow.Real

/-!
# `vec_pow` and `vec_signed_pow`: an exponential of a rounded product
-/

namespace Nova
open FP VecMath

/-- The product with an approximation of the logarithm, before and after its rounding. -/
theorem pow_product_of {y l : BitVec 32} {L : ℝ} (hy : IsFin binary32 y) (f1 : IsFin binary32 l)
    (e1 : |binary32.toReal l - L| ≤ 1 / 2 ^ 22 * |L|) (hr : |binary32.toReal y * L| ≤ 2 ^ 100) :
    IsFin binary32 (binary32.mul y l) ∧
    |binary32.toReal (binary32.mul y l) - binary32.toReal y * L| ≤ 3e-7 * |binary32.toReal y * L| + 1 / 2 ^ 150 ∧
    |binary32.toReal y * binary32.toReal l - binary32.toReal y * L| ≤ 3e-7 * |binary32.toReal y * L| + 1 / 2 ^ 150 := by
  have e2 : |binary32.toReal y * binary32.toReal l - binary32.toReal y * L| ≤ 1 / 2 ^ 22 * |binary32.toReal y * L| := by
    rw [← mul_sub, abs_mul, abs_mul]
    calc _ ≤ |binary32.toReal y| * (1 / 2 ^ 22 * |L|) := mul_le_mul_of_nonneg_left e1 (abs_nonneg _)
      _ = _ := by ring
  have e3 : |binary32.toReal y * binary32.toReal l| ≤ (1 + 1 / 2 ^ 22) * |binary32.toReal y * L| := by
    have := abs_add_le (binary32.toReal y * binary32.toReal l - binary32.toReal y * L) (binary32.toReal y * L)
    rw [sub_add_cancel] at this
    linarith
  obtain ⟨f2, e4⟩ := mul_near32 hy f1 (e3.trans (by
    calc _ ≤ (1 + 1 / 2 ^ 22) * (2 : ℝ) ^ 100 := mul_le_mul_of_nonneg_left hr (by norm_num)
      _ ≤ _ := by norm_num))
  refine ⟨f2, ?_, e2.trans ?_⟩
  swap
  · have := abs_nonneg (binary32.toReal y * L)
    generalize |binary32.toReal y * L| = g at *
    norm_num; linarith
  have e5 := abs_sub_le (binary32.toReal (binary32.mul y l)) (binary32.toReal y * binary32.toReal l) (binary32.toReal y * L)
  refine e5.trans ((add_le_add e4 e2).trans ?_)
  have e6 := mul_le_mul_of_nonneg_left e3 (by norm_num : (0 : ℝ) ≤ 1 / 2 ^ 24)
  have e7 := abs_nonneg (binary32.toReal y * L)
  generalize |binary32.toReal y * binary32.toReal l| = g1 at *
  generalize |binary32.toReal y * L| = g2 at *
  norm_num at e6 ⊢
  linarith

/-- The product `y * log x` with its rounding errors. -/
theorem pow_product {V : LaneOps 32} (h : V.Ieee) (hV : IsX86Class V) {x y : BitVec 32} (hx : IsNormal x)
    (hp : 0 < binary32.toReal x) (hy : IsFin binary32 y)
    (hr : |binary32.toReal y * Real.log (binary32.toReal x)| ≤ 2 ^ 100) :
    IsFin binary32 (V.mul y (vecLog V x)) ∧
    |binary32.toReal (V.mul y (vecLog V x)) - binary32.toReal y * Real.log (binary32.toReal x)| ≤
      3e-7 * |binary32.toReal y * Real.log (binary32.toReal x)| + 1 / 2 ^ 150 := by
  obtain ⟨f1, e1⟩ := vecLog_error h hV hx (neg_of_toReal hp)
  rw [h.mul]
  have := pow_product_of hy f1 e1 hr
  exact ⟨this.1, this.2.1⟩

/-- `vec_pow` of a normal positive base. -/
theorem vecPow_pos {V : LaneOps 32} (h : V.Ieee) {x : BitVec 32}
    (hp : 0 < binary32.toReal x) (y : BitVec 32) : vecPow V x y = vecExp V (V.mul y (vecLog V x)) := by
  unfold vecPow
  dsimp only
  have h0 : binary32.eqb x V.zero = false := by
    rw [h.zero, Bool.eq_false_iff]
    intro hc
    rw [binary32.eqb_iff] at hc
    have hk := hc.2.2
    rw [show binary32.key 0#32 = 0 by decide, binary32.key_eq_zero] at hk
    have hu := binary32.units_eq_zero.mpr hk
    unfold Fmt.toReal at hp
    rw [hu] at hp
    simp at hp
  rw [h.eq, h0, h.sel]
  rfl

/-- The exponential of a product that is not exact. -/
theorem pow_error_of {R L M : ℝ} (hL : |L| ≤ 89) (e1 : |M - L| ≤ 3e-7 * |L| + 1 / 2 ^ 150)
    (n2 : |R - Real.exp M| ≤ 39 / 10 ^ 8 * Real.exp M) :
    |R - Real.exp L| ≤ (4e-7 + 3.1e-7 * |L|) * Real.exp L := by
  have hL0 := abs_nonneg L
  have hM : M = L + (M - L) := by ring
  generalize M - L = d at *
  have hd1 : |d| ≤ 1 / 10 ^ 4 := by
    refine e1.trans ?_
    norm_num at hL ⊢; linarith
  have x1 := Real.abs_exp_sub_one_sub_id_le (x := d) (hd1.trans (by norm_num))
  have x2 : |Real.exp d - 1| ≤ 1.0001 * |d| := by
    have a1 := abs_add_le (Real.exp d - 1 - d) d
    rw [sub_add_cancel] at a1
    have a2 : d ^ 2 ≤ 1 / 10 ^ 4 * |d| := by
      rw [← sq_abs, sq]; exact mul_le_mul_of_nonneg_right hd1 (abs_nonneg _)
    norm_num at a2 ⊢
    linarith
  rw [hM, Real.exp_add] at n2
  have hE := Real.exp_pos L
  generalize Real.exp L = E at *
  have x3 : |E * Real.exp d - E| ≤ E * (1.0001 * |d|) := by
    rw [show E * Real.exp d - E = E * (Real.exp d - 1) by ring, abs_mul, abs_of_pos hE]
    exact mul_le_mul_of_nonneg_left x2 hE.le
  have x4 : Real.exp d ≤ 1.001 := by
    have := (abs_le.mp x2).2
    norm_num at *; linarith
  have x5 : 39 / 10 ^ 8 * (E * Real.exp d) ≤ E * 3.95e-7 := by
    calc _ ≤ 39 / 10 ^ 8 * (E * 1.001) := by gcongr
      _ ≤ _ := by norm_num; linarith
  have x6 := abs_sub_le R (E * Real.exp d) E
  refine x6.trans ((add_le_add (n2.trans x5) x3).trans ?_)
  rw [← mul_add, mul_comm]
  refine mul_le_mul_of_nonneg_right ?_ hE.le
  norm_num at e1 ⊢
  linarith

/-- The error of `vec_pow`: it grows with the exponent of the result. -/
theorem vecPow_error {V : LaneOps 32} (h : V.Ieee) (hV : IsX86Class V) {x y : BitVec 32} (hx : IsNormal x)
    (hp : 0 < binary32.toReal x) (hy : IsFin binary32 y)
    (hlo : -87.3 ≤ binary32.toReal y * Real.log (binary32.toReal x))
    (hhi : binary32.toReal y * Real.log (binary32.toReal x) ≤ 88.7228) :
    IsNormal (vecPow V x y) ∧
    |binary32.toReal (vecPow V x y) - binary32.toReal x ^ binary32.toReal y| ≤
      (4e-7 + 3.1e-7 * |binary32.toReal y * Real.log (binary32.toReal x)|) * binary32.toReal x ^ binary32.toReal y := by
  rw [vecPow_pos h hp, Real.rpow_def_of_pos hp, mul_comm (Real.log _)]
  have hL : |binary32.toReal y * Real.log (binary32.toReal x)| ≤ 89 := by
    rw [abs_le]; norm_num at *; constructor <;> linarith
  obtain ⟨f1, e1⟩ := pow_product h hV hx hp hy (hL.trans (by norm_num))
  generalize V.mul y (vecLog V x) = m at *
  generalize binary32.toReal y * Real.log (binary32.toReal x) = L at *
  have hL0 := abs_nonneg L
  have hd := abs_le.mp e1
  have b1 : -87.33 ≤ binary32.toReal m := by norm_num at hd hL hlo ⊢; linarith
  have b2 : binary32.toReal m ≤ 88.722832 := by norm_num at hd hL hhi ⊢; linarith
  rw [not_saturated h f1 (by norm_num at *; linarith) (by norm_num at *; linarith)]
  have h1 : Tr V.one 1 0 1 := by rw [h.one]; exact one_track
  obtain ⟨n1, n2⟩ := exp_scaled h hV h1 f1 b1 b2
  change IsNormal (expApprox V m) at n1
  change |binary32.toReal (expApprox V m) - Real.exp (binary32.toReal m)| ≤ _ at n2
  exact ⟨n1, pow_error_of hL e1 n2⟩

/-- `vec_signed_pow` is `vec_pow` of the magnitude, with the sign of the base. -/
theorem vecSignedPow_eq {V : LaneOps 32} (h : V.Ieee) (x y : BitVec 32) :
    vecSignedPow V x y = signBit (binary32.neg x) ||| vecPow V (binary32.fabs x) y := by
  unfold vecSignedPow
  dsimp only
  rw [h.sign, sign_and, show x ^^^ signBit (binary32.neg x) = binary32.fabs x by
    rw [← sign_and]; exact binary32.xor_sign x]

/-- Floats between 64 and 128 are multiples of `2^-17`. -/
theorem grid17 {m : BitVec 32} (h : 64 ≤ binary32.toReal m) : ∃ k : ℤ, binary32.toReal m = k / 2 ^ 17 := by
  obtain ⟨k, hk⟩ := grid_of_large (x := m) (s := 132) (by
    rw [abs_of_nonneg (by linarith)]
    refine le_trans (le_of_eq ?_) h
    rw [div_eq_iff (by positivity), show (64 : ℝ) = 2 ^ 6 by norm_num, ← pow_add])
  refine ⟨k, ?_⟩
  unfold Fmt.toReal
  rw [hk, show binary32.scale = 149 by decide, Int.cast_mul, Int.cast_pow, Int.cast_ofNat,
    div_eq_div_iff (by positivity) (by positivity), mul_comm ((2 : ℝ) ^ 132), mul_assoc, ← pow_add]

/-- The error of `pow(2, 120)`: the product with log 2 is rounded to a multiple of `2^-17`. -/
theorem vecPow_two {V : LaneOps 32} (h : V.Ieee) (hV : IsX86Class V) :
    3e-6 * 2 ^ 120 ≤ |binary32.toReal (vecPow V 0x40000000#32 0x42f00000#32) - 2 ^ 120| := by
  have v2 : binary32.toReal 0x40000000#32 = 2 := by
    have := isVal_value (x := 0x40000000#32) (q := 2) (by decide +kernel)
    rw [this]; norm_num
  have vy : binary32.toReal 0x42f00000#32 = 120 := by
    have := isVal_value (x := 0x42f00000#32) (q := 120) (by decide +kernel)
    rw [this]; norm_num
  have L1 := Real.log_two_gt_d9
  have L2 := Real.log_two_lt_d9
  have hn : IsNormal 0x40000000#32 := ⟨by decide, by decide⟩
  rw [vecPow_pos h (by rw [v2]; norm_num)]
  have hLa : |120 * Real.log 2| = 120 * Real.log 2 := abs_of_nonneg (by linarith)
  obtain ⟨f1, e1⟩ := pow_product h hV hn (y := 0x42f00000#32) (by rw [v2]; norm_num) (by decide) (by
    rw [v2, vy, hLa]; norm_num at L2 ⊢; linarith)
  rw [v2, vy, hLa] at e1
  generalize V.mul 0x42f00000#32 (vecLog V 0x40000000#32) = m at *
  have hd := abs_le.mp e1
  have b1 : 83.1 ≤ binary32.toReal m := by norm_num at hd L1 ⊢; linarith
  have b2 : binary32.toReal m ≤ 83.2 := by norm_num at hd L1 L2 ⊢; linarith
  obtain ⟨k, hk⟩ := grid17 (le_trans (by norm_num) b1)
  have g : 3.5e-6 ≤ |binary32.toReal m - 120 * Real.log 2| := by
    rcases le_or_gt k 10902262 with hk1 | hk1
    · have hk2 : (k : ℝ) ≤ 10902262 := by exact_mod_cast hk1
      rw [abs_of_nonpos] <;> rw [hk] <;> norm_num at L1 ⊢ <;> linarith
    · have hk2 : (10902263 : ℝ) ≤ k := by exact_mod_cast hk1
      rw [abs_of_nonneg] <;> rw [hk] <;> norm_num at L2 ⊢ <;> linarith
  rw [not_saturated h f1 (by norm_num at *; linarith) (by norm_num at *; linarith)]
  have h1 : Tr V.one 1 0 1 := by rw [h.one]; exact one_track
  obtain ⟨-, n2⟩ := exp_scaled h hV h1 f1 (by norm_num at *; linarith) (by norm_num at *; linarith)
  change |binary32.toReal (expApprox V m) - Real.exp (binary32.toReal m)| ≤ _ at n2
  generalize binary32.toReal (expApprox V m) = R at *
  have hM : binary32.toReal m = 120 * Real.log 2 + (binary32.toReal m - 120 * Real.log 2) := by ring
  generalize binary32.toReal m - 120 * Real.log 2 = d at *
  have hE : Real.exp (120 * Real.log 2) = 2 ^ 120 := by
    rw [show (120 : ℝ) * Real.log 2 = (120 : ℕ) * Real.log 2 by norm_num, Real.exp_nat_mul, Real.exp_log (by norm_num)]
  rw [hM, Real.exp_add, hE] at n2
  have hd1 : |d| ≤ 1 / 10 ^ 4 := by
    refine e1.trans ?_
    norm_num at L2 ⊢; linarith
  have x1 := Real.abs_exp_sub_one_sub_id_le (x := d) (hd1.trans (by norm_num))
  have a2 : d ^ 2 ≤ 1 / 10 ^ 4 * |d| := by
    rw [← sq_abs, sq]; exact mul_le_mul_of_nonneg_right hd1 (abs_nonneg _)
  have x2 : 0.9999 * |d| ≤ |Real.exp d - 1| := by
    have a1 := abs_sub_abs_le_abs_sub d (-(Real.exp d - 1 - d))
    rw [abs_neg, sub_neg_eq_add, show d + (Real.exp d - 1 - d) = Real.exp d - 1 by ring] at a1
    norm_num at a2 ⊢
    linarith
  have x4 : Real.exp d ≤ 1.001 := by
    have a1 := (abs_le.mp x1).2
    have a3 := le_abs_self d
    norm_num at a2 hd1 ⊢; linarith
  have x6 : (2 : ℝ) ^ 120 * (0.9999 * |d|) ≤ |2 ^ 120 * Real.exp d - 2 ^ 120| := by
    rw [show (2 : ℝ) ^ 120 * Real.exp d - 2 ^ 120 = 2 ^ 120 * (Real.exp d - 1) by ring, abs_mul,
      abs_of_pos (a := (2 : ℝ) ^ 120) (by norm_num)]
    exact mul_le_mul_of_nonneg_left x2 (by norm_num)
  have x7 := abs_sub_le (2 ^ 120 * Real.exp d) R (2 ^ 120)
  rw [abs_sub_comm (2 ^ 120 * Real.exp d) R] at x7
  have x8 : (2 : ℝ) ^ 120 * (0.9999 * 3.5e-6) ≤ 2 ^ 120 * (0.9999 * |d|) := by gcongr
  have x9 : 39 / 10 ^ 8 * ((2 : ℝ) ^ 120 * Real.exp d) ≤ 39 / 10 ^ 8 * (2 ^ 120 * 1.001) := by gcongr
  generalize |2 ^ 120 * Real.exp d - 2 ^ 120| = g1 at *
  generalize |R - 2 ^ 120 * Real.exp d| = g2 at *
  generalize |R - 2 ^ 120| = g3 at *
  have := x8.trans x6
  have := n2.trans x9
  generalize (2 : ℝ) ^ 120 = T at *
  have hT : 0 < T := by rw [← hE]; positivity
  norm_num at *
  linarith

end Nova
