import Mathlib.Data.EReal.Operations
import Verif.Float.Value

/-! # Exactness and sign rules of the arithmetic operations -/

namespace Nova.FP.Fmt
variable {w : Nat} (F : Fmt w)

theorem units_eq_zero {x : BitVec w} : F.units x = 0 ↔ F.code x = 0 := by
  rw [← mag_eq_zero (mb := F.mb)]
  unfold units
  split <;> omega

theorem natAbs_units (x : BitVec w) : (F.units x).natAbs = mag F.mb (F.code x) := by
  unfold units; split <;> simp

theorem units_neg_iff {x : BitVec w} (h : F.code x ≠ 0) : F.units x < 0 ↔ F.neg x = true := by
  have : mag F.mb (F.code x) ≠ 0 := fun hh => h (mag_eq_zero.mp hh)
  unfold units
  cases F.neg x
  · simp
  · simp; omega

theorem finite_code {x : BitVec w} (h : F.isFinite x = true) : F.code x < F.infCode := by
  simpa [isFinite] using h

/-- A magnitude that the format can represent is not rounded. -/
theorem packRnd_mag (s : Bool) {c D N : Nat} (hD : 0 < D) (hc : c ≤ F.infCode) (hN : N = mag F.mb c * D) :
    F.packRnd s N D = F.pack s c := by
  unfold packRnd
  rw [rne_exact hD hN, Nat.min_eq_right hc]

theorem add_finite {x y : BitVec w} (hx : F.isFinite x = true) (hy : F.isFinite y = true) :
    F.add x y = if F.units x + F.units y = 0 then F.pack (F.neg x && F.neg y) 0
      else F.packRnd (decide (F.units x + F.units y < 0)) (F.units x + F.units y).natAbs 1 := by
  unfold add
  rw [F.isFinite_not_nan hx, F.isFinite_not_nan hy, F.isFinite_not_inf hx, F.isFinite_not_inf hy]
  simp

theorem sub_num {x y : BitVec w} (hx : F.isNaN x = false) (hy : F.isNaN y = false) :
    F.sub x y = F.add x (F.negate y) := by
  unfold sub; rw [hx, hy]; simp

theorem mul_finite {x y : BitVec w} (hx : F.isFinite x = true) (hy : F.isFinite y = true) :
    F.mul x y = F.packRnd (F.neg x != F.neg y) (mag F.mb (F.code x) * mag F.mb (F.code y)) (2 ^ F.scale) := by
  unfold mul
  rw [F.isFinite_not_nan hx, F.isFinite_not_nan hy, F.isFinite_not_inf hx, F.isFinite_not_inf hy]
  simp

theorem div_finite {x y : BitVec w} (hx : F.isFinite x = true) (hy : F.isFinite y = true)
    (h0 : F.code y ≠ 0) :
    F.div x y = F.packRnd (F.neg x != F.neg y) (mag F.mb (F.code x) * 2 ^ F.scale) (mag F.mb (F.code y)) := by
  unfold div
  rw [F.isFinite_not_nan hx, F.isFinite_not_nan hy, F.isFinite_not_inf hx, F.isFinite_not_inf hy]
  simp [isZero, h0]

/-- A sum that is representable and not zero is not rounded. -/
theorem add_exact {x y r : BitVec w} (hx : F.isFinite x = true) (hy : F.isFinite y = true)
    (hr : F.isFinite r = true) (h : F.units x + F.units y = F.units r) (h0 : F.code r ≠ 0) :
    F.add x y = r := by
  rw [F.add_finite hx hy, h]
  have h1 : F.units r ≠ 0 := fun hh => h0 (F.units_eq_zero.mp hh)
  rw [if_neg h1, F.natAbs_units,
    F.packRnd_mag _ (by decide) (F.finite_code hr).le (Nat.mul_one _).symm]
  have : decide (F.units r < 0) = F.neg r := by
    rw [Bool.eq_iff_iff, decide_eq_true_iff, F.units_neg_iff h0]
  rw [this, F.pack_self]

/-- A sum of zero: `-0` only from two negative zeros. -/
theorem add_zero_sum {x y : BitVec w} (hx : F.isFinite x = true) (hy : F.isFinite y = true)
    (h : F.units x + F.units y = 0) : F.add x y = F.pack (F.neg x && F.neg y) 0 := by
  rw [F.add_finite hx hy, if_pos h]

@[simp] theorem isFinite_posZero : F.isFinite F.posZero = true := by
  have := F.infCode_pos
  simp [isFinite]; omega

@[simp] theorem units_posZero : F.units F.posZero = 0 := by simp [units]

@[simp] theorem isInf_posZero : F.isInf F.posZero = false := F.isFinite_not_inf F.isFinite_posZero

/-- `0 - x` of a number. -/
theorem zero_sub {x : BitVec w} (h : F.isNaN x = false) :
    F.sub F.posZero x = if F.code x = 0 then F.posZero else F.negate x := by
  rw [F.sub_num F.isNaN_posZero h]
  by_cases hi : F.isInf x = true
  · have hc : F.code x ≠ 0 := by
      have := F.infCode_pos
      simp [isInf] at hi; omega
    rw [if_neg hc]
    unfold add
    simp [h, hi]
  · have hi' : F.isInf x = false := by simpa using hi
    have hf := F.finite_of h hi'
    by_cases hc : F.code x = 0
    · rw [if_pos hc, F.add_zero_sum F.isFinite_posZero (by simpa using hf)
        (by rw [F.units_posZero, F.units_negate, F.units_eq_zero.mpr hc]; rfl)]
      rw [F.neg_posZero]; rfl
    · rw [if_neg hc]
      refine F.add_exact F.isFinite_posZero (by simpa using hf) (by simpa using hf) ?_ (by simpa using hc)
      rw [F.units_posZero, Int.zero_add]

theorem toEReal_negate {x : BitVec w} : F.toEReal (F.negate x) = -F.toEReal x := by
  unfold toEReal
  rw [F.isInf_negate, F.neg_negate, F.toReal_negate]
  by_cases h : F.isInf x = true
  · rw [if_pos h, if_pos h]; cases F.neg x <;> simp
  · rw [if_neg h, if_neg h]; simp

theorem toEReal_eq_zero_of_code {x : BitVec w} (h : F.code x = 0) : F.toEReal x = 0 := by
  have hn : F.isNaN x = false := by simp [isNaN, h]
  exact (F.key_zero_iff hn).mp (F.key_eq_zero.mpr h)

/-- `0 - x` has the opposite value. -/
theorem toEReal_zero_sub {x : BitVec w} (h : F.isNaN x = false) :
    F.toEReal (F.sub F.posZero x) = -F.toEReal x ∧ F.isNaN (F.sub F.posZero x) = false := by
  rw [F.zero_sub h]
  split
  · rename_i hc
    rw [F.toEReal_posZero, F.toEReal_eq_zero_of_code hc]; simp
  · rw [F.toEReal_negate]; simp [h]

/-! ## Signs -/

theorem code_or (x y : BitVec w) : F.code (x ||| y) = F.code x ||| F.code y := by
  apply Nat.eq_of_testBit_eq
  intro i
  rw [Nat.testBit_or, F.testBit_code, F.testBit_code, F.testBit_code, BitVec.getLsbD_or]
  cases decide (i < w - 1) <;> simp

theorem isNaN_quiet {x : BitVec w} (h : F.isNaN x = true) : F.isNaN (F.quiet x) = true := by
  simp only [isNaN, decide_eq_true_eq, quiet, code_or] at *
  exact lt_of_lt_of_le h Nat.left_le_or

theorem isNaN_defaultNaN : F.isNaN F.defaultNaN = true := by
  have h : F.infCode + 2 ^ (F.mb - 1) < 2 ^ (w - 1) := by
    have h1 : 2 ^ (w - 1) = F.infCode + 2 ^ F.mb := by
      unfold infCode
      have h2 : 2 ^ (w - 1) = 2 ^ F.eb * 2 ^ F.mb := by
        rw [← pow_add]; congr 1; have := F.hw; omega
      rw [h2, Nat.sub_mul, Nat.one_mul, Nat.sub_add_cancel]
      exact Nat.le_mul_of_pos_left _ (Nat.two_pow_pos _)
    have h3 : 2 ^ (F.mb - 1) < 2 ^ F.mb := Nat.pow_lt_pow_right (by decide) (by have := F.hmb; omega)
    omega
  unfold defaultNaN isNaN
  rw [F.code_pack _ h]
  simp

theorem isNaN_nan2 {x y : BitVec w} (h : (F.isNaN x || F.isNaN y) = true) : F.isNaN (F.nan2 x y) = true := by
  unfold nan2
  by_cases hx : F.isNaN x = true
  · rw [if_pos hx]; exact F.isNaN_quiet hx
  · rw [if_neg hx]
    have : F.isNaN y = true := by simpa [hx] using h
    exact F.isNaN_quiet this

theorem isNaN_pack_inf (s : Bool) : F.isNaN (F.pack s F.infCode) = false := by
  unfold isNaN; rw [F.code_pack _ F.infCode_lt]; simp

theorem isNaN_pack_zero (s : Bool) : F.isNaN (F.pack s 0) = false := by
  unfold isNaN; rw [F.code_pack _ (Nat.two_pow_pos _)]; simp

/-- Negating one factor negates the product, unless it is a NaN. -/
theorem mul_negate_left {x y : BitVec w} (h : F.isNaN (F.mul x y) = false) :
    F.mul (F.negate x) y = F.negate (F.mul x y) := by
  unfold mul at *
  simp only [F.isNaN_negate, F.isInf_negate, F.isZero_negate, F.neg_negate, F.code_negate] at *
  by_cases h1 : (F.isNaN x || F.isNaN y) = true
  · rw [if_pos h1, F.isNaN_nan2 h1] at h; exact absurd h (by simp)
  · rw [if_neg h1] at h ⊢; rw [if_neg h1]
    by_cases h2 : (F.isInf x || F.isInf y) = true
    · rw [if_pos h2] at h ⊢; rw [if_pos h2]
      by_cases h3 : (F.isZero x || F.isZero y) = true
      · rw [if_pos h3, F.isNaN_defaultNaN] at h; exact absurd h (by simp)
      · rw [if_neg h3, if_neg h3, F.negate_pack _ F.infCode_lt]; cases F.neg x <;> cases F.neg y <;> rfl
    · rw [if_neg h2, if_neg h2, F.negate_packRnd]; cases F.neg x <;> cases F.neg y <;> rfl

/-- Negating both summands negates a sum that is neither zero nor a NaN. -/
theorem add_negate {x y : BitVec w} (h : F.isNaN (F.add x y) = false) (h0 : F.code (F.add x y) ≠ 0) :
    F.add (F.negate x) (F.negate y) = F.negate (F.add x y) := by
  unfold add at *
  simp only [F.isNaN_negate, F.isInf_negate, F.neg_negate, F.units_negate] at *
  by_cases h1 : (F.isNaN x || F.isNaN y) = true
  · rw [if_pos h1, F.isNaN_nan2 h1] at h; exact absurd h (by simp)
  · rw [if_neg h1] at h h0 ⊢; rw [if_neg h1]
    by_cases h2 : F.isInf x = true
    · rw [if_pos h2] at h h0 ⊢; rw [if_pos h2]
      by_cases h3 : (F.isInf y && (F.neg x != F.neg y)) = true
      · rw [if_pos h3, F.isNaN_defaultNaN] at h; exact absurd h (by simp)
      · rw [if_neg h3, if_neg]
        revert h3
        cases F.isInf y <;> cases F.neg x <;> cases F.neg y <;> simp
    · rw [if_neg h2] at h h0 ⊢; rw [if_neg h2]
      by_cases h3 : F.isInf y = true
      · rw [if_pos h3, if_pos h3]
      · rw [if_neg h3] at h h0 ⊢; rw [if_neg h3]
        by_cases h4 : F.units x + F.units y = 0
        · rw [if_pos h4, F.code_pack _ (Nat.two_pow_pos _)] at h0; exact absurd rfl h0
        · rw [if_neg h4, if_neg (by omega), F.negate_packRnd]
          have e : -F.units x + -F.units y = -(F.units x + F.units y) := by ring
          rw [e, Int.natAbs_neg]
          congr 1
          rw [Bool.eq_iff_iff]
          simp
          omega

end Nova.FP.Fmt
