import Verif.Float.SqrtScale
import Verif.Lemmas.Scale
import Verif.Lemmas.BitMath

/-! # Signed square roots of scaled numbers -/

namespace Nova
open FP Spec

section
variable {w : Nat} {F : Fmt w}

theorem sqrt_code_digits {z : BitVec w} (hz : IsFin F z) (hs : F.neg z = false) :
    F.code (F.sqrt z) = min F.infCode (rne F.mb (rootDigits (mag F.mb (F.code z) * 2 ^ F.scale)) 2) := by
  unfold Fmt.sqrt
  rw [F.isFinite_not_nan hz, F.isFinite_not_inf hz, hs, if_neg (by decide)]
  by_cases h0 : F.isZero z = true
  · rw [if_pos h0]
    have hc : F.code z = 0 := by simpa [Fmt.isZero] using h0
    rw [hc, mag_zero, Nat.zero_mul]
    have : isqrt 0 = 0 := isqrt_unique (by decide) (by decide)
    unfold rootDigits
    rw [this, if_pos rfl, rne_zero _ (by decide)]
    simp
  · rw [if_neg h0, if_neg (by decide), if_neg (by decide), F.packRnd_code]
    rfl

theorem rootDigits_le {q b : Nat} (h : q ≤ b * b) : rootDigits q ≤ 2 * b := by
  obtain ⟨a, -⟩ := isqrt_spec q
  have hb : isqrt q ≤ b := by
    by_contra c
    have : (b + 1) * (b + 1) ≤ isqrt q * isqrt q := Nat.mul_le_mul (by omega) (by omega)
    nlinarith
  unfold rootDigits
  split
  · omega
  · next hne =>
    have : isqrt q ≠ b := by
      rintro rfl
      exact hne (le_antisymm a h)
    omega

/-- The square root of a finite number is finite. -/
theorem rne_root_lt (hW : F.Wide) {c : Nat} (hc : c < F.infCode) :
    rne F.mb (rootDigits (mag F.mb c * 2 ^ F.scale)) 2 < F.infCode := by
  obtain ⟨u, hu⟩ := mag_exists (mb := F.mb) F.scale (show 1 ≤ 2 ^ (F.mb + 1) from Nat.one_le_two_pow)
  rw [Nat.one_mul] at hu
  have hu' : u < F.infCode := by
    rw [← mag_lt_iff (mb := F.mb), hu]
    exact lt_of_le_of_lt (Nat.pow_le_pow_right (by decide) (Nat.le_add_left _ _)) hW
  rcases Nat.le_total c u with h | h
  · refine lt_of_le_of_lt (rne_le (by decide) ?_) hu'
    rw [Nat.mul_comm _ 2]
    refine rootDigits_le ?_
    rw [hu]
    exact Nat.mul_le_mul_right _ (by rw [← hu]; exact mag_le_iff.mpr h)
  · refine lt_of_le_of_lt (rne_le (by decide) ?_) hc
    rw [Nat.mul_comm _ 2]
    refine rootDigits_le ?_
    exact Nat.mul_le_mul_left _ (by rw [← hu]; exact mag_le_iff.mpr h)

theorem root_code (hW : F.Wide) {x : BitVec w} (hx : IsFin F x) :
    F.code (F.sqrt (F.fabs x)) = rne F.mb (rootDigits (mag F.mb (F.code x) * 2 ^ F.scale)) 2 ∧
      F.code (F.sqrt (F.fabs x)) < F.infCode := by
  have h := rne_root_lt hW (F.finite_code hx)
  have e := sqrt_code_digits (F := F) (z := F.fabs x) (by unfold IsFin at hx ⊢; simpa using hx) (by simp)
  rw [F.code_fabs, min_eq_right h.le] at e
  exact ⟨e, by rw [e]; exact h⟩

theorem signedSqrt_value (hW : F.Wide) {x : BitVec w} (hx : IsFin F x) :
    IsFin F (signedSqrtResult F x) ∧ F.toReal (signedSqrtResult F x) = (if F.neg x then -1 else 1) *
      ((mag F.mb (rne F.mb (rootDigits (mag F.mb (F.code x) * 2 ^ F.scale)) 2) : ℝ) / 2 ^ F.scale) := by
  obtain ⟨e, h⟩ := root_code hW hx
  unfold signedSqrtResult
  exact ⟨F.isFinite_pack _ h, by rw [F.toReal_pack _ h, e]⟩

theorem le_isqrt_units (hm : 2 * (F.mb + 1) ≤ F.scale) {x : BitVec w} (h0 : F.code x ≠ 0) :
    2 ^ (F.mb + 1) ≤ isqrt (mag F.mb (F.code x) * 2 ^ F.scale) := by
  by_contra c
  obtain ⟨-, b⟩ := isqrt_spec (mag F.mb (F.code x) * 2 ^ F.scale)
  have p : 0 < mag F.mb (F.code x) := mag_pos.mpr (Nat.pos_of_ne_zero h0)
  have b' : mag F.mb (F.code x) * 2 ^ F.scale < 2 ^ (F.mb + 1) * 2 ^ (F.mb + 1) :=
    lt_of_lt_of_le b (Nat.mul_le_mul (by omega) (by omega))
  rw [← pow_add] at b'
  have : 2 ^ (F.mb + 1 + (F.mb + 1)) ≤ 2 ^ F.scale := Nat.pow_le_pow_right (by decide) (by omega)
  have := Nat.le_mul_of_pos_left (2 ^ F.scale) p
  omega

theorem signedSqrt_scaled_nat (hW : F.Wide) (hm : 2 * (F.mb + 1) ≤ F.scale) {x x' : BitVec w} (hx : IsFin F x) (hx' : IsFin F x') (k : Nat)
    (h : F.toReal x' = F.toReal x * 4 ^ k) :
    F.toReal (signedSqrtResult F x') = F.toReal (signedSqrtResult F x) * 2 ^ k := by
  obtain ⟨-, e⟩ := signedSqrt_value hW hx
  obtain ⟨-, e'⟩ := signedSqrt_value hW hx'
  rw [e, e']
  have hS : (0 : ℝ) < 2 ^ F.scale := by positivity
  have ha : mag F.mb (F.code x') = mag F.mb (F.code x) * 4 ^ k := by
    have := congrArg abs h
    rw [F.toReal_eq x, F.toReal_eq x'] at this
    have sg : ∀ b : Bool, |(if b then -1 else 1 : ℝ)| = 1 := fun b => by cases b <;> simp
    simp only [abs_mul, sg, one_mul, abs_div, Nat.abs_cast, abs_of_pos hS, abs_pow, abs_of_pos (show (0 : ℝ) < 4 by norm_num)] at this
    have t : (mag F.mb (F.code x') : ℝ) = mag F.mb (F.code x) * 4 ^ k := by
      field_simp at this
      linarith
    exact_mod_cast t
  by_cases h0 : F.code x = 0
  · have h0' : F.code x' = 0 := by
      rw [h0, mag_zero, Nat.zero_mul] at ha
      exact mag_eq_zero.mp ha
    have z : rootDigits 0 = 0 := by
      have : isqrt 0 = 0 := isqrt_unique (by decide) (by decide)
      unfold rootDigits; rw [this]; rfl
    rw [h0, h0', mag_zero, Nat.zero_mul, z, rne_zero _ (by decide), mag_zero]
    simp
  · have hs : F.neg x' = F.neg x := by
      have p : 0 < mag F.mb (F.code x) := mag_pos.mpr (Nat.pos_of_ne_zero h0)
      have p' : 0 < mag F.mb (F.code x') := by rw [ha]; positivity
      rw [F.toReal_eq x, F.toReal_eq x'] at h
      have q : (0 : ℝ) < (mag F.mb (F.code x) : ℝ) / 2 ^ F.scale := by positivity
      have q' : (0 : ℝ) < (mag F.mb (F.code x') : ℝ) / 2 ^ F.scale := by positivity
      have t : (0 : ℝ) < 4 ^ k := by positivity
      cases hn : F.neg x <;> cases hn' : F.neg x' <;> first | rfl | (exfalso; simp only [hn, hn', Bool.false_eq_true, if_false, if_true] at h; nlinarith [mul_pos q t])
    have hr := le_isqrt_units hm h0
    rw [hs, ha, Nat.mul_right_comm, rne_root_scale k hr, mag_scale k]
    · push_cast; ring
    · refine le_rne (by decide) ?_
      rw [mag_small (Nat.pow_le_pow_right (by decide) (Nat.le_succ _))]
      have : 2 ^ F.mb ≤ 2 ^ (F.mb + 1) := Nat.pow_le_pow_right (by decide) (Nat.le_succ _)
      unfold rootDigits
      omega

/-- The signed square root of `4^k x` is `2^k` times the one of `x`. -/
theorem signedSqrt_scaled (hW : F.Wide) (hm : 2 * (F.mb + 1) ≤ F.scale) {x x' : BitVec w} {k : ℤ} (h : ScaledBy F (2 * k) x x') :
    ScaledBy F k (signedSqrtResult F x) (signedSqrtResult F x') := by
  obtain ⟨f, f', e⟩ := h
  refine ⟨(signedSqrt_value hW f).1, (signedSqrt_value hW f').1, ?_⟩
  obtain ⟨n, rfl | rfl⟩ := k.eq_nat_or_neg
  · rw [zpow_natCast]
    refine signedSqrt_scaled_nat hW hm f f' n ?_
    rw [e, zpow_mul, zpow_natCast]; norm_num
  · have := signedSqrt_scaled_nat hW hm f' f n (by
      rw [e, zpow_mul, zpow_neg, zpow_natCast]; norm_num)
    rw [this, zpow_neg, zpow_natCast]
    field_simp

end
end Nova
