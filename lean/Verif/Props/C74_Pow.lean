import Verif.Lemmas.PowFinal

/-!
# C74 the accuracy of pow and signed_pow

For every build with the vector versions (SSE2 and AVX, with or without SSE4.1 and FMA), every normal positive base and
every finite exponent, all rounding errors included: pow has a relative error below `4e-7 + 3.1e-7 * |y * log x|` where the
power is in the range of the normal floats; above it is FLT_MAX, below it is zero.  signed_pow does the same with the
magnitude of the base and gives the result the sign of the base.

The error grows with the logarithm of the power: the documented bound of 5e-7 is false of pow (`C66_negation_pow`).
-/

namespace Nova
open FP VecMath

/-- The relative error of pow. -/
theorem C74_pow (b : Build32) (hb : b.simdMath = true) (P : Platform 32) (x y : BitVec 32)
    (hx : IsNormal x) (hp : 0 < binary32.toReal x) (hy : IsFin binary32 y)
    (hlo : -87.3 ≤ binary32.toReal y * Real.log (binary32.toReal x))
    (hhi : binary32.toReal y * Real.log (binary32.toReal x) ≤ 88.7228) :
    IsFin binary32 ((b.lane P).pow x y) ∧
    |binary32.toReal ((b.lane P).pow x y) - binary32.toReal x ^ binary32.toReal y| ≤
      (4e-7 + 3.1e-7 * |binary32.toReal y * Real.log (binary32.toReal x)|) * binary32.toReal x ^ binary32.toReal y := by
  have T := b.templates hb P
  rw [T.pow]
  obtain ⟨h1, h2⟩ := vecPow_error T.ieee T.x86 hx hp hy hlo hhi
  exact ⟨h1.2, h2⟩

/-- The hypotheses hold of `pow(2, 10)`. -/
example : IsNormal 0x40000000#32 ∧ 0 < binary32.toReal 0x40000000#32 ∧ IsFin binary32 0x41200000#32 ∧
    -87.3 ≤ binary32.toReal 0x41200000#32 * Real.log (binary32.toReal 0x40000000#32) ∧
    binary32.toReal 0x41200000#32 * Real.log (binary32.toReal 0x40000000#32) ≤ 88.7228 := by
  have v2 : binary32.toReal 0x40000000#32 = 2 := by
    have := isVal_value (x := 0x40000000#32) (q := 2) (by decide +kernel)
    rw [this]; norm_num
  have vy : binary32.toReal 0x41200000#32 = 10 := by
    have := isVal_value (x := 0x41200000#32) (q := 10) (by decide +kernel)
    rw [this]; norm_num
  have L1 := Real.log_two_gt_d9
  have L2 := Real.log_two_lt_d9
  rw [v2, vy]
  refine ⟨⟨by decide, by decide⟩, by norm_num, by decide, ?_, ?_⟩ <;> norm_num at * <;> linarith

/-- Beyond the range of floats pow saturates: FLT_MAX above, zero below. -/
theorem C74_pow_saturates (b : Build32) (hb : b.simdMath = true) (P : Platform 32) (x y : BitVec 32)
    (hx : IsNormal x) (hp : 0 < binary32.toReal x) (hy : IsFin binary32 y)
    (hr : |binary32.toReal y * Real.log (binary32.toReal x)| ≤ 2 ^ 100) :
    (88.7229 ≤ binary32.toReal y * Real.log (binary32.toReal x) → (b.lane P).pow x y = 0x7f7fffff#32) ∧
    (binary32.toReal y * Real.log (binary32.toReal x) ≤ -88.0001 → (b.lane P).pow x y = 0#32) := by
  have T := b.templates hb P
  have h := T.ieee
  rw [T.pow, vecPow_pos h hp]
  obtain ⟨f1, e1⟩ := pow_product h T.x86 hx hp hy hr
  generalize (b.ops P).mul y (vecLog (b.ops P) x) = m at *
  generalize binary32.toReal y * Real.log (binary32.toReal x) = L at *
  have hd := abs_le.mp e1
  rw [vecExp_cases h (binary32.isFinite_not_nan f1), toReal_lt_of_ltb f1 (by decide), toReal_lt_of_ltb (by decide) f1,
    maxlogf_val, minlogf_val]
  constructor
  · intro hL
    rw [abs_of_nonneg (le_trans (by norm_num) hL)] at hd
    rw [decide_eq_false, decide_eq_true]
    · rfl
    · norm_num at hd hL ⊢; linarith
    · norm_num at hd hL ⊢; linarith
  · intro hL
    rw [abs_of_nonpos (le_trans hL (by norm_num))] at hd
    rw [decide_eq_true]
    · rfl
    · norm_num at hd hL ⊢; linarith

/-- The sign of the base is put on a power of its magnitude. -/
theorem signed_pow_of {x y R : BitVec 32} (hx : IsNormal x)
    (hlo : -87.3 ≤ binary32.toReal y * Real.log |binary32.toReal x|)
    (hhi : binary32.toReal y * Real.log |binary32.toReal x| ≤ 88.7228)
    (H : IsNormal (binary32.fabs x) → 0 < binary32.toReal (binary32.fabs x) →
      -87.3 ≤ binary32.toReal y * Real.log (binary32.toReal (binary32.fabs x)) →
      binary32.toReal y * Real.log (binary32.toReal (binary32.fabs x)) ≤ 88.7228 →
      IsNormal R ∧ |binary32.toReal R - binary32.toReal (binary32.fabs x) ^ binary32.toReal y| ≤
        (4e-7 + 3.1e-7 * |binary32.toReal y * Real.log (binary32.toReal (binary32.fabs x))|) *
          binary32.toReal (binary32.fabs x) ^ binary32.toReal y) :
    IsFin binary32 (signBit (binary32.neg x) ||| R) ∧
    |binary32.toReal (signBit (binary32.neg x) ||| R) -
        SignType.sign (binary32.toReal x) * |binary32.toReal x| ^ binary32.toReal y| ≤
      (4e-7 + 3.1e-7 * abs (binary32.toReal y * Real.log |binary32.toReal x|)) * |binary32.toReal x| ^ binary32.toReal y := by
  have hfa : IsNormal (binary32.fabs x) := by
    refine ⟨?_, ?_⟩
    · rw [binary32.code_fabs]; exact hx.1
    · unfold IsFin; rw [binary32.isFinite_fabs]; exact hx.2
  have va : binary32.toReal (binary32.fabs x) = |binary32.toReal x| := binary32.toReal_fabs x
  have h0 : binary32.toReal x ≠ 0 := by
    intro hc
    have := normal_bounds hx
    rw [hc, abs_zero] at this
    exact absurd this.1 (not_le.mpr (zpow_pos (by norm_num) _))
  obtain ⟨h1, h2⟩ := H hfa (by rw [va]; exact abs_pos.mpr h0) (by rw [va]; exact hlo) (by rw [va]; exact hhi)
  rw [va] at h2
  have hpw : 0 < |binary32.toReal x| ^ binary32.toReal y := Real.rpow_pos_of_pos (abs_pos.mpr h0) _
  have hL : abs (binary32.toReal y * Real.log |binary32.toReal x|) ≤ 89 := by
    rw [abs_le]; norm_num at *; constructor <;> linarith
  have hpos : 0 < binary32.toReal R := by
    have h3 := (abs_le.mp h2).1
    have h4 : (4e-7 + 3.1e-7 * abs (binary32.toReal y * Real.log |binary32.toReal x|)) * |binary32.toReal x| ^ binary32.toReal y ≤
        0.5 * |binary32.toReal x| ^ binary32.toReal y := by
      refine mul_le_mul_of_nonneg_right ?_ hpw.le
      norm_num at hL ⊢; linarith
    norm_num at h3 h4 ⊢
    linarith
  rw [BitVec.or_comm, or_signBit (neg_of_toReal hpos)]
  have t : Tr _ (|binary32.toReal x| ^ binary32.toReal y) _ _ := ⟨h1.2, h2, le_rfl⟩
  have s := t.signed (binary32.neg x)
  have es : (if binary32.neg x = true then -(|binary32.toReal x| ^ binary32.toReal y) else |binary32.toReal x| ^ binary32.toReal y) =
      SignType.sign (binary32.toReal x) * |binary32.toReal x| ^ binary32.toReal y := by
    cases hn : binary32.neg x
    · have : 0 < binary32.toReal x := lt_of_le_of_ne (toReal_nonneg hn) (Ne.symm h0)
      rw [sign_pos this]; simp
    · have : binary32.toReal x < 0 := lt_of_le_of_ne (binary32.toReal_nonpos hn) h0
      rw [sign_neg this]; simp
  rw [es] at s
  exact ⟨s.fin, s.err⟩

/-- signed_pow: the power of the magnitude, with the sign of the base. -/
theorem C74_signed_pow (b : Build32) (hb : b.simdMath = true) (P : Platform 32) (x y : BitVec 32)
    (hx : IsNormal x) (hy : IsFin binary32 y)
    (hlo : -87.3 ≤ binary32.toReal y * Real.log |binary32.toReal x|)
    (hhi : binary32.toReal y * Real.log |binary32.toReal x| ≤ 88.7228) :
    IsFin binary32 ((b.lane P).signedPow x y) ∧
    |binary32.toReal ((b.lane P).signedPow x y) - SignType.sign (binary32.toReal x) * |binary32.toReal x| ^ binary32.toReal y| ≤
      (4e-7 + 3.1e-7 * abs (binary32.toReal y * Real.log |binary32.toReal x|)) * |binary32.toReal x| ^ binary32.toReal y := by
  have T := b.templates hb P
  have h := T.ieee
  rw [T.signedPow, vecSignedPow_eq h]
  exact signed_pow_of hx hlo hhi fun h1 h2 h3 h4 => vecPow_error h T.x86 h1 h2 hy h3 h4

/-- `pow(2, 120)` is wrong by more than 3e-6, six times the documented bound, in every build with the vector version. -/
theorem C66_negation_pow (b : Build32) (hb : b.simdMath = true) (P : Platform 32) :
    binary32.toReal 0x40000000#32 = 2 ∧ binary32.toReal 0x42f00000#32 = 120 ∧
    5e-7 * 2 ^ 120 < |binary32.toReal ((b.lane P).pow 0x40000000#32 0x42f00000#32) - 2 ^ 120| := by
  have T := b.templates hb P
  rw [T.pow]
  refine ⟨?_, ?_, lt_of_lt_of_le ?_ (vecPow_two T.ieee T.x86)⟩
  · have := isVal_value (x := 0x40000000#32) (q := 2) (by decide +kernel)
    rw [this]; norm_num
  · have := isVal_value (x := 0x42f00000#32) (q := 120) (by decide +kernel)
    rw [this]; norm_num
  · norm_num

end Nova
