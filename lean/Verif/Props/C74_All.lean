import Verif.Props.C74_Pow
import Verif.Props.C46_Exp
import Verif.Props.C78_Same
import Verif.Lemmas.Order

/-!
# C74: pow and signed_pow beyond the range of floats, for every finite exponent

The product `y * log x` may overflow; the exponential of the infinity saturates as well.
-/

namespace Nova
open FP VecMath Spec

/-- A product that is at least 200 (or at most -200) stays so when it is rounded, or becomes infinite. -/
theorem big_product {y l : BitVec 32} (hy : IsFin binary32 y) (hl : IsFin binary32 l) :
    Num binary32 (binary32.mul y l) ∧
    (200 ≤ binary32.toReal y * binary32.toReal l → ((200 : ℝ) : EReal) ≤ binary32.toEReal (binary32.mul y l)) ∧
    (binary32.toReal y * binary32.toReal l ≤ -200 → binary32.toEReal (binary32.mul y l) ≤ ((-200 : ℝ) : EReal)) := by
  have hn : binary32.isNaN (binary32.mul y l) = false := isNaN_mul_fin binary32 hy hl
  have hr := Fmt.mul_rndE hn
  rw [binary32.toEReal_of_finite hy, binary32.toEReal_of_finite hl, ← EReal.coe_mul] at hr
  refine ⟨hn, fun h => ?_, fun h => ?_⟩
  · have f : binary32.isFinite 0x43480000#32 = true := by decide
    have v : binary32.toReal 0x43480000#32 = 200 := by
      rw [isVal_value (q := 200) (by decide +kernel)]; norm_num
    have s := Fmt.IsRndE.self (F := binary32) (x := 0x43480000#32) (by decide)
    rw [binary32.toEReal_of_finite f, v] at s
    have hk := s.mono hr (EReal.coe_le_coe_iff.mpr h)
    rw [binary32.toEReal_of_finite f, v] at hk
    exact hk
  · have f : binary32.isFinite 0xc3480000#32 = true := by decide
    have v : binary32.toReal 0xc3480000#32 = -200 := by
      rw [isVal_value (q := -200) (by decide +kernel)]; norm_num
    have s := Fmt.IsRndE.self (F := binary32) (x := 0xc3480000#32) (by decide)
    rw [binary32.toEReal_of_finite f, v] at s
    have hk := hr.mono s (EReal.coe_le_coe_iff.mpr h)
    rw [binary32.toEReal_of_finite f, v] at hk
    exact hk

/-- Beyond the range of floats pow saturates, FLT_MAX above and zero below: every finite exponent. -/
theorem C74_pow_saturates_all (b : Build32) (hb : b.simdMath = true) (P : Platform 32) (x y : BitVec 32)
    (hx : IsNormal x) (hp : 0 < binary32.toReal x) (hy : IsFin binary32 y) :
    (88.7229 ≤ binary32.toReal y * Real.log (binary32.toReal x) → (b.lane P).pow x y = 0x7f7fffff#32) ∧
    (binary32.toReal y * Real.log (binary32.toReal x) ≤ -88.0001 → (b.lane P).pow x y = 0#32) := by
  by_cases hr : |binary32.toReal y * Real.log (binary32.toReal x)| ≤ 2 ^ 100
  · exact C74_pow_saturates b hb P x y hx hp hy hr
  have T := b.templates hb P
  have h := T.ieee
  obtain ⟨f1, e1⟩ := vecLog_error h T.x86 hx (neg_of_toReal hp)
  rw [T.pow, vecPow_pos h hp, h.mul, ← T.exp]
  obtain ⟨hn, hup, hdn⟩ := big_product hy f1
  obtain ⟨s1, s2⟩ := C46_saturates b hb P _ hn
  generalize vecLog (b.ops P) x = l at *
  generalize Real.log (binary32.toReal x) = L at *
  have e2 : |binary32.toReal y * binary32.toReal l - binary32.toReal y * L| ≤ 1 / 2 ^ 22 * |binary32.toReal y * L| := by
    rw [← mul_sub, abs_mul, abs_mul]
    calc _ ≤ |binary32.toReal y| * (1 / 2 ^ 22 * |L|) := mul_le_mul_of_nonneg_left e1 (abs_nonneg _)
      _ = _ := by ring
  have hd := abs_le.mp e2
  generalize binary32.toReal y * binary32.toReal l = v at *
  generalize binary32.toReal y * L = w at *
  have hr' := not_le.mp hr
  constructor
  · intro hL
    rw [abs_of_nonneg (le_trans (by norm_num) hL)] at hd hr'
    refine s1 (lt_of_lt_of_le ?_ (hup ?_))
    · rw [EReal.coe_lt_coe_iff]; norm_num
    · norm_num at hd hr' ⊢; linarith
  · intro hL
    rw [abs_of_nonpos (le_trans hL (by norm_num))] at hd hr'
    refine s2 (lt_of_le_of_lt (hdn ?_) ?_)
    · norm_num at hd hr' ⊢; linarith
    · rw [EReal.coe_lt_coe_iff]; norm_num

/-- signed_pow saturates at the same exponents, to FLT_MAX or zero with the sign of the base. -/
theorem C74_signed_pow_saturates (b : Build32) (hb : b.simdMath = true) (P : Platform 32) (x y : BitVec 32)
    (hx : IsNormal x) (hy : IsFin binary32 y) :
    (88.7229 ≤ binary32.toReal y * Real.log |binary32.toReal x| →
      (b.lane P).signedPow x y = if 0 < binary32.toReal x then 0x7f7fffff#32 else 0xff7fffff#32) ∧
    (binary32.toReal y * Real.log |binary32.toReal x| ≤ -88.0001 →
      (b.lane P).signedPow x y = if 0 < binary32.toReal x then 0#32 else 0x80000000#32) := by
  have T := b.templates hb P
  have h := T.ieee
  have hfa : IsNormal (binary32.fabs x) := by
    refine ⟨?_, ?_⟩
    · rw [binary32.code_fabs]; exact hx.1
    · unfold IsFin; rw [binary32.isFinite_fabs]; exact hx.2
  have va : binary32.toReal (binary32.fabs x) = |binary32.toReal x| := binary32.toReal_fabs x
  have h0 : binary32.toReal x ≠ 0 := by
    intro hc
    have := normal_bounds hx
    rw [hc, abs_zero] at this
    exact absurd this.1 (not_le.mpr (zpow_pos (by norm_num) _))
  obtain ⟨s1, s2⟩ := C74_pow_saturates_all b hb P (binary32.fabs x) y hfa (by rw [va]; exact abs_pos.mpr h0) hy
  rw [va, T.pow] at s1 s2
  rw [T.signedPow, vecSignedPow_eq h]
  have hsign : (0 < binary32.toReal x) ↔ binary32.neg x = false := by
    constructor
    · exact neg_of_toReal
    · intro hn; exact lt_of_le_of_ne (toReal_nonneg hn) (Ne.symm h0)
  constructor
  · intro hL
    rw [s1 hL]
    cases hn : binary32.neg x
    · rw [if_pos (hsign.mpr hn)]; decide
    · rw [if_neg (fun hc => by rw [hsign.mp hc] at hn; cases hn)]; decide
  · intro hL
    rw [s2 hL]
    cases hn : binary32.neg x
    · rw [if_pos (hsign.mpr hn)]; decide
    · rw [if_neg (fun hc => by rw [hsign.mp hc] at hn; cases hn)]; decide

/-- The hypotheses hold of `signed_pow(-2, 200)`: the result is `-FLT_MAX`. -/
example (b : Build32) (hb : b.simdMath = true) (P : Platform 32) :
    (b.lane P).signedPow 0xc0000000#32 0x43480000#32 = 0xff7fffff#32 := by
  have v2 : binary32.toReal 0xc0000000#32 = -2 := by
    rw [isVal_value (q := -2) (by decide +kernel)]; norm_num
  have v3 : binary32.toReal 0x43480000#32 = 200 := by
    rw [isVal_value (q := 200) (by decide +kernel)]; norm_num
  have := (C74_signed_pow_saturates b hb P 0xc0000000#32 0x43480000#32 ⟨by decide, by decide⟩ (by decide)).1 (by
    rw [v2, v3, abs_neg, abs_of_pos (by norm_num : (0 : ℝ) < 2)]
    have := Real.log_two_gt_d9
    norm_num at this ⊢; linarith)
  rw [this, if_neg (by rw [v2]; norm_num)]

end Nova
