import Verif.Lemmas.ExpFinal

/-!
# C46 exp saturates, C60 the accuracy of exp

For every build with the vector version of `exp` (SSE2 and AVX, with or without SSE4.1 and FMA), and for every
bit pattern that is not a NaN:

* above `maxlogf` the result is FLT_MAX, below -88 it is 0 (`C46_saturates`);
* between -87.33 and `maxlogf` it is the exponential with a relative error below `2^-21` (`C60_exp`);
* between -88 and -87.33 it is a nonnegative number below `2^-125`, like the exponential itself (`C60_exp_tiny`);
* at `maxlogf` itself it is a NaN (`C46_negation`).
-/

namespace Nova
open FP VecMath

theorem maxlogf_eq : maxlogf = 0x42b17218#32 := by decide +kernel
theorem minlogf_eq : minlogf = 0xc2b00000#32 := by decide +kernel

theorem maxlogf_val : binary32.toReal 0x42b17218#32 = 11629080 / 2 ^ 17 := by
  rw [isVal_value (q := 11629080 / 2 ^ 17) (by decide +kernel)]; norm_num
theorem minlogf_val : binary32.toReal 0xc2b00000#32 = -88 := by
  rw [isVal_value (q := -88) (by decide +kernel)]; norm_num

attribute [local irreducible] litD litF in
theorem vecExp_cases {V : LaneOps 32} (h : V.Ieee) {x : BitVec 32} (hx : Num binary32 x) :
    vecExp V x = if binary32.ltb x 0xc2b00000#32 then 0#32
      else if binary32.ltb 0x42b17218#32 x then 0x7f7fffff#32 else expApprox V x := by
  unfold vecExp
  dsimp only
  rw [maxlogf_eq, minlogf_eq, h.gt x _ hx (by decide), h.lt, h.sel, h.sel, h.zero]
  rfl

/-- exp of a number above `maxlogf` = 88.72283935546875 is FLT_MAX, of a number below -88 it is zero. -/
theorem C46_saturates (b : Build32) (hb : b.simdMath = true) (P : Platform 32) (x : BitVec 32)
    (hx : Num binary32 x) :
    ((11629080 / 2 ^ 17 : ℝ) < binary32.toEReal x → (b.lane P).exp x = 0x7f7fffff#32) ∧
    (binary32.toEReal x < (-88 : ℝ) → (b.lane P).exp x = 0#32) := by
  have T := b.templates hb P
  rw [T.exp, vecExp_cases T.ieee hx]
  have v1 : binary32.toEReal 0x42b17218#32 = ((11629080 / 2 ^ 17 : ℝ) : EReal) := by
    rw [binary32.toEReal_of_finite (by decide), maxlogf_val]
  have v2 : binary32.toEReal 0xc2b00000#32 = ((-88 : ℝ) : EReal) := by
    rw [binary32.toEReal_of_finite (by decide), minlogf_val]
  constructor
  · intro h
    have h1 : binary32.ltb 0x42b17218#32 x = true := by
      rw [binary32.ltb_iff_value, v1]; exact ⟨by decide, hx, h⟩
    have h2 : binary32.ltb x 0xc2b00000#32 = false := by
      rw [Bool.eq_false_iff]
      intro h2
      rw [binary32.ltb_iff_value, v2] at h2
      have := h.trans h2.2.2
      rw [EReal.coe_lt_coe_iff] at this
      norm_num at this
    rw [h1, h2]; rfl
  · intro h
    have h1 : binary32.ltb x 0xc2b00000#32 = true := by
      rw [binary32.ltb_iff_value, v2]; exact ⟨hx, by decide, h⟩
    rw [h1]; rfl

/-- Numbers below `maxlogf` are at most its predecessor. -/
theorem below_maxlogf {x : BitVec 32} (hx : IsFin binary32 x) (h : binary32.toReal x < 11629080 / 2 ^ 17) :
    binary32.toReal x ≤ 88.722832 := by
  have hl := toReal_lt_of_ltb hx (y := 0x42b17218#32) (by decide)
  rw [maxlogf_val, decide_eq_true h, binary32.ltb_iff] at hl
  have hk := hl.2.2
  have v : binary32.toReal 0x42b17217#32 = 11629079 / 2 ^ 17 := by
    rw [isVal_value (q := 11629079 / 2 ^ 17) (by decide +kernel)]; norm_num
  have hk2 : binary32.key x ≤ binary32.key 0x42b17217#32 := by
    have e1 : binary32.key 0x42b17217#32 = 0x42b17217 := by decide
    have e2 : binary32.key 0x42b17218#32 = 0x42b17218 := by decide
    rw [e1]; rw [e2] at hk; omega
  have := (binary32.key_le_iff_value (x := x) (y := 0x42b17217#32) (binary32.isFinite_not_nan hx) (by decide)).mp hk2
  rw [binary32.toEReal_of_finite hx, binary32.toEReal_of_finite (by decide), v, EReal.coe_le_coe_iff] at this
  norm_num at *
  linarith

theorem not_saturated {V : LaneOps 32} (h : V.Ieee) {x : BitVec 32} (hx : IsFin binary32 x)
    (hlo : -88 ≤ binary32.toReal x) (hhi : binary32.toReal x ≤ 11629080 / 2 ^ 17) :
    vecExp V x = expApprox V x := by
  rw [vecExp_cases h (binary32.isFinite_not_nan hx), toReal_lt_of_ltb hx (by decide),
    toReal_lt_of_ltb (by decide) hx, maxlogf_val, minlogf_val, decide_eq_false (not_lt.mpr hlo),
    decide_eq_false (not_lt.mpr hhi)]
  rfl

/-- exp has a relative error below `2^-21` for every float from -87.33 to `maxlogf` (exclusive). -/
theorem C60_exp (b : Build32) (hb : b.simdMath = true) (P : Platform 32) (x : BitVec 32)
    (hx : IsFin binary32 x) (hlo : -87.33 ≤ binary32.toReal x)
    (hhi : binary32.toReal x < 11629080 / 2 ^ 17) :
    IsFin binary32 ((b.lane P).exp x) ∧
    |binary32.toReal ((b.lane P).exp x) - Real.exp (binary32.toReal x)| ≤
      1 / 2 ^ 21 * Real.exp (binary32.toReal x) := by
  have T := b.templates hb P
  rw [T.exp, not_saturated T.ieee hx (by norm_num at *; linarith) hhi.le]
  have h1 : Tr (b.ops P).one 1 0 1 := by rw [T.ieee.one]; exact one_track
  obtain ⟨h2, h3⟩ := exp_scaled T.ieee T.x86 h1 hx hlo (below_maxlogf hx hhi)
  refine ⟨h2.2, h3.trans (mul_le_mul_of_nonneg_right (by norm_num) (Real.exp_pos _).le)⟩

/-- Between -88 and -87.33, where the exponential is not a normal number, the result is not a NaN and not negative,
and it differs from the exponential by less than `2^-125`. -/
theorem C60_exp_tiny (b : Build32) (hb : b.simdMath = true) (P : Platform 32) (x : BitVec 32)
    (hx : IsFin binary32 x) (hlo : -88 ≤ binary32.toReal x) (hhi : binary32.toReal x ≤ -87.33) :
    IsFin binary32 ((b.lane P).exp x) ∧ binary32.neg ((b.lane P).exp x) = false ∧
    |binary32.toReal ((b.lane P).exp x) - Real.exp (binary32.toReal x)| < 1 / 2 ^ 125 := by
  have T := b.templates hb P
  rw [T.exp, not_saturated T.ieee hx hlo (by norm_num at *; linarith)]
  have h1 : Tr (b.ops P).one 1 0 1 := by rw [T.ieee.one]; exact one_track
  obtain ⟨h2, h3⟩ := exp_tiny T.ieee h1 hx hlo hhi
  have e : ldexp (b.ops P) (expPoly (b.ops P) (b.ops P).one (expReduce (b.ops P) x (expScale (b.ops P) x)))
      ((b.ops P).truncateToInt (expScale (b.ops P) x)) = expApprox (b.ops P) x := rfl
  rw [e] at h2 h3
  generalize expApprox (b.ops P) x = r at *
  have hf : IsFin binary32 r := by
    have e : binary32.infCode = 255 * 2 ^ 23 := by decide
    unfold IsFin Fmt.isFinite; rw [e]; exact decide_eq_true (by omega)
  refine ⟨hf, h3, ?_⟩
  have v1 : binary32.toReal r < 1 / 2 ^ 125 := by
    have hm : mag 23 (binary32.code r) < mag 23 (2 * 2 ^ 23) := mag_lt_iff.mpr h2
    have e2 : mag 23 (2 * 2 ^ 23) = 2 ^ 24 := by decide
    rw [e2] at hm
    rw [binary32.toReal_eq, h3, show binary32.scale = 149 by decide]
    simp only [Bool.false_eq_true, if_false, one_mul]
    rw [div_lt_iff₀ (by positivity)]
    have : (mag binary32.mb (binary32.code r) : ℝ) < 2 ^ 24 := by exact_mod_cast hm
    norm_num at *
    linarith
  have v0 := toReal_nonneg h3
  have w0 := Real.exp_pos (binary32.toReal x)
  have w1 : Real.exp (binary32.toReal x) < 1 / 2 ^ 125 := by
    have e : (1 / 2 ^ 125 : ℝ) = Real.exp (((-125 : ℤ) : ℝ) * Real.log 2) := by
      rw [← zpow_eq_exp]; norm_num
    rw [e, Real.exp_lt_exp]
    have L2 := Real.log_two_lt_d9
    norm_num at *
    linarith
  rw [abs_lt]
  constructor <;> linarith

/-- For every number but one the result is a number, not a NaN. -/
theorem C46_number_partial (b : Build32) (hb : b.simdMath = true) (P : Platform 32) (x : BitVec 32)
    (hx : Num binary32 x) (h1 : x ≠ 0x42b17218#32) : Num binary32 ((b.lane P).exp x) := by
  by_cases hs1 : ((11629080 / 2 ^ 17 : ℝ) : EReal) < binary32.toEReal x
  · rw [(C46_saturates b hb P x hx).1 hs1]; decide
  by_cases hs2 : binary32.toEReal x < ((-88 : ℝ) : EReal)
  · rw [(C46_saturates b hb P x hx).2 hs2]; decide
  have hfin : IsFin binary32 x := by
    by_contra hf
    have hi : binary32.isInf x = true := by
      have := hx
      unfold Num Fmt.isNaN at this
      unfold IsFin Fmt.isFinite at hf
      rw [decide_eq_false_iff_not] at this
      unfold Fmt.isInf
      rw [Bool.not_eq_true, decide_eq_false_iff_not] at hf
      exact decide_eq_true (by omega)
    unfold Fmt.toEReal at hs1 hs2
    rw [hi] at hs1 hs2
    cases hn : binary32.neg x <;> rw [hn] at hs1 hs2 <;> simp at hs1 hs2
  rw [binary32.toEReal_of_finite hfin, EReal.coe_lt_coe_iff, not_lt] at hs1 hs2
  by_cases hm : binary32.toReal x = 11629080 / 2 ^ 17
  · exfalso
    apply h1
    have hn : binary32.neg x = false := neg_of_toReal (by rw [hm]; norm_num)
    exact eq_of_toReal binary32 (hn.trans (by decide)) (hm.trans maxlogf_val.symm)
  · rcases le_total (binary32.toReal x) (-87.33) with h | h
    · exact binary32.isFinite_not_nan (C60_exp_tiny b hb P x hfin hs2 h).1
    · exact binary32.isFinite_not_nan (C60_exp b hb P x hfin h (lt_of_le_of_ne hs1 hm)).1

/-- At the remaining number, 88.72283935546875, the result is a NaN: C46 is false. -/
theorem C46_negation (P : Platform 32) :
    Num binary32 0x42b17218#32 ∧
    ¬ Num binary32 (((Build32.avx true).lane P).exp 0x42b17218#32) ∧
    ¬ Num binary32 (((Build32.sse false ⟨true, false, false⟩).lane P).exp 0x42b17218#32) := by
  refine ⟨by decide, ?_, ?_⟩
  · rw [((Build32.avx true).templates rfl P).exp]
    change ¬ Num binary32 (vecExp (AvxF.ops true (P.x86 binary32)) _)
    rw [avx_exp0]; decide +kernel
  · rw [((Build32.sse false ⟨true, false, false⟩).templates rfl P).exp]
    change ¬ Num binary32 (vecExp (Sse.ops ⟨true, false, false⟩ (P.x86 binary32)) _)
    rw [sse_exp0]; decide +kernel

/-- The hypotheses of `C60_exp` hold for 1.5, those of `C60_exp_tiny` for -87.5. -/
example : IsFin binary32 0x3fc00000#32 ∧ -87.33 ≤ binary32.toReal 0x3fc00000#32 ∧
    binary32.toReal 0x3fc00000#32 < 11629080 / 2 ^ 17 ∧
    IsFin binary32 0xc2af0000#32 ∧ -88 ≤ binary32.toReal 0xc2af0000#32 ∧
    binary32.toReal 0xc2af0000#32 ≤ -87.33 := by
  have v1 : binary32.toReal 0x3fc00000#32 = (3/2 : ℚ) := isVal_value (by decide +kernel)
  have v2 : binary32.toReal 0xc2af0000#32 = (-175/2 : ℚ) := isVal_value (by decide +kernel)
  rw [v1, v2]
  norm_num
  decide

end Nova
