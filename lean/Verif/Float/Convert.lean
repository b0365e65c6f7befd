import Verif.Float.Error

/-!
# Conversion between `float` and `double`
-/

namespace Nova.FP


theorem scale32 : binary32.scale = 149 := by decide
theorem scale64 : binary64.scale = 1074 := by decide
theorem infCode32 : binary32.infCode = 0x7f800000 := by decide
theorem infCode64 : binary64.infCode = 0x7ff0000000000000 := by decide

/-- A finite `float` is a finite `double` of the same value. -/
theorem widen_finite {x : BitVec 32} (hx : binary32.isFinite x = true) :
    ∃ c, c < binary64.infCode ∧ mag 52 c = mag 23 (binary32.code x) * 2 ^ 925 ∧
      widen x = binary64.pack (binary32.neg x) c := by
  have hfin := binary32.finite_code hx
  obtain ⟨s, m, hc, h1, h2⟩ := code_decomp 23 (binary32.code x)
  obtain ⟨c, e⟩ := mag_exists (mb := 52) (m := m) (s + 925) (h1.le.trans (by norm_num))
  have em : mag 52 c = mag 23 (binary32.code x) * 2 ^ 925 := by
    rw [e, hc, mag_decomp 23 h1.le h2, pow_add]; ring
  have hlt : c < binary64.infCode := by
    rw [← mag_lt_iff (mb := 52), em]
    have h3 : mag 23 (binary32.code x) < mag 23 binary32.infCode := mag_lt_iff.mpr hfin
    have h4 : mag 23 binary32.infCode * 2 ^ 925 ≤ mag 52 binary64.infCode := by decide +kernel
    exact lt_of_lt_of_le (Nat.mul_lt_mul_of_pos_right h3 (Nat.two_pow_pos _)) h4
  refine ⟨c, hlt, em, ?_⟩
  unfold widen
  rw [binary32.isFinite_not_nan hx, binary32.isFinite_not_inf hx]
  simp only [Bool.false_eq_true, if_false]
  rw [show binary64.scale - binary32.scale = 925 by decide]
  exact binary64.packRnd_mag _ (by decide) hlt.le (by rw [show binary64.mb = 52 from rfl, em, Nat.mul_one])

theorem widen_value {x : BitVec 32} (hx : binary32.isFinite x = true) :
    binary64.isFinite (widen x) = true ∧ binary64.toReal (widen x) = binary32.toReal x := by
  obtain ⟨c, h1, h2, h3⟩ := widen_finite hx
  rw [h3]
  refine ⟨binary64.isFinite_pack _ h1, ?_⟩
  rw [binary64.toReal_pack _ h1, binary32.toReal_eq, show binary64.mb = 52 from rfl, h2, scale32, scale64,
    show binary32.mb = 23 from rfl]
  push_cast
  congr 1
  rw [show (2 : ℝ) ^ 1074 = 2 ^ 925 * 2 ^ 149 by rw [← pow_add]]
  field_simp

/-- … and converts back to itself. -/
theorem narrow_widen {x : BitVec 32} (hx : binary32.isFinite x = true) : narrow (widen x) = x := by
  have hfin := binary32.finite_code hx
  obtain ⟨c, h1, h2, h3⟩ := widen_finite hx
  have hf : binary64.isFinite (widen x) = true := by rw [h3]; exact binary64.isFinite_pack _ h1
  unfold narrow
  rw [binary64.isFinite_not_nan hf, binary64.isFinite_not_inf hf]
  simp only [Bool.false_eq_true, if_false]
  have hcl := binary64.infCode_lt
  rw [show binary64.scale - binary32.scale = 925 by decide, h3, binary64.neg_pack _ (by omega),
    binary64.code_pack _ (by omega)]
  rw [binary32.packRnd_mag _ (Nat.two_pow_pos _) hfin.le h2]
  exact binary32.pack_self x

/-- `(float)x` is `x` up to rounding. -/
theorem narrow_near {x : BitVec 64} (hx : binary64.isFinite x = true)
    (h : |binary64.toReal x| ≤ 2 ^ 127) : binary32.Near (binary64.toReal x) (narrow x) := by
  have e : binary64.toReal x = (if binary64.neg x then -1 else 1) *
      ((mag 52 (binary64.code x) : ℝ) / ((2 ^ 925 : ℕ) : ℝ) / 2 ^ binary32.scale) := by
    rw [binary64.toReal_eq, scale32, scale64, show binary64.mb = 52 from rfl]
    congr 1
    rw [show (2 : ℝ) ^ 1074 = 2 ^ 925 * 2 ^ 149 by rw [← pow_add]]
    push_cast
    field_simp
  unfold narrow
  rw [binary64.isFinite_not_nan hx, binary64.isFinite_not_inf hx]
  simp only [Bool.false_eq_true, if_false]
  rw [show binary64.scale - binary32.scale = 925 by decide]
  rw [e] at h ⊢
  apply binary32.packRnd_near _ (Nat.two_pow_pos _)
  rw [abs_mul] at h
  have hs : ∀ s : Bool, |(if s then -1 else 1 : ℝ)| = 1 := fun s => by cases s <;> simp
  rw [hs, one_mul, abs_of_nonneg (by positivity)] at h
  rw [show binary32.bias = 127 by decide]
  exact h

end Nova.FP
