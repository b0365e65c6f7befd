import Verif.Lemmas.TanhFinal
import Verif.Lemmas.Witness

/-!
# C73 the accuracy of tanh

For every build with the vector version (SSE2 and AVX, with or without SSE4.1 and FMA) and for every finite float, all
rounding errors included: the relative error of tanh is at most 5e-7, and the result is in [-1, 1].  The infinities give
± 1.
-/

namespace Nova
open FP VecMath

/-- The relative error of tanh, for every finite float, subnormal ones included. -/
theorem C73_tanh (b : Build32) (hb : b.simdMath = true) (P : Platform 32) (x : BitVec 32) (hx : IsFin binary32 x) :
    IsFin binary32 ((b.lane P).tanh x) ∧
    |binary32.toReal ((b.lane P).tanh x) - Real.tanh (binary32.toReal x)| ≤
      5e-7 * |Real.tanh (binary32.toReal x)| := by
  have T := b.templates hb P
  rw [T.tanh]
  have := vecTanh_error T.ieee T.x86 hx
  refine ⟨this.1, this.2.trans (by norm_num)⟩

example : (Build32.avx true).simdMath = true ∧ (Build32.sse false ⟨true, false, false⟩).simdMath = true ∧
    IsFin binary32 0x3f800000#32 ∧ IsFin binary32 0x00000001#32 ∧ IsFin binary32 0xff7fffff#32 := by decide

/-- The result is in [-1, 1] and has the sign of the argument. -/
theorem C73_tanh_range (b : Build32) (hb : b.simdMath = true) (P : Platform 32) (x : BitVec 32)
    (hx : IsFin binary32 x) :
    |binary32.toReal ((b.lane P).tanh x)| ≤ 1 ∧
    (0 < binary32.toReal x → 0 < binary32.toReal ((b.lane P).tanh x)) ∧
    (binary32.toReal x = 0 → binary32.toReal ((b.lane P).tanh x) = 0) ∧
    (binary32.toReal x < 0 → binary32.toReal ((b.lane P).tanh x) < 0) := by
  have e := (C73_tanh b hb P x hx).2
  have l : |binary32.toReal ((b.lane P).tanh x)| ≤ 1 := by
    have T := b.templates hb P
    rw [T.tanh]
    exact vecTanh_le T.ieee T.x86 hx
  generalize binary32.toReal ((b.lane P).tanh x) = R at *
  generalize binary32.toReal x = X at *
  refine ⟨l, ?_, ?_, ?_⟩
  · intro h
    have hp : 0 < Real.tanh X := by
      rw [Real.tanh_eq_sinh_div_cosh]; exact div_pos (Real.sinh_pos_iff.mpr h) (Real.cosh_pos X)
    rw [abs_of_pos hp] at e
    have := (abs_le.mp e).1
    norm_num at this
    linarith
  · intro h
    rw [h, Real.tanh_zero, abs_zero, mul_zero, sub_zero] at e
    exact abs_eq_zero.mp (le_antisymm e (abs_nonneg _))
  · intro h
    have hp : Real.tanh X < 0 := by
      rw [Real.tanh_eq_sinh_div_cosh]; exact div_neg_of_neg_of_pos (Real.sinh_neg_iff.mpr h) (Real.cosh_pos X)
    rw [abs_of_neg hp] at e
    have := (abs_le.mp e).2
    norm_num at this
    linarith

/-- The infinities give ± 1. -/
theorem C73_tanh_inf (b : Build32) (hb : b.simdMath = true) (P : Platform 32) :
    (b.lane P).tanh 0x7f800000#32 = 0x3f800000#32 ∧ (b.lane P).tanh 0xff800000#32 = 0xbf800000#32 := by
  have T := b.templates hb P
  rw [T.tanh]
  exact ⟨vecTanh_inf T.ieee false, vecTanh_inf T.ieee true⟩

end Nova
