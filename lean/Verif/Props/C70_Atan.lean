import Verif.Lemmas.AtanFinal
import Verif.Lemmas.Witness

/-!
# C70 the accuracy of atan

For every build with the vector version (SSE2 and AVX, with or without SSE4.1 and FMA) and for every finite float, all
rounding errors included: the relative error of atan is at most 4.5e-7.  The infinities give the floats next to ± π/2.
-/

namespace Nova
open FP VecMath

/-- The relative error of atan, for every finite float, subnormal ones included. -/
theorem C70_atan (b : Build32) (hb : b.simdMath = true) (P : Platform 32) (x : BitVec 32) (hx : IsFin binary32 x) :
    IsFin binary32 ((b.lane P).atan x) ∧
    |binary32.toReal ((b.lane P).atan x) - Real.arctan (binary32.toReal x)| ≤
      4.5e-7 * |Real.arctan (binary32.toReal x)| := by
  have T := b.templates hb P
  rw [T.atan]
  have := vecAtan_error T.ieee hx
  refine ⟨this.1, this.2.trans (by norm_num)⟩

example : (Build32.avx true).simdMath = true ∧ (Build32.sse false ⟨true, false, false⟩).simdMath = true ∧
    IsFin binary32 0x3f800000#32 ∧ IsFin binary32 0x00000001#32 ∧ IsFin binary32 0xff7fffff#32 := by decide

/-- The values at the infinities: ± the float next to π/2. -/
theorem C70_atan_inf (b : Build32) (hb : b.simdMath = true) (P : Platform 32) :
    (b.lane P).atan 0x7f800000#32 = 0x3fc90fdb#32 ∧ (b.lane P).atan 0xff800000#32 = 0xbfc90fdb#32 ∧
    |binary32.toReal 0x3fc90fdb#32 - Real.pi / 2| ≤ 1 / 2 ^ 24 := by
  have T := b.templates hb P
  have h := T.ieee
  have key : atanAbs (b.ops P) (binary32.fabs 0x7f800000#32) = 0x3fc90fdb#32 := by
    rw [atanAbs_eq]
    dsimp only
    rw [h.gt _ _ (by decide +kernel) (by decide +kernel), h.gt _ _ (by decide +kernel) (by decide +kernel),
      h.sel, h.sel, h.sel, h.sel]
    rw [if_pos (by decide +kernel), if_pos (by decide +kernel), if_pos (by decide +kernel), if_pos (by decide +kernel)]
    unfold atanHorner
    rw [h.mul, h.add, h.div, h.neg, h.one]
    decide +kernel
  rw [T.atan]
  refine ⟨?_, ?_, ?_⟩
  · unfold vecAtan
    dsimp only
    rw [abs_and h, h.sign, sign_and, key]
    decide +kernel
  · unfold vecAtan
    dsimp only
    rw [abs_and h, h.sign, sign_and, show binary32.fabs 0xff800000#32 = binary32.fabs 0x7f800000#32 by decide, key]
    decide +kernel
  · rw [isVal_value (q := 13176795 / 2 ^ 23) (by decide +kernel)]
    have pi1 := Real.pi_gt_d20
    have pi2 := Real.pi_lt_d20
    push_cast
    rw [abs_le]
    norm_num at *
    constructor <;> linarith

/-- atan stays within ± the float next to π/2, up to the error bound: results never exceed 1.5707972. -/
theorem C70_atan_range (b : Build32) (hb : b.simdMath = true) (P : Platform 32) (x : BitVec 32)
    (hx : IsFin binary32 x) :
    |binary32.toReal ((b.lane P).atan x)| ≤ 1.5707972 ∧
    (0 < binary32.toReal x → 0 < binary32.toReal ((b.lane P).atan x)) ∧
    (binary32.toReal x = 0 → binary32.toReal ((b.lane P).atan x) = 0) ∧
    (binary32.toReal x < 0 → binary32.toReal ((b.lane P).atan x) < 0) := by
  obtain ⟨-, e⟩ := C70_atan b hb P x hx
  generalize binary32.toReal ((b.lane P).atan x) = R at *
  generalize binary32.toReal x = X at *
  have p := Real.pi_lt_d20
  have a1 := Real.arctan_lt_pi_div_two X
  have a2 := Real.neg_pi_div_two_lt_arctan X
  have hA : |Real.arctan X| ≤ 1.5707964 := by
    rw [abs_le]; norm_num at *; constructor <;> linarith
  refine ⟨?_, ?_, ?_, ?_⟩
  · have := abs_add_le (R - Real.arctan X) (Real.arctan X)
    rw [sub_add_cancel] at this
    norm_num at *
    linarith
  · intro h
    have hp : 0 < Real.arctan X := by rw [← Real.arctan_zero]; exact Real.arctan_strictMono h
    rw [abs_of_pos hp] at e
    have := (abs_le.mp e).1
    norm_num at this
    linarith
  · intro h
    rw [h, Real.arctan_zero, abs_zero, mul_zero, sub_zero] at e
    exact abs_eq_zero.mp (le_antisymm e (abs_nonneg _))
  · intro h
    have hp : Real.arctan X < 0 := by rw [← Real.arctan_zero]; exact Real.arctan_strictMono h
    rw [abs_of_neg hp] at e
    have := (abs_le.mp e).2
    norm_num at this
    linarith

end Nova
