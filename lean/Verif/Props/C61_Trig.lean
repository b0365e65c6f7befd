import Verif.Lemmas.TanFinal
import Verif.Lemmas.Witness

/-!
# C61 the accuracy of sin and cos, C62 of tan, C64 the range of sin and cos, C66 the documented error

For every build with the vector versions (SSE2 and AVX, with or without SSE4.1 and FMA) and every float of magnitude
up to 8192, all rounding errors included:

* sin and cos have an absolute error below `2^-22` (`C61_sin`, `C61_cos`);
* the error is not relative: the header promises a relative error below 5e-7 (detail/vec_math.hpp:31), the sine of
  505.7964172363281 (close to 161 π) has one of 5e-5 (`C66_negation`);
* tan has an error below `2^-21 / cos² x` (`C62_tan`);
* the results of sin and cos exceed 1 by at most `2^-22` (`C64_range_partial`), but sin(1e10) and cos(1e10) are infinite
  (`C64_negation`).
-/

namespace Nova
open FP VecMath

/-- The absolute error of sin. -/
theorem C61_sin (b : Build32) (hb : b.simdMath = true) (P : Platform 32) (x : BitVec 32)
    (hx : IsFin binary32 x) (hr : |binary32.toReal x| ≤ 8192) :
    IsFin binary32 ((b.lane P).sin x) ∧
    |binary32.toReal ((b.lane P).sin x) - Real.sin (binary32.toReal x)| ≤ 1 / 2 ^ 22 := by
  have T := b.templates hb P
  rw [T.sin]
  exact ⟨(vecSin_track T.ieee hx hr).fin, (vecSin_track T.ieee hx hr).err⟩

/-- The absolute error of cos. -/
theorem C61_cos (b : Build32) (hb : b.simdMath = true) (P : Platform 32) (x : BitVec 32)
    (hx : IsFin binary32 x) (hr : |binary32.toReal x| ≤ 8192) :
    IsFin binary32 ((b.lane P).cos x) ∧
    |binary32.toReal ((b.lane P).cos x) - Real.cos (binary32.toReal x)| ≤ 1 / 2 ^ 22 := by
  have T := b.templates hb P
  rw [T.cos]
  exact ⟨(vecCos_track T.ieee hx hr).fin, (vecCos_track T.ieee hx hr).err⟩

/-- The sine of 505.7964172363281, close to 161 π. -/
theorem sin_near_161pi : |Real.sin (16573937 / 2 ^ 15) + 83714 / 10 ^ 13| ≤ 1 / 10 ^ 13 := by
  have P1 := Real.pi_gt_d20
  have P2 := Real.pi_lt_d20
  have e : (16573937 / 2 ^ 15 : ℝ) = (16573937 / 2 ^ 15 - 161 * Real.pi) + Real.pi + (80 : ℤ) * (2 * Real.pi) := by
    push_cast; ring
  rw [e, Real.sin_add_int_mul_two_pi, Real.sin_add_pi]
  generalize ht : (16573937 / 2 ^ 15 - 161 * Real.pi : ℝ) = t
  have t1 : 837140 / 10 ^ 14 < t := by rw [← ht]; norm_num at *; linarith
  have t2 : t < 837143 / 10 ^ 14 := by rw [← ht]; norm_num at *; linarith
  have s1 : Real.sin t ≤ t := Real.sin_le (by norm_num at *; linarith)
  have s2 : t - t ^ 3 / 6 < Real.sin t := Real.sin_gt_sub_cube (by norm_num at *; linarith)
  have s3 : t ^ 3 ≤ 1 / 10 ^ 20 := by
    have : t ^ 3 ≤ (1 / 10 ^ 7) ^ 3 := pow_le_pow_left₀ (by norm_num at *; linarith) (by norm_num at *; linarith) 3
    norm_num at *
    linarith
  rw [abs_le]
  norm_num at *
  constructor <;> linarith

/-- The header promises a relative error below 5e-7 (detail/vec_math.hpp:31); at 505.7964172363281 the error of sin is
fifty times as large. -/
theorem C66_negation (P : Platform 32) :
    IsFin binary32 0x43fce5f1#32 ∧ binary32.toReal 0x43fce5f1#32 = 16573937 / 2 ^ 15 ∧
    25 / 10 ^ 6 * |Real.sin (16573937 / 2 ^ 15)| <
      |binary32.toReal (((Build32.avx true).lane P).sin 0x43fce5f1#32) - Real.sin (16573937 / 2 ^ 15)| ∧
    25 / 10 ^ 6 * |Real.sin (16573937 / 2 ^ 15)| <
      |binary32.toReal (((Build32.sse false ⟨true, false, false⟩).lane P).sin 0x43fce5f1#32) -
        Real.sin (16573937 / 2 ^ 15)| := by
  have v : binary32.toReal 0x43fce5f1#32 = 16573937 / 2 ^ 15 := by
    rw [isVal_value (q := 16573937 / 2 ^ 15) (by decide +kernel)]; norm_num
  have w : binary32.toReal 0xb20fd000#32 = -2301 / 2 ^ 38 := by
    rw [isVal_value (q := -2301 / 2 ^ 38) (by decide +kernel)]; norm_num
  have key : 25 / 10 ^ 6 * |Real.sin (16573937 / 2 ^ 15)| <
      |binary32.toReal 0xb20fd000#32 - Real.sin (16573937 / 2 ^ 15)| := by
    rw [w]
    have := abs_le.mp sin_near_161pi
    generalize Real.sin (16573937 / 2 ^ 15) = s at *
    rw [abs_of_neg (by norm_num at *; linarith), lt_abs]
    norm_num at *
    first
    | (left; linarith)
    | (right; linarith)
  refine ⟨by decide, v, ?_, ?_⟩
  · rw [((Build32.avx true).templates rfl P).sin]
    have : vecSin ((Build32.avx true).ops P) 0x43fce5f1#32 = 0xb20fd000#32 := by
      refine (avx_sin0 true P _).trans ?_
      decide +kernel
    rw [this]; exact key
  · rw [((Build32.sse false ⟨true, false, false⟩).templates rfl P).sin]
    have : vecSin ((Build32.sse false ⟨true, false, false⟩).ops P) 0x43fce5f1#32 = 0xb20fd000#32 := by
      refine (sse_sin0 _ P _).trans ?_
      decide +kernel
    rw [this]; exact key

/-- The error of tan, away from its poles. -/
theorem C62_tan (b : Build32) (hb : b.simdMath = true) (P : Platform 32) (x : BitVec 32)
    (hx : IsFin binary32 x) (hr : |binary32.toReal x| ≤ 8192)
    (hc : 1 / 2 ^ 16 ≤ |Real.cos (binary32.toReal x)|) :
    IsFin binary32 ((b.lane P).tan x) ∧
    |binary32.toReal ((b.lane P).tan x) - Real.tan (binary32.toReal x)| ≤
      1 / 2 ^ 21 / Real.cos (binary32.toReal x) ^ 2 := by
  have T := b.templates hb P
  rw [T.tan]
  exact vecTan_error T.ieee hx hr hc

/-- Up to 8192 the results of sin and cos are at most `1 + 2^-22` in magnitude; larger arguments are missing. -/
theorem C64_range_partial (b : Build32) (hb : b.simdMath = true) (P : Platform 32) (x : BitVec 32)
    (hx : IsFin binary32 x) (hr : |binary32.toReal x| ≤ 8192) :
    |binary32.toReal ((b.lane P).sin x)| ≤ 1 + 1 / 2 ^ 22 ∧ |binary32.toReal ((b.lane P).cos x)| ≤ 1 + 1 / 2 ^ 22 := by
  have T := b.templates hb P
  rw [T.sin, T.cos]
  exact ⟨(vecSin_track T.ieee hx hr).abs_le, (vecCos_track T.ieee hx hr).abs_le⟩

/-- sin and cos of 1e10 are infinite. -/
theorem C64_negation (P : Platform 32) :
    IsFin binary32 0x501502f9#32 ∧ binary32.toReal 0x501502f9#32 = 10 ^ 10 ∧
    ((Build32.avx true).lane P).sin 0x501502f9#32 = 0xff800000#32 ∧
    ((Build32.avx true).lane P).cos 0x501502f9#32 = 0x7f800000#32 ∧
    ((Build32.sse false ⟨true, false, false⟩).lane P).sin 0x501502f9#32 = 0xff800000#32 ∧
    ((Build32.sse false ⟨true, false, false⟩).lane P).cos 0x501502f9#32 = 0x7f800000#32 := by
  refine ⟨by decide, ?_, ?_, ?_, ?_, ?_⟩
  · rw [isVal_value (q := 10 ^ 10) (by decide +kernel)]; norm_num
  · rw [((Build32.avx true).templates rfl P).sin]
    exact (avx_sin0 true P _).trans (by decide +kernel)
  · rw [((Build32.avx true).templates rfl P).cos]
    exact (avx_cos0 true P _).trans (by decide +kernel)
  · rw [((Build32.sse false ⟨true, false, false⟩).templates rfl P).sin]
    exact (sse_sin0 _ P _).trans (by decide +kernel)
  · rw [((Build32.sse false ⟨true, false, false⟩).templates rfl P).cos]
    exact (sse_cos0 _ P _).trans (by decide +kernel)

/-- The hypotheses hold for 0.5; the cosine of 0.5 is not small. -/
example : IsFin binary32 0x3f000000#32 ∧ |binary32.toReal 0x3f000000#32| ≤ 8192 ∧
    1 / 2 ^ 16 ≤ |Real.cos (binary32.toReal 0x3f000000#32)| := by
  have v1 : binary32.toReal 0x3f000000#32 = (1/2 : ℚ) := isVal_value (by decide +kernel)
  rw [v1]
  refine ⟨by decide, by push_cast; rw [abs_of_pos] <;> norm_num, ?_⟩
  have := Real.one_sub_sq_div_two_le_cos (x := ((1/2 : ℚ) : ℝ))
  refine le_trans ?_ (le_abs_self _)
  refine le_trans ?_ this
  norm_num

end Nova
