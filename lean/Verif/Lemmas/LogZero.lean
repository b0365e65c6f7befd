import Verif.Lemmas.LogTail

/-!
# `vec_log_float` near 1: a relative error
-/

namespace Nova
open FP VecMath

theorem add_zero32 {x y : BitVec 32} (hx : IsFin binary32 x) (hy : IsFin binary32 y)
    (h0 : binary32.toReal y = 0) :
    IsFin binary32 (binary32.add x y) ∧ binary32.toReal (binary32.add x y) = binary32.toReal x := by
  have hu : binary32.units y = 0 := by
    unfold Fmt.toReal at h0
    rw [div_eq_zero_iff] at h0
    rcases h0 with h0 | h0
    · exact_mod_cast h0
    · exact absurd h0 (by positivity)
  by_cases hc : binary32.code x = 0
  · have hux : binary32.units x = 0 := binary32.units_eq_zero.mpr hc
    rw [binary32.add_zero_sum hx hy (by rw [hu, hux]; rfl)]
    refine ⟨binary32.isFinite_pack _ binary32.infCode_pos, ?_⟩
    rw [binary32.toReal_pack _ binary32.infCode_pos, mag_zero]
    unfold Fmt.toReal
    rw [hux]; simp
  · rw [binary32.add_exact hx hy hx (by rw [hu]; omega) hc]
    exact ⟨hx, rfl⟩

/-- Without a multiple of log 2 the error is relative to the distance from 1. -/
theorem log_tail0 {V : LaneOps 32} (h : V.Ieee) {x fe : BitVec 32} {v : ℝ} (ht : Tr x v 0 0.41422)
    (h1 : -0.29290 ≤ v) (h2 : v ≤ 0.41422) (hf : Tr fe 0 0 1) (hs0 : 1 / 2 ^ 24 ≤ |v|) :
    IsFin binary32 (logTail V x fe) ∧
    |binary32.toReal (logTail V x fe) - Real.log (1 + v)| ≤ 2581/2^34 * |v| := by
  have hp := logHorner_track h ht
  have hP := logP_error h1 h2
  have hl := (log_size h1 h2).2
  have hs1 : |v| ≤ 0.41422 := ht.bnd
  have hts : Tr x v 0 |v| := ht.bound le_rfl
  generalize hs : |v| = s at *
  have hfv : binary32.toReal fe = 0 := by
    have := hf.err; rw [abs_nonpos_iff, sub_eq_zero] at this; exact this
  have hh := Tr.const (x := litD 0.5) (1/2) (1/2) (by decide +kernel) (by norm_num)
  have c1 : IsFin binary32 (litD (-2.12194440e-4)) := isVal_fin (q := -14581891/2^36) (by decide +kernel)
  have c2 : IsFin binary32 (litD 0.693359375) := isVal_fin (q := 355/2^9) (by decide +kernel)
  have z1 := mul_zero32 hf.fin c1 hfv
  have hzs : Tr (binary32.mul fe (litD (-2.12194440e-4))) 0 (0 * s) (0 * s) :=
    ⟨z1.1, by rw [z1.2]; simp, by simp⟩
  have hz : |v + (logQ v * v * v * v + 0 - ((1/2 : ℚ) : ℝ) * v * v)| ≤ 1187/1000 * s := by
    have e : v + (logQ v * v * v * v + 0 - ((1/2 : ℚ) : ℝ) * v * v) =
        (logP v - Real.log (1 + v)) + Real.log (1 + v) := by
      unfold logP; push_cast; ring
    rw [e]
    refine (abs_add_le _ _).trans ?_
    norm_num at hP hl hs0 ⊢
    linarith
  have u1 := Tr.mul (D := 1003/2^11 * s) (E := 1491/2^34 * s) hp hts (by norm_num at hs0 hs1 ⊢ <;> linarith) (by norm_num at hs0 hs1 ⊢ <;> linarith) (by norm_num at hs0 hs1 ⊢ <;> linarith)
  have u2 := Tr.mul (D := 831/2^12 * s) (E := 1651/2^35 * s) u1 ht (by norm_num at hs0 hs1 ⊢ <;> linarith) (by norm_num at hs0 hs1 ⊢ <;> linarith) (by norm_num at hs0 hs1 ⊢ <;> linarith)
  have u3 := Tr.mul (D := 1377/2^14 * s) (E := 3425/2^37 * s) u2 ht (by norm_num at hs0 hs1 ⊢ <;> linarith) (by norm_num at hs0 hs1 ⊢ <;> linarith) (by norm_num at hs0 hs1 ⊢ <;> linarith)
  have u4 := Tr.add (D := 1377/2^14 * s) (E := 2057/2^36 * s) u3 hzs (by norm_num at hs0 hs1 ⊢ <;> linarith) (by norm_num at hs0 hs1 ⊢ <;> linarith) (by norm_num at hs0 hs1 ⊢ <;> linarith)
  have u5 := Tr.mul (D := 1/2^1 * s) (E := 2049/2^36 * s) hh hts (by norm_num at hs0 hs1 ⊢ <;> linarith) (by norm_num at hs0 hs1 ⊢ <;> linarith) (by norm_num at hs0 hs1 ⊢ <;> linarith)
  have u6 := Tr.mul (D := 1697/2^13 * s) (E := 3395/2^37 * s) u5 ht (by norm_num at hs0 hs1 ⊢ <;> linarith) (by norm_num at hs0 hs1 ⊢ <;> linarith) (by norm_num at hs0 hs1 ⊢ <;> linarith)
  have u7 := Tr.sub (D := 1193/2^12 * s) (E := 1237/2^34 * s) u4 u6 (by norm_num at hs0 hs1 ⊢ <;> linarith) (by norm_num at hs0 hs1 ⊢ <;> linarith) (by norm_num at hs0 hs1 ⊢ <;> linarith)
  have u8 := Tr.add_of (D := 1187/1000 * s) (E := 2453/2^34 * s) hts u7 hz (by norm_num at hs0 hs1 ⊢ <;> linarith) (by norm_num at hs0 hs1 ⊢ <;> linarith)
  have e1 := u8.err
  have z2 : IsFin binary32 (binary32.mul (litD 0.693359375) fe) ∧
      binary32.toReal (binary32.mul (litD 0.693359375) fe) = 0 := by
    have := mul_exact32 c2 hf.fin (m := 0) (s := 0) (by norm_num) (by norm_num) (by rw [hfv]; norm_num)
    rwa [hfv, mul_zero] at this
  have z3 := add_zero32 u8.fin z2.1 z2.2
  unfold logTail
  dsimp only
  rw [logPoly_eq, h.add, h.mul, h.sub]
  refine ⟨z3.1, ?_⟩
  rw [z3.2]
  rw [show v + (logQ v * v * v * v + 0 - ((1/2 : ℚ) : ℝ) * v * v) = logP v by unfold logP; push_cast; ring] at e1
  generalize binary32.toReal (binary32.add _ _) = R at *
  have := abs_add_le (R - logP v) (logP v - Real.log (1 + v))
  rw [sub_add_sub_cancel] at this
  norm_num at *
  linarith

end Nova
