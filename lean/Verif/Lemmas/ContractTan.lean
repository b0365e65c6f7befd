import Verif.Lemmas.ContractReduce

/-!
# The tangent with contraction
-/

namespace Nova
open FP VecMath
namespace Contract

theorem vecTan_error {c : Bool} {V : LaneOps 32} (h : V.Ieee) {x : BitVec 32} (hx : IsFin binary32 x)
    (hr : |binary32.toReal x| ≤ 8192) (hc : 1 / 2 ^ 16 ≤ |Real.cos (binary32.toReal x)|) :
    ∀ y ∈ vecTan c V x, IsFin binary32 y ∧
    |binary32.toReal y - Real.tan (binary32.toReal x)| ≤ 1 / 2 ^ 21 / Real.cos (binary32.toReal x) ^ 2 := by
  intro y hy
  obtain ⟨a1, a2, a3⟩ := fabs_facts hx hr
  obtain ⟨q, q1, q2, q3⟩ := trig_reduce (c := c) h a1 a2 a3
  unfold vecTan at hy
  dsimp only at hy
  rw [abs_and h, h.sign, sign_and, poly_mask, q2] at hy
  simp only [List.mem_flatMap, List.mem_map] at hy
  obtain ⟨r, hr, t, ht, rfl⟩ := hy
  rw [h.sel]
  replace q3 := q3 r hr
  have hv := q3.bnd
  have hp := (tanPoly_track q3 t ht).recenter (tanP_error hv) (E := 25/10^8) (C := |Real.tan (binary32.toReal
    (binary32.fabs x) - q * (Real.pi / 2))|) (by norm_num) le_rfl
  have hm : binary32.toReal (litD (-1)) = -1 := by
    rw [isVal_value (q := -1) (by decide +kernel)]; norm_num
  have hmf : IsFin binary32 (litD (-1)) := isVal_fin (q := -1) (by decide +kernel)
  have htq := tan_quadrant (binary32.toReal (binary32.fabs x) - q * (Real.pi / 2)) q
  have hcq := cos_quadrant (binary32.toReal (binary32.fabs x) - q * (Real.pi / 2)) q
  rw [sub_add_cancel] at htq hcq
  rw [binary32.toReal_fabs] at *
  rw [Real.cos_abs] at hcq
  generalize |binary32.toReal x| - q * (Real.pi / 2) = v at *
  -- the approximation of tan |x|
  have key : IsFin binary32 (if decide (2 * q / 2 % 2 = 0) = true then t
      else V.div (litD (-1)) (t)) ∧
      |binary32.toReal (if decide (2 * q / 2 % 2 = 0) = true then t
      else V.div (litD (-1)) (t)) - (Real.tan |binary32.toReal x|)| ≤
      1 / 2 ^ 21 / Real.cos (binary32.toReal x) ^ 2 := by
    by_cases hq : q % 2 = 0
    · rw [if_pos (decide_eq_true (by omega)), htq, if_pos hq]
      refine ⟨hp.fin, hp.err.trans ?_⟩
      have hc1 : Real.cos (binary32.toReal x) ^ 2 ≤ 1 := Real.cos_sq_le_one _
      have hc2 : 0 < Real.cos (binary32.toReal x) ^ 2 := by
        have : 0 < |Real.cos (binary32.toReal x)| := by norm_num at hc; linarith
        have := abs_pos.mp this
        positivity
      rw [le_div_iff₀ hc2]
      norm_num
      linarith
    · rw [if_neg (by rw [decide_eq_true_eq]; omega), htq, if_neg hq, h.div]
      rw [if_neg hq] at hcq
      have hcs : |Real.cos (binary32.toReal x)| = |Real.sin v| := by
        rw [hcq]; split <;> simp
      have hcs2 : Real.cos (binary32.toReal x) ^ 2 = Real.sin v ^ 2 := by
        rw [← sq_abs, hcs, sq_abs]
      rw [hcs2]
      exact tan_recip hmf hm hp.fin hv hp.err (by rw [← hcs]; exact hc)
  generalize (if decide (2 * q / 2 % 2 = 0) = true then t
      else V.div (litD (-1)) (t)) = R at *
  have tr : Tr R (Real.tan |binary32.toReal x|) _ _ := ⟨key.1, key.2, le_rfl⟩
  have ts := tr.signed (binary32.neg x)
  refine ⟨ts.fin, ?_⟩
  have e : Real.tan (binary32.toReal x) = if binary32.neg x then -Real.tan |binary32.toReal x|
      else Real.tan |binary32.toReal x| := by
    conv_lhs => rw [toReal_eq_signed x]
    cases binary32.neg x
    · rfl
    · simp only [if_true]; rw [Real.tan_neg]
  rw [e]
  exact ts.err

end Contract
end Nova
