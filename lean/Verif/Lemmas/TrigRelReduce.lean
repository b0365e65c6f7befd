import Verif.Lemmas.TrigRelative

/-!
# Relative errors of `sin`, `cos` and `tan`: the reduction of the argument
-/

namespace Nova
open FP VecMath
namespace Contract

/-- The last step of the reduction: one or two roundings. -/
theorem reduce_last {c : Bool} {w y : BitVec 32} {q : ℕ} (hw : IsFin binary32 w) (hw1 : |binary32.toReal w| ≤ 0.7868)
    (hq : q ≤ 5216) (hy : IsFin binary32 y) (hyv : binary32.toReal y = ((2 * q : ℕ) : ℝ)) :
    ∀ r ∈ sub c (.reg w) (.prod y (litD 3.77489497744594108e-8)), IsFin binary32 r ∧
      |binary32.toReal r - (binary32.toReal w - 2 * q * (10625385 / 2 ^ 48))| ≤
        1 / 2 ^ 24 * |binary32.toReal w - 2 * q * (10625385 / 2 ^ 48)| + (45001 / 10 ^ 19 * (q : ℝ) + 1 / 2 ^ 149) := by
  intro r hr
  have c3 : binary32.toReal (litD 3.77489497744594108e-8) = ((10625385/2^48 : ℚ) : ℝ) :=
    isVal_value (by decide +kernel)
  have f3 : IsFin binary32 (litD 3.77489497744594108e-8) := isVal_fin (q := 10625385/2^48) (by decide +kernel)
  have hqr : (q : ℝ) ≤ 5216 := by exact_mod_cast hq
  have hq0 : (0 : ℝ) ≤ q := Nat.cast_nonneg q
  have e : binary32.toReal y * binary32.toReal (litD 3.77489497744594108e-8) = 2 * q * (10625385 / 2 ^ 48) := by
    rw [hyv, c3]; push_cast; ring
  have hP : |(2 * q * (10625385 / 2 ^ 48) : ℝ)| = 2 * q * (10625385 / 2 ^ 48) := abs_of_nonneg (by positivity)
  have hP1 : (2 * q * (10625385 / 2 ^ 48) : ℝ) ≤ 1 := by norm_num; linarith
  obtain ⟨g1, g2⟩ := abs_le.mp hw1
  rcases mem_diffs hr with g | ⟨-, _, _, g, -⟩ | ⟨-, x1, y1, g, g'⟩
  · obtain ⟨m1, m2⟩ := mul_near32 hy f3 (by rw [e, hP]; exact hP1.trans (by norm_num))
    rw [e, hP] at m2
    have hb : |binary32.toReal w - binary32.toReal (binary32.mul y (litD 3.77489497744594108e-8))| ≤ 2 ^ 127 := by
      obtain ⟨k1, k2⟩ := abs_le.mp m2
      rw [abs_le]
      have : (0 : ℝ) ≤ 2 * q * (10625385 / 2 ^ 48) := by positivity
      generalize (2 * q * (10625385 / 2 ^ 48) : ℝ) = P at *
      norm_num at *
      constructor <;> linarith
    obtain ⟨s1, s2⟩ := sub_near32 hw m1 hb
    replace g : r = binary32.sub w (binary32.mul y (litD 3.77489497744594108e-8)) := g
    rw [g]
    refine ⟨s1, ?_⟩
    generalize binary32.toReal (binary32.sub w (binary32.mul y (litD 3.77489497744594108e-8))) = R at *
    generalize binary32.toReal (binary32.mul y (litD 3.77489497744594108e-8)) = P' at *
    generalize binary32.toReal w = W at *
    have t1 := abs_sub_le R (W - P') (W - 2 * q * (10625385 / 2 ^ 48))
    have t2 : |W - P' - (W - 2 * q * (10625385 / 2 ^ 48))| = |P' - 2 * q * (10625385 / 2 ^ 48)| := by
      rw [← abs_neg]; congr 1; ring
    have t3 : |W - P'| ≤ |W - 2 * q * (10625385 / 2 ^ 48)| + |P' - 2 * q * (10625385 / 2 ^ 48)| := by
      rw [show W - P' = (W - 2 * q * (10625385 / 2 ^ 48)) + -(P' - 2 * q * (10625385 / 2 ^ 48)) by ring]
      refine (abs_add_le _ _).trans ?_
      rw [abs_neg]
    rw [t2] at t1
    generalize |W - P'| = A at *
    generalize |P' - 2 * q * (10625385 / 2 ^ 48)| = B at *
    generalize |W - 2 * q * (10625385 / 2 ^ 48)| = C at *
    generalize |R - (W - P')| = D at *
    generalize |R - (W - 2 * q * (10625385 / 2 ^ 48))| = G at *
    norm_num at *
    linarith
  · cases g
  · cases g
    have ng : IsFin binary32 (binary32.negate y) := by
      unfold IsFin at *; rw [binary32.isFinite_negate]; exact hy
    have e2 : binary32.toReal (binary32.negate y) * binary32.toReal (litD 3.77489497744594108e-8) + binary32.toReal w =
        binary32.toReal w - 2 * q * (10625385 / 2 ^ 48) := by
      rw [binary32.toReal_negate, neg_mul, e]; ring
    obtain ⟨s1, s2⟩ := fma_near32 ng f3 hw (by
      rw [e2, abs_le]
      have : (0 : ℝ) ≤ 2 * q * (10625385 / 2 ^ 48) := by positivity
      generalize (2 * q * (10625385 / 2 ^ 48) : ℝ) = P at *
      norm_num at *
      constructor <;> linarith)
    rw [e2] at s2
    replace g' : r = binary32.fma (binary32.negate y) (litD 3.77489497744594108e-8) w := g'
    rw [g']
    refine ⟨s1, s2.trans ?_⟩
    have : (1 / 2 ^ 150 : ℝ) ≤ 1 / 2 ^ 149 := by norm_num
    have : (0 : ℝ) ≤ 45001 / 10 ^ 19 * q := by positivity
    linarith

/-- The reduced argument relative to the distance from the multiple of π/2. -/
theorem reduceArg_rel {c : Bool} {x : BitVec 32} (hx : IsFin binary32 x)
    (h0 : binary32.neg x = false) {q : ℕ} (hq : q ≤ 5216)
    (hX : |binary32.toReal x - q * (Real.pi / 2)| ≤ 0.7864) (hx1 : 1 ≤ q → 0.7853 ≤ binary32.toReal x)
    {y : BitVec 32} (hy : IsFin binary32 y) (hyv : binary32.toReal y = ((2 * q : ℕ) : ℝ))
    (hv : 1 / 2 ^ 26 * binary32.toReal x ≤ |binary32.toReal x - q * (Real.pi / 2)|) :
    ∀ r ∈ reduceArg c x y, IsFin binary32 r ∧
      (|binary32.toReal r - (binary32.toReal x - q * (Real.pi / 2))| ≤
          63 / 10 ^ 9 * |binary32.toReal x - q * (Real.pi / 2)| ∨
        |binary32.toReal x - q * (Real.pi / 2)| ≤ 0.01 ∧
        |binary32.toReal r - (binary32.toReal x - q * (Real.pi / 2))| ≤
          328 / 10 ^ 9 * |binary32.toReal x - q * (Real.pi / 2)|) := by
  intro r hr
  unfold reduceArg at hr
  simp only [List.mem_flatMap] at hr
  obtain ⟨p1, m1, p2, m2, m3⟩ := hr
  obtain ⟨⟨a1, a2⟩, ⟨b1, b2⟩, d, g1, g3⟩ := reduceArg_exact hx h0 hq hX hx1 hy hyv
  have f1 : IsFin binary32 (litD 0.78515625) := isVal_fin (q := 201/2^8) (by decide +kernel)
  have f2 : IsFin binary32 (litD 2.4187564849853515625e-4) := isVal_fin (q := 2029/2^23) (by decide +kernel)
  have f3 : IsFin binary32 (litD 3.77489497744594108e-8) := isVal_fin (q := 10625385/2^48) (by decide +kernel)
  obtain ⟨k1, k2⟩ := Fmt.key_real (Fmt.diffs_same m1 hy f1 hx hx rfl a1 a2)
  obtain ⟨l1, l2⟩ := Fmt.key_real (Fmt.diffs_same m2 hy f2 (k1.trans d) d k2 b1 b2)
  obtain ⟨hb, -, -⟩ := reduceArg_reals hq hX
  have pf : IsFin binary32 p2 := l1.trans g1
  rw [g3] at l2
  rcases Nat.eq_zero_or_pos q with hz | hp
  · have y0 : binary32.toReal y = 0 := by rw [hyv, hz]; simp
    obtain ⟨z1, z2⟩ := mul_zero32 hy f3 y0
    obtain ⟨n1, n2⟩ := Fmt.key_real (Fmt.diffs_same m3 hy f3 pf pf rfl z1 (by rw [z2, y0, zero_mul]))
    obtain ⟨o1, o2⟩ := sub_zero32 pf z1 z2
    refine ⟨n1.trans o1, .inl ?_⟩
    rw [n2, o2, l2, hz]
    simp
  · obtain ⟨rf, rl⟩ := reduce_last pf (by rw [l2]; exact hb) hq hy hyv r m3
    refine ⟨rf, ?_⟩
    rw [l2] at rl
    have P1 := Real.pi_gt_d20
    have P2 := Real.pi_lt_d20
    have hqr : (q : ℝ) ≤ 5216 := by exact_mod_cast hq
    have hq1 : (1 : ℝ) ≤ q := by exact_mod_cast hp
    have hq0 : (0 : ℝ) ≤ q := Nat.cast_nonneg q
    have hd : |binary32.toReal x - q * (201 / 2 ^ 7 + 2029 / 2 ^ 22) - 2 * q * (10625385 / 2 ^ 48) -
        (binary32.toReal x - q * (Real.pi / 2))| ≤ 1716 / 10 ^ 18 * (q : ℝ) := by
      rw [show binary32.toReal x - q * (201 / 2 ^ 7 + 2029 / 2 ^ 22) - 2 * q * (10625385 / 2 ^ 48) -
        (binary32.toReal x - q * (Real.pi / 2)) = (Real.pi / 2 - 201 / 2 ^ 7 - 2029 / 2 ^ 22 -
          10625385 / 2 ^ 47) * q by ring, abs_mul, abs_of_nonneg hq0]
      refine mul_le_mul_of_nonneg_right ?_ hq0
      rw [abs_le]
      norm_num at *
      constructor <;> linarith
    have hXv : Real.pi / 2 * q ≤ binary32.toReal x + |binary32.toReal x - q * (Real.pi / 2)| := by
      have := neg_abs_le (binary32.toReal x - q * (Real.pi / 2))
      linarith
    have hpq : 1.5707 * (q : ℝ) ≤ Real.pi / 2 * q :=
      mul_le_mul_of_nonneg_right (by norm_num at *; linarith) hq0
    clear hpq
    have hpq : 1.5707 * (q : ℝ) ≤ Real.pi / 2 * q :=
      mul_le_mul_of_nonneg_right (by norm_num at *; linarith) hq0
    generalize binary32.toReal x - q * (Real.pi / 2) = v at *
    generalize binary32.toReal x - q * (201 / 2 ^ 7 + 2029 / 2 ^ 22) - 2 * q * (10625385 / 2 ^ 48) = w at *
    generalize Real.pi / 2 * q = pq at *
    generalize binary32.toReal r = R at *
    generalize binary32.toReal x = X at *
    have t1 := abs_sub_le R w v
    have t2 : |w| ≤ |w - v| + |v| := by
      have := abs_add_le (w - v) v
      rwa [sub_add_cancel] at this
    have hR : |R - v| ≤ 5961 / 10 ^ 11 * |v| + 6217 / 10 ^ 18 * (q : ℝ) := by
      have := abs_nonneg v
      generalize |R - v| = r1 at *
      generalize |R - w| = r2 at *
      generalize |w - v| = r3 at *
      generalize |w| = r4 at *
      generalize |v| = r5 at *
      generalize (q : ℝ) = Q at *
      norm_num at *
      linarith
    rcases le_total |v| 0.01 with hs | hl
    · refine .inr ⟨hs, hR.trans ?_⟩
      have : (1.56 : ℝ) * q ≤ X := by
        generalize |v| = r5 at *
        generalize (q : ℝ) = Q at *
        norm_num at *
        linarith
      generalize |v| = r5 at *
      clear hR t1 t2 hd rl
      generalize (q : ℝ) = Q at *
      norm_num at *
      linarith
    · refine .inl (hR.trans ?_)
      generalize |v| = r5 at *
      clear hR t1 t2 hd rl hpq hXv
      generalize (q : ℝ) = Q at *
      norm_num at *
      linarith

end Contract
end Nova
