import Verif.Float.Track
import Verif.Lemmas.BitMath
import Verif.SpecFloat

/-!
# One Newton step for the reciprocal, with rounding
-/

namespace Nova
open FP VecMath

/-- What the estimate instruction must provide for the argument `x`. -/
structure GoodEstimate (x r : BitVec 32) (ε : ℝ) : Prop where
  x_fin : IsFin binary32 x
  r_fin : IsFin binary32 r
  x_low : 1 / 2 ^ 100 ≤ |binary32.toReal x|
  x_high : |binary32.toReal x| ≤ 2 ^ 100
  small : ε ≤ 1 / 64
  res : |1 - binary32.toReal x * binary32.toReal r| ≤ ε

theorem GoodEstimate.r_bound {x r : BitVec 32} {ε : ℝ} (h : GoodEstimate x r ε) :
    |binary32.toReal r| ≤ 2 ^ 101 := by
  have h1 : |binary32.toReal x * binary32.toReal r| ≤ 2 := by
    have := h.res; have := h.small
    rw [abs_le] at *
    constructor <;> linarith
  rw [abs_mul] at h1
  have h2 := mul_le_mul_of_nonneg_right h.x_low (abs_nonneg (binary32.toReal r))
  have h3 : 1 / 2 ^ 100 * |binary32.toReal r| ≤ 2 := h2.trans h1
  have : |binary32.toReal r| = 2 ^ 100 * (1 / 2 ^ 100 * |binary32.toReal r|) := by
    rw [← mul_assoc]; norm_num
  rw [this, show (2 : ℝ) ^ 101 = 2 ^ 100 * 2 by norm_num]
  exact mul_le_mul_of_nonneg_left h3 (by positivity)

/-- The algebra of the step: `d` is the computed `1 - x*r`, `z` the result. -/
theorem newton_step {X R D Z ε e : ℝ} (hε : ε ≤ 1 / 64) (hy : |1 - X * R| ≤ ε)
    (hd : |D - (1 - X * R)| ≤ e)
    (hz : |X * Z - X * (D * R + R)| ≤ 1 / 2 ^ 23) :
    |1 - X * Z| ≤ ε ^ 2 + 65 / 64 * e + 1 / 2 ^ 23 := by
  have h0 : 0 ≤ ε := (abs_nonneg _).trans hy
  have h1 : 1 - X * Z = (1 - X * R) ^ 2 - X * R * (D - (1 - X * R)) - (X * Z - X * (D * R + R)) := by ring
  have h2 : |X * R| ≤ 65 / 64 := by
    rw [abs_le] at hy ⊢; constructor <;> linarith
  rw [h1]
  have a1 : |(1 - X * R) ^ 2| ≤ ε ^ 2 := by
    rw [abs_pow]; exact pow_le_pow_left₀ (abs_nonneg _) hy 2
  have a2 : |X * R * (D - (1 - X * R))| ≤ 65 / 64 * e := by
    rw [abs_mul]; exact mul_le_mul h2 hd (abs_nonneg _) (by norm_num)
  have b1 := abs_sub ((1 - X * R) ^ 2 - X * R * (D - (1 - X * R))) (X * Z - X * (D * R + R))
  have b2 := abs_sub ((1 - X * R) ^ 2) (X * R * (D - (1 - X * R)))
  linarith

/-- The bound of the final rounding. -/
theorem newton_final {X R D : ℝ} {V Z : ℝ} (hX : |X| ≤ 2 ^ 100) (hv : |X * V| ≤ 9 / 8)
    (hz : |Z - V| ≤ 1 / 2 ^ 24 * |V| + 1 / 2 ^ 150) (hw : |X * V - X * (D * R + R)| ≤ 1 / 2 ^ 25) :
    |X * Z - X * (D * R + R)| ≤ 1 / 2 ^ 23 := by
  have h1 : |X * (Z - V)| ≤ 1 / 2 ^ 24 * |X * V| + 1 / 2 ^ 50 := by
    rw [abs_mul, abs_mul]
    calc |X| * |Z - V| ≤ |X| * (1 / 2 ^ 24 * |V| + 1 / 2 ^ 150) :=
          mul_le_mul_of_nonneg_left hz (abs_nonneg _)
      _ = 1 / 2 ^ 24 * (|X| * |V|) + |X| * (1 / 2 ^ 150) := by ring
      _ ≤ 1 / 2 ^ 24 * (|X| * |V|) + 2 ^ 100 * (1 / 2 ^ 150) := by
          have := mul_le_mul_of_nonneg_right hX (by norm_num : (0 : ℝ) ≤ 1 / 2 ^ 150); linarith
      _ = _ := by norm_num
  have h2 : X * Z - X * (D * R + R) = X * (Z - V) + (X * V - X * (D * R + R)) := by ring
  rw [h2]
  have h3 := abs_add_le (X * (Z - V)) (X * V - X * (D * R + R))
  have h4 : (1 : ℝ) / 2 ^ 24 * |X * V| ≤ 1 / 2 ^ 24 * (9 / 8) :=
    mul_le_mul_of_nonneg_left hv (by norm_num)
  norm_num at *
  linarith

/-- The difference `1 - x*r` computed in two steps. -/
theorem diff_two_steps {x r : BitVec 32} {ε : ℝ} (h : GoodEstimate x r ε) :
    IsFin binary32 (binary32.sub 0x3f800000#32 (binary32.mul r x)) ∧
    |binary32.toReal (binary32.sub 0x3f800000#32 (binary32.mul r x)) -
      (1 - binary32.toReal x * binary32.toReal r)| ≤ 3 / 2 ^ 25 := by
  have hres := h.res
  have hs := h.small
  have hy : |binary32.toReal r * binary32.toReal x| ≤ 65 / 64 := by
    rw [mul_comm]; rw [abs_le] at hres ⊢; constructor <;> linarith
  obtain ⟨f1, e1⟩ := mul_near32 h.r_fin h.x_fin (hy.trans (by norm_num))
  have e1' : |binary32.toReal (binary32.mul r x) - binary32.toReal r * binary32.toReal x| ≤ 66 / 64 / 2 ^ 24 := by
    refine e1.trans ?_
    have := mul_le_mul_of_nonneg_left hy (by norm_num : (0 : ℝ) ≤ 1 / 2 ^ 24)
    norm_num at this ⊢; linarith
  have hT : |1 - binary32.toReal (binary32.mul r x)| ≤ 1 / 32 := by
    rw [mul_comm] at e1'
    rw [abs_le] at *
    norm_num at *
    constructor <;> linarith
  have hsub := sub_near32 (x := 0x3f800000#32) (y := binary32.mul r x) (by decide) f1
    (by rw [toReal_one32']; exact hT.trans (by norm_num))
  rw [toReal_one32'] at hsub
  refine ⟨hsub.1, ?_⟩
  have h2 : |binary32.toReal (binary32.sub 0x3f800000#32 (binary32.mul r x)) -
      (1 - binary32.toReal (binary32.mul r x))| ≤ 1 / 2 ^ 24 * (1 / 32) :=
    hsub.2.trans (mul_le_mul_of_nonneg_left hT (by norm_num))
  rw [mul_comm (binary32.toReal r)] at e1'
  rw [abs_le] at *
  norm_num at *
  constructor <;> linarith


/-- The exact value of `d*r + r`, scaled by `x`. -/
theorem step_value {X R D ε : ℝ} (hε : ε ≤ 1 / 64) (hy : |1 - X * R| ≤ ε)
    (hd : |D - (1 - X * R)| ≤ 3 / 2 ^ 25) :
    |D| ≤ 1 / 32 ∧ |X * (D * R + R)| ≤ 17 / 16 ∧ |X * (D * R)| ≤ 1 / 30 := by
  have hD : |D| ≤ 1 / 32 := by
    rw [abs_le] at *; norm_num at *; constructor <;> linarith
  have h2 : |X * R| ≤ 65 / 64 := by
    rw [abs_le] at hy ⊢; constructor <;> linarith
  have hD1 : |D + 1| ≤ 33 / 32 := by
    rw [abs_le] at *; constructor <;> linarith
  refine ⟨hD, ?_, ?_⟩
  · rw [show X * (D * R + R) = (X * R) * (D + 1) by ring, abs_mul]
    refine (mul_le_mul h2 hD1 (abs_nonneg _) (by norm_num)).trans (by norm_num)
  · rw [show X * (D * R) = (X * R) * D by ring, abs_mul]
    refine (mul_le_mul h2 hD (abs_nonneg _) (by norm_num)).trans (by norm_num)

theorem range_of {R D : ℝ} (hR : |R| ≤ 2 ^ 101) (hD : |D| ≤ 1 / 32) :
    |D * R| ≤ 2 ^ 101 ∧ |D * R + R| ≤ 2 ^ 102 := by
  have h : |D * R| ≤ 1 / 32 * 2 ^ 101 := by
    rw [abs_mul]; exact mul_le_mul hD hR (abs_nonneg _) (by norm_num)
  refine ⟨h.trans (by norm_num), (abs_add_le _ _).trans ?_⟩
  norm_num at *; linarith

/-- The step with a fused multiplication and addition. -/
theorem newton_fma {x r d : BitVec 32} {ε : ℝ} (h : GoodEstimate x r ε) (hdf : IsFin binary32 d)
    (hd : |binary32.toReal d - (1 - binary32.toReal x * binary32.toReal r)| ≤ 3 / 2 ^ 25) :
    IsFin binary32 (binary32.fma d r r) ∧
    |1 - binary32.toReal x * binary32.toReal (binary32.fma d r r)| ≤ ε ^ 2 + 4 / 2 ^ 24 := by
  obtain ⟨hD, hv, -⟩ := step_value h.small h.res hd
  have hr := range_of h.r_bound hD
  obtain ⟨f, e⟩ := fma_near32 hdf h.r_fin h.r_fin (hr.2.trans (by norm_num))
  refine ⟨f, ?_⟩
  have := newton_step h.small h.res hd
    (newton_final h.x_high (hv.trans (by norm_num)) e (by rw [sub_self, abs_zero]; norm_num))
  norm_num at this ⊢; linarith

/-- The step with a multiplication and an addition. -/
theorem newton_mul_add {x r d : BitVec 32} {ε : ℝ} (h : GoodEstimate x r ε) (hdf : IsFin binary32 d)
    (hd : |binary32.toReal d - (1 - binary32.toReal x * binary32.toReal r)| ≤ 3 / 2 ^ 25) :
    IsFin binary32 (binary32.add (binary32.mul d r) r) ∧
    |1 - binary32.toReal x * binary32.toReal (binary32.add (binary32.mul d r) r)| ≤ ε ^ 2 + 4 / 2 ^ 24 := by
  obtain ⟨hD, hv, hm⟩ := step_value h.small h.res hd
  have hr := range_of h.r_bound hD
  obtain ⟨f1, e1⟩ := mul_near32 hdf h.r_fin (hr.1.trans (by norm_num))
  generalize hp : binary32.mul d r = p at *
  generalize hX : binary32.toReal x = X at *
  generalize hR : binary32.toReal r = R at *
  generalize hDD : binary32.toReal d = D at *
  generalize hPP : binary32.toReal p = Q at *
  have hXn := h.x_high
  rw [hX] at hXn
  -- the rounding of the product
  have hb : |X * (Q - D * R)| ≤ 1 / 2 ^ 25 := by
    have : |X * (Q - D * R)| ≤ 1 / 2 ^ 24 * |X * (D * R)| + 1 / 2 ^ 50 := by
      rw [abs_mul, abs_mul]
      calc |X| * |Q - D * R| ≤ |X| * (1 / 2 ^ 24 * |D * R| + 1 / 2 ^ 150) :=
            mul_le_mul_of_nonneg_left e1 (abs_nonneg _)
        _ = 1 / 2 ^ 24 * (|X| * |D * R|) + |X| * (1 / 2 ^ 150) := by ring
        _ ≤ 1 / 2 ^ 24 * (|X| * |D * R|) + 2 ^ 100 * (1 / 2 ^ 150) := by
            have := mul_le_mul_of_nonneg_right hXn (by norm_num : (0 : ℝ) ≤ 1 / 2 ^ 150); linarith
        _ = _ := by norm_num
    have h3 := mul_le_mul_of_nonneg_left hm (by norm_num : (0 : ℝ) ≤ 1 / 2 ^ 24)
    norm_num at *; linarith
  have hQ : |Q + R| ≤ 2 ^ 110 := by
    have a1 : |Q - D * R| ≤ 2 ^ 101 := by
      refine e1.trans ?_
      have := hr.1
      norm_num at this ⊢; linarith
    have a2 := abs_add_le (Q - D * R) (D * R + R)
    rw [show Q - D * R + (D * R + R) = Q + R by ring] at a2
    have := hr.2
    norm_num at *; linarith
  have hadd := add_near32 (x := p) (y := r) f1 h.r_fin (by rw [hPP, hR]; exact hQ.trans (by norm_num))
  rw [hPP, hR] at hadd
  refine ⟨hadd.1, ?_⟩
  have e2 : |binary32.toReal (binary32.add p r) - (Q + R)| ≤ 1 / 2 ^ 24 * |Q + R| + 1 / 2 ^ 150 :=
    hadd.2.trans (by norm_num)
  have hw : |X * (Q + R) - X * (D * R + R)| ≤ 1 / 2 ^ 25 := by
    rw [show X * (Q + R) - X * (D * R + R) = X * (Q - D * R) by ring]; exact hb
  have hv2 : |X * (Q + R)| ≤ 9 / 8 := by
    rw [abs_le] at hv hw ⊢; norm_num at *; constructor <;> linarith
  have hres := h.res
  rw [hX, hR] at hres
  have := newton_step h.small hres hd (newton_final hXn hv2 e2 hw)
  norm_num at this ⊢; linarith

theorem toReal_two32 : binary32.toReal 0x40000000#32 = 2 := by
  rw [binary32.toReal_eq, show binary32.neg 0x40000000#32 = false by decide,
    show mag binary32.mb (binary32.code 0x40000000#32) = 2 ^ 150 by decide +kernel,
    show binary32.scale = 149 by decide]
  norm_num

/-- The step of NEON: `r * (2 - x*r)`. -/
theorem newton_recps {x r : BitVec 32} {ε : ℝ} (h : GoodEstimate x r ε) :
    IsFin binary32 (binary32.mul r (binary32.sub 0x40000000#32 (binary32.mul x r))) ∧
    |1 - binary32.toReal x * binary32.toReal
      (binary32.mul r (binary32.sub 0x40000000#32 (binary32.mul x r)))| ≤ ε ^ 2 + 5 / 2 ^ 24 := by
  have hres := h.res
  have hs := h.small
  have hy : |binary32.toReal x * binary32.toReal r| ≤ 65 / 64 := by
    rw [abs_le] at hres ⊢; constructor <;> linarith
  obtain ⟨f1, e1⟩ := mul_near32 h.x_fin h.r_fin (hy.trans (by norm_num))
  have e1' : |binary32.toReal (binary32.mul x r) - binary32.toReal x * binary32.toReal r| ≤ 66 / 64 / 2 ^ 24 := by
    refine e1.trans ?_
    have := mul_le_mul_of_nonneg_left hy (by norm_num : (0 : ℝ) ≤ 1 / 2 ^ 24)
    norm_num at this ⊢; linarith
  have hT : |2 - binary32.toReal (binary32.mul x r)| ≤ 33 / 32 := by
    rw [abs_le] at *; norm_num at *; constructor <;> linarith
  have hsub := sub_near32 (x := 0x40000000#32) (y := binary32.mul x r) (by decide) f1
    (by rw [toReal_two32]; exact hT.trans (by norm_num))
  rw [toReal_two32] at hsub
  generalize binary32.sub 0x40000000#32 (binary32.mul x r) = s at *
  have h2 : |binary32.toReal s - (2 - binary32.toReal (binary32.mul x r))| ≤ 1 / 2 ^ 24 * (33 / 32) :=
    hsub.2.trans (mul_le_mul_of_nonneg_left hT (by norm_num))
  generalize binary32.toReal (binary32.mul x r) = T at *
  generalize hS : binary32.toReal s = S at *
  have hS1 : |(S - 1) - (1 - binary32.toReal x * binary32.toReal r)| ≤ 5 / 2 ^ 25 := by
    rw [abs_le] at *; norm_num at *; constructor <;> linarith
  have hSb : |S| ≤ 34 / 32 := by
    rw [abs_le] at *; norm_num at *; constructor <;> linarith
  have hrb := h.r_bound
  have hxs : |binary32.toReal x * (binary32.toReal r * S)| ≤ 9 / 8 := by
    rw [← mul_assoc, abs_mul]
    exact (mul_le_mul hy hSb (abs_nonneg _) (by norm_num)).trans (by norm_num)
  have hm := mul_near32 h.r_fin hsub.1 (by
    rw [hS, abs_mul]
    exact (mul_le_mul hrb hSb (abs_nonneg _) (by positivity)).trans (by norm_num))
  rw [hS] at hm
  refine ⟨hm.1, ?_⟩
  have hf := newton_final (R := binary32.toReal r) (D := S - 1) h.x_high hxs hm.2 (by
    rw [show binary32.toReal x * (binary32.toReal r * S) -
      binary32.toReal x * ((S - 1) * binary32.toReal r + binary32.toReal r) = 0 by ring, abs_zero]
    norm_num)
  have := newton_step hs hres hS1 hf
  norm_num at this ⊢; linarith

/-- The difference `1 - x*r` computed in one step (Altivec). -/
theorem diff_one_step {x r : BitVec 32} {ε : ℝ} (h : GoodEstimate x r ε) :
    IsFin binary32 (binary32.fma (binary32.negate r) x 0x3f800000#32) ∧
    |binary32.toReal (binary32.fma (binary32.negate r) x 0x3f800000#32) -
      (1 - binary32.toReal x * binary32.toReal r)| ≤ 3 / 2 ^ 25 := by
  have hres := h.res
  have hs := h.small
  have e : binary32.toReal (binary32.negate r) * binary32.toReal x + 1 =
      1 - binary32.toReal x * binary32.toReal r := by
    rw [binary32.toReal_negate]; ring
  have hf := fma_near32 (x := binary32.negate r) (y := x) (z := 0x3f800000#32)
    (by unfold IsFin; rw [binary32.isFinite_negate]; exact h.r_fin) h.x_fin (by decide)
    (by rw [toReal_one32', e]; exact (hres.trans hs).trans (by norm_num))
  rw [toReal_one32', e] at hf
  refine ⟨hf.1, hf.2.trans ?_⟩
  have := mul_le_mul_of_nonneg_left (hres.trans hs) (by norm_num : (0 : ℝ) ≤ 1 / 2 ^ 24)
  norm_num at this ⊢; linarith

end Nova
