import Verif.Lemmas.RootNewton
import Verif.Lemmas.IeeeClass
import Verif.Lemmas.BitMath

/-!
# Square roots from an estimate: the vector classes
-/

namespace Nova
open FP VecMath

section
attribute [local irreducible] litD litF Fmt.add Fmt.mul Fmt.div Fmt.sub Fmt.fma Fmt.ltb Fmt.leb Fmt.eqb
  Fmt.roundInt Fmt.toInt32 Fmt.ofInt32 Fmt.sqrt Fmt.ofInt

theorem sqrt_neon (P : Platform 32) (x : BitVec 32) :
    (Build32.neon.ops P).sqrt x = binary32.mul x (P.rsqrt x) := rfl

theorem sqrt_altivec (P : Platform 32) (x : BitVec 32) :
    (Build32.altivec.ops P).sqrt x = binary32.fma x
      (binary32.fma (binary32.fma (binary32.negate x) (binary32.fma (P.rsqrt x) (P.rsqrt x) 0#32) (litF 1))
        (binary32.fma (P.rsqrt x) (litF 0.5) 0#32) (P.rsqrt x)) 0#32 := rfl

theorem signedSqrt_neon (P : Platform 32) (x : BitVec 32) :
    (Build32.neon.lane P).signedSqrt x =
      (x &&& 0x80000000#32) ||| (Build32.neon.ops P).sqrt (x ^^^ (x &&& 0x80000000#32)) := rfl

end

theorem litF_half' : litF 0.5 = 0x3f000000#32 := by decide +kernel

theorem toReal_half32' : binary32.toReal 0x3f000000#32 = 1 / 2 := by
  rw [binary32.toReal_eq, show binary32.neg 0x3f000000#32 = false by decide,
    show mag binary32.mb (binary32.code 0x3f000000#32) = 2 ^ 148 by decide +kernel,
    show binary32.scale = 149 by decide]
  norm_num

/-- The estimate is not large. -/
theorem GoodRoot.r_bound {x r : BitVec 32} {ε : ℝ} (h : GoodRoot x r ε) : |binary32.toReal r| ≤ 2 ^ 51 := by
  obtain ⟨s1, -, -⟩ := root_range h.x_low h.x_high
  have h1 : |√(binary32.toReal x) * binary32.toReal r| ≤ 2 := by
    have := h.res; have := h.small
    rw [abs_le] at *
    norm_num at *
    constructor <;> linarith
  have hS0 : 0 < √(binary32.toReal x) := lt_of_lt_of_le (by norm_num) s1
  rw [abs_mul, abs_of_pos hS0] at h1
  have := mul_le_mul_of_nonneg_right s1 (abs_nonneg (binary32.toReal r))
  norm_num at *
  linarith

/-- The refined estimate of AltiVec. -/
theorem altivec_step {x e : BitVec 32} {ε : ℝ} (h : GoodRoot x e ε) :
    IsFin binary32 (binary32.fma (binary32.fma (binary32.negate x) (binary32.fma e e 0#32) 0x3f800000#32)
        (binary32.fma e 0x3f000000#32 0#32) e) ∧
    |1 - √(binary32.toReal x) * binary32.toReal
      (binary32.fma (binary32.fma (binary32.negate x) (binary32.fma e e 0#32) 0x3f800000#32)
        (binary32.fma e 0x3f000000#32 0#32) e)| ≤ 1.51 * ε ^ 2 + 2 / 2 ^ 24 := by
  obtain ⟨s1, s2, s3⟩ := root_range h.x_low h.x_high
  have hE := h.r_bound
  have hS0 : 0 < √(binary32.toReal x) := lt_of_lt_of_le (by norm_num) s1
  have hEE : |binary32.toReal e * binary32.toReal e| ≤ 2 ^ 102 := by
    rw [abs_mul]; exact (mul_le_mul hE hE (abs_nonneg _) (by norm_num)).trans (by norm_num)
  have hEH : |binary32.toReal e * binary32.toReal 0x3f000000#32| ≤ 2 ^ 50 := by
    rw [abs_mul, toReal_half32', abs_of_pos (by norm_num : (0 : ℝ) < 1 / 2)]
    norm_num at *; linarith
  obtain ⟨f1, v1⟩ := fma_zero_near32 h.r_fin h.r_fin (hEE.trans (by norm_num))
  obtain ⟨f2, v2⟩ := fma_zero_near32 h.r_fin (y := 0x3f000000#32) (by decide) (hEH.trans (by norm_num))
  generalize binary32.fma e e 0#32 = s at *
  generalize binary32.fma e 0x3f000000#32 0#32 = hh at *
  have hxs : |binary32.toReal x * binary32.toReal s| ≤ 2 := by
    have hse : |√(binary32.toReal x) * binary32.toReal e| ≤ 1 + 1 / 64 := by
      have := h.res; have := h.small
      rw [abs_le] at *
      norm_num at *
      constructor <;> linarith
    have k1 : |binary32.toReal x * (binary32.toReal e * binary32.toReal e)| ≤ (1 + 1 / 64) ^ 2 := by
      rw [show binary32.toReal x * (binary32.toReal e * binary32.toReal e) =
        (√(binary32.toReal x) * binary32.toReal e) ^ 2 by rw [mul_pow, sq, sq, s3], abs_pow]
      exact pow_le_pow_left₀ (abs_nonneg _) hse 2
    have hX0 : 0 < binary32.toReal x := lt_of_lt_of_le (by norm_num) h.x_low
    have k2 := mul_le_mul_of_nonneg_left v1 hX0.le
    have k3 : binary32.toReal x * |binary32.toReal e * binary32.toReal e| ≤ (1 + 1 / 64) ^ 2 := by
      rwa [abs_mul, abs_of_pos hX0] at k1
    have k4 : |binary32.toReal x * binary32.toReal s - binary32.toReal x * (binary32.toReal e * binary32.toReal e)| =
        binary32.toReal x * |binary32.toReal s - binary32.toReal e * binary32.toReal e| := by
      rw [← mul_sub, abs_mul, abs_of_pos hX0]
    have k5 := abs_add_le (binary32.toReal x * binary32.toReal s -
      binary32.toReal x * (binary32.toReal e * binary32.toReal e))
      (binary32.toReal x * (binary32.toReal e * binary32.toReal e))
    rw [sub_add_cancel, k4] at k5
    have k6 := h.x_high
    have k7 : binary32.toReal x * (1 / 2 ^ 24 * |binary32.toReal e * binary32.toReal e| + 1 / 2 ^ 150) =
      1 / 2 ^ 24 * (binary32.toReal x * |binary32.toReal e * binary32.toReal e|) + binary32.toReal x * (1 / 2 ^ 150) := by
      ring
    rw [k7] at k2
    generalize |binary32.toReal x * binary32.toReal s| = a1 at *
    generalize |binary32.toReal x * (binary32.toReal e * binary32.toReal e)| = a2 at *
    generalize binary32.toReal x * |binary32.toReal e * binary32.toReal e| = a3 at *
    generalize binary32.toReal x * |binary32.toReal s - binary32.toReal e * binary32.toReal e| = a4 at *
    norm_num at k1 k2 k3 k5 k6 ⊢
    linarith
  have hn : |binary32.toReal (binary32.negate x) * binary32.toReal s + binary32.toReal 0x3f800000#32| ≤ 3 := by
    rw [binary32.toReal_negate, toReal_one32', neg_mul]
    rw [abs_le] at hxs ⊢
    constructor <;> linarith
  obtain ⟨f3, v3⟩ := fma_near32 (x := binary32.negate x) (y := s) (z := 0x3f800000#32)
    (by unfold IsFin; rw [binary32.isFinite_negate]; exact h.x_fin) f1 (by decide) (hn.trans (by norm_num))
  generalize binary32.fma (binary32.negate x) s 0x3f800000#32 = n at *
  have hnb : |binary32.toReal n| ≤ 4 := by
    have := abs_add_le (binary32.toReal n - (binary32.toReal (binary32.negate x) * binary32.toReal s +
      binary32.toReal 0x3f800000#32)) (binary32.toReal (binary32.negate x) * binary32.toReal s +
      binary32.toReal 0x3f800000#32)
    rw [sub_add_cancel] at this
    generalize |binary32.toReal (binary32.negate x) * binary32.toReal s + binary32.toReal 0x3f800000#32| = q at *
    norm_num at hn v3 this ⊢
    linarith
  have hhb : |binary32.toReal hh| ≤ 2 ^ 51 := by
    have := abs_add_le (binary32.toReal hh - binary32.toReal e * binary32.toReal 0x3f000000#32)
      (binary32.toReal e * binary32.toReal 0x3f000000#32)
    rw [sub_add_cancel] at this
    generalize |binary32.toReal e * binary32.toReal 0x3f000000#32| = q at *
    norm_num at hEH v2 this ⊢
    linarith
  have hlast : |binary32.toReal n * binary32.toReal hh + binary32.toReal e| ≤ 2 ^ 127 := by
    have := abs_add_le (binary32.toReal n * binary32.toReal hh) (binary32.toReal e)
    rw [abs_mul] at this
    have := mul_le_mul hnb hhb (abs_nonneg _) (by norm_num)
    norm_num at *
    linarith
  obtain ⟨f4, v4⟩ := fma_near32 f3 f2 h.r_fin hlast
  refine ⟨f4, ?_⟩
  rw [toReal_half32'] at v2
  rw [binary32.toReal_negate, toReal_one32'] at v3
  conv at v3 => rw [← s3]
  exact root_step s1 s2 h.small h.res v1 v2 v3 v4

/-- A root as the product with an approximation of its reciprocal: rounded once. -/
theorem root_of_mul {x r : BitVec 32} {δ : ℝ} (hx : 1 / 2 ^ 100 ≤ binary32.toReal x)
    (hx2 : binary32.toReal x ≤ 2 ^ 100) (hδ : δ ≤ 1 / 32)
    (h : |1 - √(binary32.toReal x) * binary32.toReal r| ≤ δ) :
    |binary32.toReal x * binary32.toReal r| ≤ 2 ^ 127 := by
  obtain ⟨s1, s2, s3⟩ := root_range hx hx2
  have hS0 : 0 < √(binary32.toReal x) := lt_of_lt_of_le (by norm_num) s1
  have k : |√(binary32.toReal x) * binary32.toReal r| ≤ 2 := by
    rw [abs_le] at *
    norm_num at *
    constructor <;> linarith
  rw [show binary32.toReal x * binary32.toReal r =
    √(binary32.toReal x) * (√(binary32.toReal x) * binary32.toReal r) by rw [← mul_assoc, s3], abs_mul,
    abs_of_pos hS0]
  exact (mul_le_mul s2 k (abs_nonneg _) (by norm_num)).trans (by norm_num)

theorem neon_root {x r : BitVec 32} {ε : ℝ} (h : GoodRoot x r ε) :
    IsFin binary32 (binary32.mul x r) ∧
    |binary32.toReal (binary32.mul x r) - √(binary32.toReal x)| ≤ (ε + 1.1 / 2 ^ 24) * √(binary32.toReal x) := by
  obtain ⟨s1, s2, s3⟩ := root_range h.x_low h.x_high
  have hd : ε ≤ 1 / 32 := h.small.trans (by norm_num)
  obtain ⟨f, v⟩ := mul_near32 h.x_fin h.r_fin (root_of_mul h.x_low h.x_high hd h.res)
  exact ⟨f, root_product s1 hd h.res (by rw [s3]; exact v)⟩

theorem altivec_root {x r : BitVec 32} {δ : ℝ} (hx : IsFin binary32 x) (hr : IsFin binary32 r)
    (h1 : 1 / 2 ^ 100 ≤ binary32.toReal x) (h2 : binary32.toReal x ≤ 2 ^ 100) (hδ : δ ≤ 1 / 32)
    (h : |1 - √(binary32.toReal x) * binary32.toReal r| ≤ δ) :
    IsFin binary32 (binary32.fma x r 0#32) ∧
    |binary32.toReal (binary32.fma x r 0#32) - √(binary32.toReal x)| ≤ (δ + 1.1 / 2 ^ 24) * √(binary32.toReal x) := by
  obtain ⟨s1, s2, s3⟩ := root_range h1 h2
  obtain ⟨f, v⟩ := fma_zero_near32 hx hr (root_of_mul h1 h2 hδ h)
  exact ⟨f, root_product s1 hδ h (by rw [s3]; exact v)⟩

/-- The product differs from the root by almost as much as the estimate does. -/
theorem neon_root_lower {x r : BitVec 32} {ε : ℝ} (h : GoodRoot x r ε) :
    (|1 - √(binary32.toReal x) * binary32.toReal r| - 1.1 / 2 ^ 24) * √(binary32.toReal x) ≤
      |binary32.toReal (binary32.mul x r) - √(binary32.toReal x)| := by
  obtain ⟨s1, s2, s3⟩ := root_range h.x_low h.x_high
  have hS0 : 0 < √(binary32.toReal x) := lt_of_lt_of_le (by norm_num) s1
  have hd : ε ≤ 1 / 32 := h.small.trans (by norm_num)
  obtain ⟨f, v⟩ := mul_near32 h.x_fin h.r_fin (root_of_mul h.x_low h.x_high hd h.res)
  have hres := h.res
  generalize binary32.toReal (binary32.mul x r) = V at *
  conv at v => rw [← s3]
  generalize √(binary32.toReal x) = S at *
  generalize binary32.toReal r = R at *
  have e1 : S * S * R - S = -(1 - S * R) * S := by ring
  have k1 : |S * S * R - S| = |1 - S * R| * S := by rw [e1, abs_mul, abs_neg, abs_of_pos hS0]
  have k2 : |S * S * R| ≤ 1.04 * S := by
    have := abs_add_le (S * S * R - S) S
    rw [sub_add_cancel, abs_of_pos hS0, k1] at this
    have := mul_le_mul_of_nonneg_right (hres.trans hd) hS0.le
    norm_num at *
    linarith
  have k3 := abs_add_le (V - S) (-(V - S * S * R))
  rw [abs_neg, show V - S + -(V - S * S * R) = S * S * R - S by ring, k1] at k3
  rw [sub_mul]
  generalize |1 - S * R| * S = q at *
  generalize |S * S * R| = w at *
  norm_num at *
  linarith

end Nova
