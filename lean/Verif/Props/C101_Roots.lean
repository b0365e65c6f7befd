import Verif.Lemmas.RootFinal
import Verif.Lemmas.BasicFinal
import Verif.Props.C01_Elementwise
import Verif.SpecOps

/-!
# C101 Square roots from an estimate

`vec::sqrt` and `signed_sqrt` of NEON, and `vec::sqrt` of AltiVec, for any estimate instruction whose relative
error is at most `ε`.
-/

namespace Nova
open FP VecMath Spec

/-- AltiVec refines the estimate by one step: its error is squared. -/
theorem C101_altivec (P : Platform 32) (x : BitVec 32) (ε : ℝ) (h : GoodRoot x (P.rsqrt x) ε) :
    IsFin binary32 ((Build32.altivec.ops P).sqrt x) ∧
    |binary32.toReal ((Build32.altivec.ops P).sqrt x) - √(binary32.toReal x)| ≤
      (1.51 * ε ^ 2 + 3.1 / 2 ^ 24) * √(binary32.toReal x) := by
  rw [sqrt_altivec, litF_one, litF_half']
  obtain ⟨f, v⟩ := altivec_step h
  have hε0 : 0 ≤ ε := (abs_nonneg _).trans h.res
  have hδ : 1.51 * ε ^ 2 + 2 / 2 ^ 24 ≤ 1 / 32 := by
    have := pow_le_pow_left₀ hε0 h.small 2
    norm_num at *
    linarith
  have := altivec_root h.x_fin f h.x_low h.x_high hδ v
  refine ⟨this.1, this.2.trans (le_of_eq ?_)⟩
  ring

/-- With the documented estimate of AltiVec (2^-12) that is at most five halves of the unit in the last place. -/
theorem C101_altivec_documented (P : Platform 32) (x : BitVec 32) (h : GoodRoot x (P.rsqrt x) (1 / 2 ^ 12)) :
    |binary32.toReal ((Build32.altivec.ops P).sqrt x) - √(binary32.toReal x)| ≤ 5 / 2 ^ 24 * √(binary32.toReal x) :=
  (C101_altivec P x _ h).2.trans (mul_le_mul_of_nonneg_right (by norm_num) (Real.sqrt_nonneg _))

/-- NEON multiplies by the estimate itself: the root is as good as the estimate. -/
theorem C101_neon_partial (P : Platform 32) (x : BitVec 32) (ε : ℝ) (h : GoodRoot x (P.rsqrt x) ε) :
    IsFin binary32 ((Build32.neon.ops P).sqrt x) ∧
    |binary32.toReal ((Build32.neon.ops P).sqrt x) - √(binary32.toReal x)| ≤
      (ε + 1.1 / 2 ^ 24) * √(binary32.toReal x) := by
  rw [sqrt_neon]; exact neon_root h

/-- `signed_sqrt` of NEON keeps the sign and has the accuracy of the estimate. -/
theorem C101_neon_signed_partial (P : Platform 32) (x : BitVec 32) (ε : ℝ)
    (h : GoodRoot (binary32.fabs x) (P.rsqrt (binary32.fabs x)) ε) :
    IsFin binary32 ((Build32.neon.lane P).signedSqrt x) ∧
    binary32.neg ((Build32.neon.lane P).signedSqrt x) = binary32.neg x ∧
    |binary32.toReal ((Build32.neon.lane P).signedSqrt x) -
        sgn (binary32.toReal x) * √(|binary32.toReal x|)| ≤ (ε + 1.1 / 2 ^ 24) * √(|binary32.toReal x|) := by
  obtain ⟨f, v⟩ := C101_neon_partial P _ _ h
  obtain ⟨s1, -, -⟩ := root_range h.x_low h.x_high
  have hδ : ε + 1.1 / 2 ^ 24 ≤ 1 / 2 := by have := h.small; norm_num at *; linarith
  have hx0 := h.x_low
  rw [binary32.toReal_fabs] at v s1 hx0
  rw [signedSqrt_neon, ← signBit32, binary32.xor_sign]
  generalize (Build32.neon.ops P).sqrt (binary32.fabs x) = r at *
  have hS0 : 0 < √(|binary32.toReal x|) := lt_of_lt_of_le (by norm_num) s1
  have hpos : 0 < binary32.toReal r := by
    have := mul_le_mul_of_nonneg_right hδ hS0.le
    have := (abs_le.mp v).1
    linarith
  have hneg : binary32.neg r = false := by
    cases hc : binary32.neg r
    · rfl
    · exact absurd (binary32.toReal_nonpos hc) (not_le.mpr hpos)
  cases hc : binary32.neg x
  · have e : (x &&& binary32.signBit) ||| r = r :=
      binary32.ext (by rw [binary32.neg_or_sign, hc, hneg]; rfl) (by rw [binary32.code_or_sign])
    have hX : 0 < binary32.toReal x := by
      have := binary32.toReal_nonneg hc
      rw [abs_of_nonneg this] at hx0
      exact lt_of_lt_of_le (by norm_num) hx0
    rw [e]
    refine ⟨f, hneg, ?_⟩
    rw [sgn_of_pos hX, one_mul]
    exact v
  · have e : (x &&& binary32.signBit) ||| r = binary32.negate r :=
      binary32.ext (by rw [binary32.neg_or_sign, hc, binary32.neg_negate, hneg]; rfl)
        (by rw [binary32.code_or_sign, binary32.code_negate])
    have hX : binary32.toReal x < 0 := by
      have := binary32.toReal_nonpos hc
      rw [abs_of_nonpos this] at hx0
      have := lt_of_lt_of_le (by norm_num : (0 : ℝ) < 1 / 2 ^ 100) hx0
      linarith
    rw [e]
    refine ⟨by unfold IsFin; rw [binary32.isFinite_negate]; exact f, by rw [binary32.neg_negate, hneg]; rfl, ?_⟩
    rw [sgn_of_neg hX, binary32.toReal_negate, show -binary32.toReal r - -1 * √(|binary32.toReal x|) =
      -(binary32.toReal r - √(|binary32.toReal x|)) by ring, abs_neg]
    exact v

/-- No better: whatever error the estimate has beyond one rounding, the root has too. -/
theorem C101_negation_neon (P : Platform 32) (x : BitVec 32) (ε : ℝ) (h : GoodRoot x (P.rsqrt x) ε) :
    (|1 - √(binary32.toReal x) * binary32.toReal (P.rsqrt x)| - 1.1 / 2 ^ 24) * √(binary32.toReal x) ≤
      |binary32.toReal ((Build32.neon.ops P).sqrt x) - √(binary32.toReal x)| := by
  rw [sqrt_neon]; exact neon_root_lower h

/-- The other vector classes have a square root instruction. -/
theorem C101_exact (b : Build32) (hb : b.simdMath = true) (P : Platform 32) (x : BitVec 32) :
    (b.ops P).sqrt x = binary32.sqrt x := by
  cases b with
  | sse s f => rfl
  | avx f => rfl
  | _ => exact absurd hb (by decide)

/-- Where the estimate of zero is infinite, as both processor manuals say, the root of zero is a NaN. -/
theorem C101_negation_zero (b : Build32) (hb : b = .neon ∨ b = .altivec) (P : Platform 32)
    (h : P.rsqrt 0#32 = binary32.posInf) : binary32.isNaN ((b.ops P).sqrt 0#32) = true := by
  rcases hb with rfl | rfl
  · rw [sqrt_neon, h]; decide +kernel
  · rw [sqrt_altivec, h, litF_one, litF_half']; decide +kernel

/-- A whole call `signed_sqrt_vec_simd(out, in, n)` of NEON. -/
theorem C101_call_neon_partial (P : Platform 32) (ε : ℝ) {m : Mem (BitVec 32)} {out inp : Nat} {n : BitVec 32}
    {x : Nat → BitVec 32} (hn : 0 < n.toNat) (hmul : Build32.neon.target.perLine ∣ n.toNat)
    (hoal : Build32.neon.target.align ∣ out) (hial : Build32.neon.target.align ∣ inp)
    (hout : Allocated m out n.toNat) (hin : Holds m inp n.toNat x) (hs : SafePlacement out inp n.toNat)
    (hx : ∀ i, i < n.toNat → GoodRoot (binary32.fabs (x i)) (P.rsqrt (binary32.fabs (x i))) ε) :
    ∃ y : Nat → BitVec 32,
      performVecSimd1 (Build32.neon.vec P) (UnOp.signedSqrt.f (Build32.neon.lane P)) out inp n m =
        .ok ((), overwrite m out n.toNat y) ∧
      ∀ i, i < n.toNat → |binary32.toReal (y i) - sgn (binary32.toReal (x i)) * √(|binary32.toReal (x i)|)| ≤
        (ε + 1.1 / 2 ^ 24) * √(|binary32.toReal (x i)|) := by
  refine ⟨fun i => (Build32.neon.lane P).signedSqrt (x i), ?_, fun i h => (C101_neon_signed_partial P (x i) ε (hx i h)).2.2⟩
  have hp := processed_eq Build32.neon.target (Build32.neon.env P) hmul
  rw [← hp]
  apply performVecSimd1_spec (Build32.neon.target.lawful (Build32.neon.env P)) (x := x)
    (perLine_le Build32.neon.target (Build32.neon.env P) hn hmul) hoal <;> rw [hp]
  · exact hout
  · exact ⟨hial, hin, hs⟩
  · exact fun i _ => rfl

/-- A processor whose estimate of `1/√4` has the error which the manual of NEON allows, `2^-8`. -/
def roughEstimate : Platform 32 := { platform0 with rsqrt := fun _ => 0x3f008000#32 }

theorem roughEstimate_good : GoodRoot 0x40800000#32 (roughEstimate.rsqrt 0x40800000#32) (1 / 2 ^ 8) := by
  have h1 : binary32.toReal 0x40800000#32 = 4 := by
    rw [isVal_value (q := 4) (by decide +kernel)]; norm_num
  have h2 : binary32.toReal 0x3f008000#32 = 1 / 2 + 1 / 2 ^ 9 := by
    rw [isVal_value (q := 1 / 2 + 1 / 2 ^ 9) (by decide +kernel)]; norm_num
  have h3 : √(4 : ℝ) = 2 := by rw [show (4 : ℝ) = 2 ^ 2 by norm_num, Real.sqrt_sq (by norm_num)]
  refine ⟨by decide, by decide, ?_, ?_, by norm_num, ?_⟩
  · rw [h1]; norm_num
  · rw [h1]; norm_num
  · rw [h1, show roughEstimate.rsqrt 0x40800000#32 = 0x3f008000#32 from rfl, h2, h3]; norm_num

/-- There the square root of 4 is 2.0078125, and `signed_sqrt(-4)` is -2.0078125. -/
theorem C101_negation_witness :
    GoodRoot 0x40800000#32 (roughEstimate.rsqrt 0x40800000#32) (1 / 2 ^ 8) ∧
    (Build32.neon.ops roughEstimate).sqrt 0x40800000#32 = 0x40008000#32 ∧
    (Build32.neon.lane roughEstimate).signedSqrt 0xc0800000#32 = 0xc0008000#32 := by
  refine ⟨roughEstimate_good, ?_, ?_⟩
  · rw [sqrt_neon, show roughEstimate.rsqrt 0x40800000#32 = 0x3f008000#32 from rfl]; decide +kernel
  · rw [signedSqrt_neon, sqrt_neon, show ∀ y, roughEstimate.rsqrt y = 0x3f008000#32 from fun _ => rfl]; decide +kernel

/-- The estimate of `roughEstimate` meets the hypotheses above, also for `-4`. -/
example : GoodRoot 0x40800000#32 (roughEstimate.rsqrt 0x40800000#32) (1 / 2 ^ 8) ∧
    GoodRoot (binary32.fabs 0xc0800000#32) (roughEstimate.rsqrt (binary32.fabs 0xc0800000#32)) (1 / 2 ^ 8) := by
  rw [show binary32.fabs 0xc0800000#32 = 0x40800000#32 by decide]
  exact ⟨roughEstimate_good, roughEstimate_good⟩

/-- An estimate of 2^-12, as AltiVec documents. -/
example : GoodRoot 0x40800000#32 0x3f000800#32 (1 / 2 ^ 12) := by
  have h1 : binary32.toReal 0x40800000#32 = 4 := by
    rw [isVal_value (q := 4) (by decide +kernel)]; norm_num
  have h2 : binary32.toReal 0x3f000800#32 = 1 / 2 + 1 / 2 ^ 13 := by
    rw [isVal_value (q := 1 / 2 + 1 / 2 ^ 13) (by decide +kernel)]; norm_num
  have h3 : √(4 : ℝ) = 2 := by rw [show (4 : ℝ) = 2 ^ 2 by norm_num, Real.sqrt_sq (by norm_num)]
  refine ⟨by decide, by decide, ?_, ?_, by norm_num, ?_⟩
  · rw [h1]; norm_num
  · rw [h1]; norm_num
  · rw [h1, h2, h3]; norm_num

end Nova
