import Verif.Lemmas.TrigNumbers
import Verif.Props.C52_Reciprocal
import Verif.Props.C98_Numbers

/-!
# C98: reciprocals and quotients from estimates

`C98_reciprocal_partial`: whatever finite estimate the instruction returns, one Newton step gives a number; so does the quotient
of NEON and Altivec unless the dividend is zero (`C98_quotient_partial`).  An infinite estimate, which `rcpps` gives for
subnormal arguments, makes the reciprocal of x86 and Altivec a NaN (`C98_negation_reciprocal`).
-/

namespace Nova
open FP VecMath Spec

section
variable {w : Nat} {F : Fmt w}

/-- A fused multiplication and addition of finite numbers and a number. -/
theorem num_fma_of {x y z : BitVec w} (hx : Num F x) (hy : IsFin F y) (hz : IsFin F z) (h : F.toReal y = 0 → IsFin F x) :
    Num F (F.fma x y z) := by
  rcases fin_or_inf hx with f | i
  · exact num_fma f hy hz
  · have y0 : F.isZero y = false := by
      by_contra hc
      have hc : F.code y = 0 := by simpa [Fmt.isZero] using hc
      have : F.toReal y = 0 := by rw [F.toReal_eq, hc, mag_zero]; simp
      have f := h this
      rw [F.isFinite_not_inf f] at i
      exact Bool.false_ne_true i
    have x0 : F.isZero x = false := by
      have := code_inf i
      simpa [Fmt.isZero] using this
    unfold Num Fmt.fma
    unfold Num at hx
    rw [hx, F.isFinite_not_nan hy, F.isFinite_not_nan hz, i, F.isFinite_not_inf hz, x0, y0]
    exact (Fmt.IsRndE.inf _).1

end

section
attribute [local irreducible] litD litF Fmt.add Fmt.mul Fmt.div Fmt.sub Fmt.fma Fmt.ltb Fmt.leb Fmt.eqb
  Fmt.roundInt Fmt.toInt32 Fmt.ofInt32 Fmt.sqrt

theorem within_one : Within 0x3f800000#32 0x3f800000#32 := ⟨c1.1, by rw [c1.2]; norm_num⟩

/-- `1 - r * x` with two roundings. -/
theorem residual_num {r x : BitVec 32} (hr : IsFin binary32 r) (hx : IsFin binary32 x) :
    Num binary32 (binary32.sub 0x3f800000#32 (binary32.mul r x)) ∧
    (binary32.toReal r = 0 → IsFin binary32 (binary32.sub 0x3f800000#32 (binary32.mul r x))) := by
  refine ⟨num_sub_fin (num_of_fin c1.1) (num_mul hr hx) (.inl c1.1), fun h0 => ?_⟩
  have p : Within 0#32 (binary32.mul r x) := bound_of_rnd (Fmt.mul_rounds hr hx) (by decide) (by rw [h0, zero32_val]; simp)
  exact (within_sub c1.1 within_one p (by rw [zero32_val, add_zero])).1

/-- `1 - r * x` with one rounding. -/
theorem residual_fma {r x : BitVec 32} (hr : IsFin binary32 r) (hx : IsFin binary32 x) :
    Num binary32 (binary32.fma (binary32.negate r) x 0x3f800000#32) ∧
    (binary32.toReal r = 0 → IsFin binary32 (binary32.fma (binary32.negate r) x 0x3f800000#32)) := by
  have hn : IsFin binary32 (binary32.negate r) := by unfold IsFin; rw [binary32.isFinite_negate]; exact hr
  refine ⟨num_fma hn hx c1.1, fun h0 => ?_⟩
  exact (bound_of_rnd (Fmt.fma_rounds hn hx c1.1) c1.1 (by rw [binary32.toReal_negate, h0, c1.2]; norm_num)).1

/-- The reciprocal that a class computes from a finite estimate is a number. -/
theorem C98_reciprocal_partial (b : Build32) (hb : b.refines = true) (P : Platform 32) {x : BitVec 32} (hx : IsFin binary32 x)
    (hr : IsFin binary32 (P.rcp x)) : Num binary32 ((b.lane P).reciprocal x) := by
  have d := residual_num hr hx
  have nr := num_of_fin hr
  cases b with
  | generic => exact absurd hb (by decide)
  | sse s f =>
    rw [recip_sse, madd_sse, show (Sse.ops f (P.x86 binary32)).one = 0x3f800000#32 from sse_one f.sse2 P]
    by_cases hf : f.fma = true
    · rw [if_pos hf]; exact num_fma_of d.1 hr hr d.2
    · rw [if_neg hf]; exact num_add (num_mul_of d.1 hr d.2) nr (.inr hr)
  | avx f =>
    rw [recip_avx, madd_avx, show (AvxF.ops f (P.x86 binary32)).one = 0x3f800000#32 from litF_one]
    by_cases hf : f = true
    · rw [if_pos hf]; exact num_fma_of d.1 hr hr d.2
    · rw [if_neg hf]; exact num_add (num_mul_of d.1 hr d.2) nr (.inr hr)
  | neon =>
    rw [recip_neon, ofInt_two32]
    have n := num_sub_fin (num_of_fin c2.1) (num_mul hx hr) (.inl c2.1)
    have f0 : binary32.toReal (P.rcp x) = 0 → IsFin binary32 (binary32.sub 0x40000000#32 (binary32.mul x (P.rcp x))) := fun h0 =>
      (within_sub c2.1 ⟨c2.1, by rw [c2.2]; norm_num⟩ (zero_mul_within hx hr h0) (by rw [zero32_val, add_zero])).1
    refine mul_ok nr n ?_
    rcases fin_or_inf n with f | i
    · exact .inl ⟨hr, f⟩
    · refine .inr ⟨code_of_real fun h0 => ?_, code_inf i⟩
      rw [binary32.isFinite_not_inf (f0 h0)] at i
      exact Bool.false_ne_true i
  | altivec =>
    rw [recip_altivec, litF_one]
    have d := residual_fma hr hx
    exact num_fma_of d.1 hr hr d.2

/-- The quotient that NEON and Altivec compute from a finite estimate. -/
theorem C98_quotient_partial (b : Build32) (hb : b = .neon ∨ b = .altivec) (P : Platform 32) {x y : BitVec 32}
    (hx : IsFin binary32 x) (hr : IsFin binary32 (P.rcp x)) (hy : IsFin binary32 y) (h0 : binary32.toReal y ≠ 0) :
    Num binary32 ((b.lane P).div y x) := by
  have n := C98_reciprocal_partial b (by rcases hb with rfl | rfl <;> rfl) P hx hr
  have key : (IsFin binary32 y ∧ IsFin binary32 ((b.lane P).reciprocal x)) ∨
      (binary32.code y ≠ 0 ∧ binary32.code ((b.lane P).reciprocal x) ≠ 0) := by
    rcases fin_or_inf n with f | i
    · exact .inl ⟨hy, f⟩
    · exact .inr ⟨code_of_real h0, code_inf i⟩
  rcases hb with rfl | rfl
  · rw [div_neon]; exact mul_ok (num_of_fin hy) n key
  · rw [div_altivec]; exact fma_ok (num_of_fin hy) n key

/-- An infinite estimate (`rcpps` takes subnormal numbers for zeros): the reciprocal is a NaN. -/
theorem C98_negation_reciprocal (b : Build32) (hb : b.refines = true) (hn : b ≠ .neon) (P : Platform 32) {x : BitVec 32}
    (hx : IsFin binary32 x) (h0 : 0 < binary32.toReal x) (hr : P.rcp x = 0x7f800000#32) :
    ¬ Num binary32 ((b.lane P).reciprocal x) := by
  have z : binary32.isZero x = false := by
    have := code_of_real h0.ne'
    simpa [Fmt.isZero] using this
  have nx := neg_of_toReal h0
  have e1 : binary32.mul 0x7f800000#32 x = 0x7f800000#32 := by
    unfold Fmt.mul
    rw [binary32.isFinite_not_nan hx, binary32.isFinite_not_inf hx, z, nx,
      show binary32.isNaN 0x7f800000#32 = false by decide, show binary32.isInf 0x7f800000#32 = true by decide,
      show binary32.isZero 0x7f800000#32 = false by decide]
    rfl
  have e2 : binary32.fma 0xff800000#32 x 0x3f800000#32 = 0xff800000#32 := by
    unfold Fmt.fma
    rw [binary32.isFinite_not_nan hx, binary32.isFinite_not_inf hx, z, nx,
      show binary32.isNaN 0xff800000#32 = false by decide, show binary32.isInf 0xff800000#32 = true by decide,
      show binary32.isZero 0xff800000#32 = false by decide, show binary32.isNaN 0x3f800000#32 = false by decide,
      show binary32.isInf 0x3f800000#32 = false by decide]
    rfl
  cases b with
  | generic => exact absurd hb (by decide)
  | neon => exact absurd rfl hn
  | sse s f =>
    rw [recip_sse, madd_sse, show (Sse.ops f (P.x86 binary32)).one = 0x3f800000#32 from sse_one f.sse2 P, hr, e1]
    cases f.fma <;> decide +kernel
  | avx f =>
    rw [recip_avx, madd_avx, show (AvxF.ops f (P.x86 binary32)).one = 0x3f800000#32 from litF_one, hr, e1]
    cases f <;> decide +kernel
  | altivec =>
    rw [recip_altivec, litF_one, hr, show binary32.negate 0x7f800000#32 = 0xff800000#32 by decide, e2]
    decide +kernel

end

/-! ## The hypotheses can be met -/

/-- A platform whose estimate takes subnormal numbers for zeros. -/
def coarseEstimate : Platform 32 :=
  { platform0 with rcp := fun x => if binary32.code x < 0x800000 then 0x7f800000#32 else binary32.div 0x3f800000#32 x }

/-- `2^-127`, whose reciprocal `2^127` is a `float`. -/
example : IsFin binary32 0x00400000#32 ∧ coarseEstimate.rcp 0x00400000#32 = 0x7f800000#32 ∧
    (Build32.scalar coarseEstimate).reciprocal 0x00400000#32 = 0x7f000000#32 ∧
    ¬ Num binary32 (((Build32.avx true).lane coarseEstimate).reciprocal 0x00400000#32) := by
  refine ⟨by decide, by decide, by decide +kernel, ?_⟩
  refine C98_negation_reciprocal (.avx true) rfl (by decide) coarseEstimate (by decide) ?_ (by decide)
  have := (val32 (x := 0x00400000#32) (1 / 2 ^ 127) (by decide +kernel)).2
  rw [this]; norm_num

example : IsFin binary32 (coarseEstimate.rcp 0x40400000#32) ∧ Build32.refines .neon = true := by decide +kernel

end Nova
