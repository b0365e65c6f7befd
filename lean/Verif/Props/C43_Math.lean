import Verif.Lemmas.Witness
import Verif.Lemmas.Softclip
import Verif.Props.C01_Elementwise
import Verif.SpecFloat

/-!
# C43 signed_sqrt, C45 odd and even functions, C47 special cases, C48 softclip
-/

namespace Nova
open FP VecMath Spec

/-! ## C43 -/

/-- `signed_sqrt_vec_simd` and `signed_sqrt_vec` return the same pattern for every number: the square root
of the magnitude with the sign of the argument.  It is never a NaN. -/
theorem C43_signed_sqrt_float (b : Build32) (hb : b.exactSqrt = true) (P : Platform 32) (x : BitVec 32)
    (hx : Num binary32 x) :
    (b.lane P).signedSqrt x = (Build32.scalar P).signedSqrt x ∧
    Num binary32 ((b.lane P).signedSqrt x) ∧
    binary32.neg ((b.lane P).signedSqrt x) = binary32.neg x ∧
    binary32.fabs ((b.lane P).signedSqrt x) = binary32.sqrt (binary32.fabs x) := by
  have h1 := signedSqrt_lane32 b hb P hx
  have h2 : (Build32.scalar P).signedSqrt x = _ := signedSqrt_scalar binary32 hx
  have h := sqrt_nonneg binary32 (x := binary32.fabs x) (by simpa using hx) (by simp)
  have hc := binary32.code_lt (binary32.sqrt (binary32.fabs x))
  rw [h1, h2]
  unfold signedSqrtResult
  refine ⟨rfl, ?_, binary32.neg_pack _ hc, ?_⟩
  · unfold Num Fmt.isNaN; rw [binary32.code_pack _ hc]; exact h.2
  · apply binary32.ext
    · rw [binary32.neg_fabs, h.1]
    · rw [binary32.code_fabs, binary32.code_pack _ hc]

theorem C43_signed_sqrt_double (b : Build64) (P : Platform 64) (x : BitVec 64)
    (hx : Num binary64 x) :
    (b.lane P).signedSqrt x = (Build64.scalar P).signedSqrt x ∧
    Num binary64 ((b.lane P).signedSqrt x) ∧
    binary64.neg ((b.lane P).signedSqrt x) = binary64.neg x ∧
    binary64.fabs ((b.lane P).signedSqrt x) = binary64.sqrt (binary64.fabs x) := by
  have h1 := signedSqrt_lane64 b P hx
  have h2 : (Build64.scalar P).signedSqrt x = _ := signedSqrt_scalar binary64 hx
  have h := sqrt_nonneg binary64 (x := binary64.fabs x) (by simpa using hx) (by simp)
  have hc := binary64.code_lt (binary64.sqrt (binary64.fabs x))
  rw [h1, h2]
  unfold signedSqrtResult
  refine ⟨rfl, ?_, binary64.neg_pack _ hc, ?_⟩
  · unfold Num Fmt.isNaN; rw [binary64.code_pack _ hc]; exact h.2
  · apply binary64.ext
    · rw [binary64.neg_fabs, h.1]
    · rw [binary64.code_fabs, binary64.code_pack _ hc]

example : Num binary32 0xc0800000#32 ∧
    (Build32.scalar platform0).signedSqrt 0xc0800000#32 = 0xc0000000#32 := by decide +kernel

/-- NEON multiplies by a reciprocal square root estimate, which is infinite at zero (Arm ARM, FPRSqrtEstimate):
the square root of zero is a NaN there. -/
theorem C43_negation_neon (P : Platform 32) (h : P.rsqrt 0#32 = binary32.posInf) :
    Num binary32 0#32 ∧ ¬ Num binary32 (((Build32.neon).lane P).signedSqrt 0#32) ∧
    Num binary32 ((Build32.scalar P).signedSqrt 0#32) := by
  refine ⟨by decide, ?_, ?_⟩
  · have e : ((Build32.neon).lane P).signedSqrt 0#32 =
        (0#32 &&& 0x80000000#32) ||| binary32.mul (0#32 ^^^ (0#32 &&& 0x80000000#32))
          (P.rsqrt (0#32 ^^^ (0#32 &&& 0x80000000#32))) := rfl
    rw [e]
    have e2 : (0#32 ^^^ (0#32 &&& 0x80000000#32)) = 0#32 := by decide
    rw [e2, h]; decide +kernel
  · exact (C43_signed_sqrt_float .generic rfl P 0#32 (by decide)).2.1

/-! ## C45 -/

/-- `sin(-x)` is `-sin(x)`, bit for bit and for every pattern. -/
theorem C45_sin_odd (b : Build32) (hb : b.simdMath = true) (P : Platform 32) (x : BitVec 32) :
    (b.lane P).sin (x ^^^ 0x80000000#32) = (b.lane P).sin x ^^^ 0x80000000#32 := by
  cases b with
  | sse s f =>
    have hf : f.sse2 = true := hb
    simp only [Build32.lane, Sse.arith, hf, if_true]
    exact vecSin_flip (sse_masks f _ (x86_compare P).zero) x
  | avx f => exact vecSin_flip (avx_masks f _) x
  | _ => exact absurd hb (by decide)

theorem C45_tan_odd (b : Build32) (hb : b.simdMath = true) (P : Platform 32) (x : BitVec 32) :
    (b.lane P).tan (x ^^^ 0x80000000#32) = (b.lane P).tan x ^^^ 0x80000000#32 := by
  cases b with
  | sse s f =>
    have hf : f.sse2 = true := hb
    simp only [Build32.lane, Sse.arith, hf, if_true]
    exact vecTan_flip (sse_masks f _ (x86_compare P).zero) x
  | avx f => exact vecTan_flip (avx_masks f _) x
  | _ => exact absurd hb (by decide)

theorem C45_atan_odd (b : Build32) (hb : b.simdMath = true) (P : Platform 32) (x : BitVec 32) :
    (b.lane P).atan (x ^^^ 0x80000000#32) = (b.lane P).atan x ^^^ 0x80000000#32 := by
  cases b with
  | sse s f =>
    have hf : f.sse2 = true := hb
    simp only [Build32.lane, Sse.arith, hf, if_true]
    exact vecAtan_flip (sse_masks f _ (x86_compare P).zero) x
  | avx f => exact vecAtan_flip (avx_masks f _) x
  | _ => exact absurd hb (by decide)

theorem C45_cos_even (b : Build32) (hb : b.simdMath = true) (P : Platform 32) (x : BitVec 32) :
    (b.lane P).cos (x ^^^ 0x80000000#32) = (b.lane P).cos x := by
  cases b with
  | sse s f =>
    have hf : f.sse2 = true := hb
    simp only [Build32.lane, Sse.arith, hf, if_true]
    exact vecCos_flip (sse_masks f _ (x86_compare P).zero) x
  | avx f => exact vecCos_flip (avx_masks f _) x
  | _ => exact absurd hb (by decide)

/-- The same whatever the arithmetic instructions do: in any rounding mode, with any treatment of NaN,
with or without flushing of denormals.  Only the comparison of zero with itself, from which the SSE class
makes its masks, must be true. -/
theorem C45_any_hardware (f : Sse.Flags) (hf : f.sse2 = true) (fma : Bool) (hw : Hw 32)
    (h0 : hw.eq 0#32 0#32 = true) (r2 r10 : BitVec 32) (S : Arith (BitVec 32)) (x : BitVec 32) :
    (let A := Sse.arith f hw r2 r10 S
     A.sin (x ^^^ 0x80000000#32) = A.sin x ^^^ 0x80000000#32 ∧
     A.tan (x ^^^ 0x80000000#32) = A.tan x ^^^ 0x80000000#32 ∧
     A.atan (x ^^^ 0x80000000#32) = A.atan x ^^^ 0x80000000#32 ∧
     A.cos (x ^^^ 0x80000000#32) = A.cos x) ∧
    (let A := AvxF.arith fma hw r2 r10 S
     A.sin (x ^^^ 0x80000000#32) = A.sin x ^^^ 0x80000000#32 ∧
     A.tan (x ^^^ 0x80000000#32) = A.tan x ^^^ 0x80000000#32 ∧
     A.atan (x ^^^ 0x80000000#32) = A.atan x ^^^ 0x80000000#32 ∧
     A.cos (x ^^^ 0x80000000#32) = A.cos x) := by
  have m := sse_masks f hw h0
  have m' := avx_masks fma hw
  constructor
  · simp only [Sse.arith, hf, if_true]
    exact ⟨vecSin_flip m x, vecTan_flip m x, vecAtan_flip m x, vecCos_flip m x⟩
  · exact ⟨vecSin_flip m' x, vecTan_flip m' x, vecAtan_flip m' x, vecCos_flip m' x⟩

example : (Build32.avx true).simdMath = true ∧ (Build32.sse true ⟨true, false, false⟩).simdMath = true ∧
    (platform0.x86 binary32).eq 0#32 0#32 = true := by decide +kernel

/-- tanh is not odd bit for bit: `tanh(-0)` is `+0`. -/
theorem C45_negation_tanh (P : Platform 32) :
    ((Build32.avx true).lane P).tanh 0x80000000#32 = 0#32 ∧
    ((Build32.avx true).lane P).tanh 0#32 = 0#32 ∧
    ((Build32.sse true ⟨true, true, false⟩).lane P).tanh 0x80000000#32 = 0#32 := by
  simp only [Build32.lane, Sse.arith, AvxF.arith, if_true]
  rw [avx_tanh0 true P 0x80000000#32, avx_tanh0 true P 0#32, sse_tanh0]
  decide +kernel

/-! ## C47 -/

/-- `asin` and `acos` return +0 outside their domain. -/
theorem C47_asin_acos (b : Build32) (hb : b.simdMath = true) (P : Platform 32) (x : BitVec 32)
    (hx : Num binary32 x) (hr : 1 < binary32.toEReal x ∨ binary32.toEReal x < -1) :
    (b.lane P).asin x = 0#32 ∧ (b.lane P).acos x = 0#32 := by
  have h := one_lt_fabs.mpr ⟨hx, hr⟩
  cases b with
  | sse s f =>
    have hf : f.sse2 = true := hb
    simp only [Build32.lane, Sse.arith, hf, if_true]
    have hc := sse_compares f _ (x86_compare P)
    exact ⟨vecAsin_outside hc h, vecAcos_outside hc h⟩
  | avx f =>
    have hc := avx_compares f _ (x86_compare P)
    exact ⟨vecAsin_outside hc h, vecAcos_outside hc h⟩
  | _ => exact absurd hb (by decide)

/-- `pow` of a zero is +0, whatever the exponent (also 0, a negative number or a NaN). -/
theorem C47_pow_zero (b : Build32) (hb : b.simdMath = true) (P : Platform 32) (x y : BitVec 32)
    (hx : x = 0#32 ∨ x = 0x80000000#32) : (b.lane P).pow x y = 0#32 := by
  have h : binary32.code x = 0 := by rcases hx with rfl | rfl <;> decide
  cases b with
  | sse s f =>
    have hf : f.sse2 = true := hb
    simp only [Build32.lane, Sse.arith, hf, if_true]
    exact vecPow_zero (sse_compares f _ (x86_compare P)) h y
  | avx f => exact vecPow_zero (avx_compares f _ (x86_compare P)) h y
  | _ => exact absurd hb (by decide)

/-- The signed power of a zero is that zero. -/
theorem C47_signed_pow_zero (b : Build32) (hb : b.simdMath = true) (P : Platform 32) (x y : BitVec 32)
    (hx : x = 0#32 ∨ x = 0x80000000#32) : (b.lane P).signedPow x y = x := by
  have h : binary32.code x = 0 := by rcases hx with rfl | rfl <;> decide
  cases b with
  | sse s f =>
    have hf : f.sse2 = true := hb
    simp only [Build32.lane, Sse.arith, hf, if_true]
    exact vecSignedPow_zero (sse_compares f _ (x86_compare P)) h y
  | avx f => exact vecSignedPow_zero (avx_compares f _ (x86_compare P)) h y
  | _ => exact absurd hb (by decide)

/-- The same on any hardware whose comparisons conform to IEEE 754. -/
theorem C47_any_hardware (f : Sse.Flags) (hf : f.sse2 = true) (fma : Bool) (hw : Hw 32)
    (hc : hw.IeeeCompare) (r2 r10 : BitVec 32) (S : Arith (BitVec 32)) (x y : BitVec 32) :
    (let A := Sse.arith f hw r2 r10 S
     (Num binary32 x → (1 < binary32.toEReal x ∨ binary32.toEReal x < -1) →
       A.asin x = 0#32 ∧ A.acos x = 0#32) ∧
     ((x = 0#32 ∨ x = 0x80000000#32) → A.pow x y = 0#32 ∧ A.signedPow x y = x)) ∧
    (let A := AvxF.arith fma hw r2 r10 S
     (Num binary32 x → (1 < binary32.toEReal x ∨ binary32.toEReal x < -1) →
       A.asin x = 0#32 ∧ A.acos x = 0#32) ∧
     ((x = 0#32 ∨ x = 0x80000000#32) → A.pow x y = 0#32 ∧ A.signedPow x y = x)) := by
  have m := sse_compares f hw hc
  have m' := avx_compares fma hw hc
  have hz : (x = 0#32 ∨ x = 0x80000000#32) → binary32.code x = 0 := by
    rintro (rfl | rfl) <;> decide
  constructor
  · simp only [Sse.arith, hf, if_true]
    exact ⟨fun hx hr => ⟨vecAsin_outside m (one_lt_fabs.mpr ⟨hx, hr⟩),
        vecAcos_outside m (one_lt_fabs.mpr ⟨hx, hr⟩)⟩,
      fun h => ⟨vecPow_zero m (hz h) y, vecSignedPow_zero m (hz h) y⟩⟩
  · exact ⟨fun hx hr => ⟨vecAsin_outside m' (one_lt_fabs.mpr ⟨hx, hr⟩),
        vecAcos_outside m' (one_lt_fabs.mpr ⟨hx, hr⟩)⟩,
      fun h => ⟨vecPow_zero m' (hz h) y, vecSignedPow_zero m' (hz h) y⟩⟩

example : Num binary32 0x40000000#32 ∧
    (1 < binary32.toEReal 0x40000000#32 ∨ binary32.toEReal 0x40000000#32 < -1) :=
  one_lt_fabs.mp (by decide +kernel)

/-- The scalar version does not keep the sign of zero: if the C library has `pow(x, 0) = 1` (C99 F.10.4.4),
`signed_pow(0, 0)` is -1 in `signed_pow_vec` and 0 in `signed_pow_vec_simd`. -/
theorem C47_negation_signed_pow (b : Build32) (hb : b.simdMath = true) (P : Platform 32)
    (hM : ∀ x, P.M.pow x 0#32 = 0x3f800000#32) :
    (Build32.scalar P).signedPow 0#32 0#32 = 0xbf800000#32 ∧ (b.lane P).signedPow 0#32 0#32 = 0#32 ∧
    (Build32.scalar P).pow 0#32 0#32 = 0x3f800000#32 ∧ (b.lane P).pow 0#32 0#32 = 0#32 := by
  refine ⟨?_, C47_signed_pow_zero b hb P _ _ (.inl rfl), hM _, C47_pow_zero b hb P _ _ (.inl rfl)⟩
  change Scalar.signedPow binary32 P.M.pow 0#32 0#32 = _
  have h : binary32.ltb binary32.posZero 0#32 = false := by decide
  unfold Scalar.signedPow
  rw [h, if_neg (by decide), hM]; decide

/-! ## C48 -/

/-- `softclip_vec_simd` returns the same pattern as `softclip_vec` for every input. -/
theorem C48_softclip_float (b : Build32) (P : Platform 32) (x : BitVec 32) :
    (b.lane P).softclip x = (Build32.scalar P).softclip x := softclip_lane32 b P x

theorem C48_softclip_double (b : Build64) (P : Platform 64) (x : BitVec 64) :
    (b.lane P).softclip x = (Build64.scalar P).softclip x := softclip_lane64 b P x

/-- For every finite argument softclip is odd bit for bit, and its result is a number between -1 and 1. -/
theorem C48_softclip_finite_float (b : Build32) (P : Platform 32) (x : BitVec 32) (hx : IsFin binary32 x) :
    (b.lane P).softclip (x ^^^ 0x80000000#32) = (b.lane P).softclip x ^^^ 0x80000000#32 ∧
    Num binary32 ((b.lane P).softclip x) ∧
    -1 ≤ binary32.toEReal ((b.lane P).softclip x) ∧ binary32.toEReal ((b.lane P).softclip x) ≤ 1 := by
  rw [softclip_lane32, softclip_lane32, ← negate32, ← negate32]
  have h1 : binary32.toEReal 0x3f800000#32 = 1 := toEReal_one32
  have h := softclip_finite binary32 hx (c := 0x3f800000#32) (by decide +kernel) (by decide)
    softConsts32 (by decide +kernel)
  refine ⟨softclip_negate binary32 hx softConsts32, h.1, ?_⟩
  rw [← h1]
  exact h.2

theorem C48_softclip_finite_double (b : Build64) (P : Platform 64) (x : BitVec 64) (hx : IsFin binary64 x) :
    (b.lane P).softclip (x ^^^ 0x8000000000000000#64) = (b.lane P).softclip x ^^^ 0x8000000000000000#64 ∧
    Num binary64 ((b.lane P).softclip x) ∧
    -1 ≤ binary64.toEReal ((b.lane P).softclip x) ∧ binary64.toEReal ((b.lane P).softclip x) ≤ 1 := by
  rw [softclip_lane64, softclip_lane64, ← negate64, ← negate64]
  have h1 : binary64.toEReal 0x3ff0000000000000#64 = 1 := toEReal_one64
  have h := softclip_finite binary64 hx (c := 0x3ff0000000000000#64) (by decide +kernel) (by decide)
    softConsts64 (by decide +kernel)
  refine ⟨softclip_negate binary64 hx softConsts64, h.1, ?_⟩
  rw [← h1]
  exact h.2

/-- An infinite argument gives a NaN (infinity over infinity), in every version. -/
theorem C48_softclip_inf (b : Build32) (P : Platform 32) :
    ¬ Num binary32 ((b.lane P).softclip 0x7f800000#32) ∧
    ¬ Num binary32 ((b.lane P).softclip 0xff800000#32) := by
  rw [softclip_lane32, softclip_lane32]; decide +kernel

/-- Over the reals softclip is odd, strictly increasing, continuous and bounded by 1; it is the identity for
small arguments. -/
theorem C48_softclip_real (A : Arith ℝ) (hA : A.Real) :
    (∀ x, A.softclip (-x) = -A.softclip x) ∧ StrictMono A.softclip ∧ Continuous A.softclip ∧
    (∀ x, |A.softclip x| < 1) ∧ (∀ x, |x| < 0.5 → A.softclip x = x) := by
  have e : A.softclip = realSoftclip := by
    funext x; rw [hA.softclip]; rfl
  rw [e]
  exact ⟨realSoftclip_odd, realSoftclip_strictMono, realSoftclip_continuous, realSoftclip_bound,
    fun x hx => by unfold realSoftclip; rw [if_pos hx]⟩

example : IsFin binary32 0xc2c80000#32 ∧ realArith.Real := ⟨by decide, realArith_real⟩

end Nova
