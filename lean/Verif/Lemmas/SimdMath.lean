import Verif.Lemmas.IeeeClass
import Verif.Lemmas.Witness
import Verif.Props.C44_Exponent

/-!
# Which template a build calls
-/

namespace Nova
open FP VecMath

section
attribute [local irreducible] litD litF Fmt.add Fmt.mul Fmt.div Fmt.sub Fmt.fma Fmt.ltb Fmt.leb Fmt.eqb
  Fmt.roundInt Fmt.toInt32 Fmt.ofInt32 Fmt.sqrt

/-- A build with the vector versions of the transcendental functions instantiates the templates with its class. -/
structure Build32.Templates (b : Build32) (P : Platform 32) (V : LaneOps 32) : Prop where
  ieee : V.Ieee
  x86 : IsX86Class V
  sin : (b.lane P).sin = vecSin V
  cos : (b.lane P).cos = vecCos V
  tan : (b.lane P).tan = vecTan V
  asin : (b.lane P).asin = vecAsin V
  acos : (b.lane P).acos = vecAcos V
  atan : (b.lane P).atan = vecAtan V
  tanh : (b.lane P).tanh = vecTanh V
  log : (b.lane P).log = vecLog V
  log2 : (b.lane P).log2 = vecLogBase V P.r2
  log10 : (b.lane P).log10 = vecLogBase V P.r10
  exp : (b.lane P).exp = vecExp V
  pow : (b.lane P).pow = vecPow V
  signedPow : (b.lane P).signedPow = vecSignedPow V

theorem Build32.templates (b : Build32) (hb : b.simdMath = true) (P : Platform 32) :
    b.Templates P (b.ops P) := by
  cases b with
  | sse s f =>
    have hf : f.sse2 = true := hb
    exact ⟨sse_ieee f P, .inl ⟨f, _, rfl⟩, by simp only [Build32.lane, Sse.arith, hf, if_true]; rfl,
      by simp only [Build32.lane, Sse.arith, hf, if_true]; rfl, by simp only [Build32.lane, Sse.arith, hf, if_true]; rfl,
      by simp only [Build32.lane, Sse.arith, hf, if_true]; rfl, by simp only [Build32.lane, Sse.arith, hf, if_true]; rfl,
      by simp only [Build32.lane, Sse.arith, hf, if_true]; rfl, by simp only [Build32.lane, Sse.arith, hf, if_true]; rfl,
      by simp only [Build32.lane, Sse.arith, hf, if_true]; rfl, by simp only [Build32.lane, Sse.arith, hf, if_true]; rfl,
      by simp only [Build32.lane, Sse.arith, hf, if_true]; rfl, by simp only [Build32.lane, Sse.arith, hf, if_true]; rfl,
      by simp only [Build32.lane, Sse.arith, hf, if_true]; rfl, by simp only [Build32.lane, Sse.arith, hf, if_true]; rfl⟩
  | avx f =>
    exact ⟨avx_ieee f P, .inr ⟨f, _, rfl⟩, rfl, rfl, rfl, rfl, rfl, rfl, rfl, rfl, rfl, rfl, rfl, rfl, rfl⟩
  | _ => exact absurd hb (by decide)

end

/-- Numbers of at least `2^-126` are normal. -/
theorem isNormal_of_value {x : BitVec 32} (hx : IsFin binary32 x) (h : 1 / 2 ^ 126 ≤ |binary32.toReal x|) :
    IsNormal x := by
  refine ⟨?_, hx⟩
  by_contra hc
  have hm : mag 23 (binary32.code x) < 2 ^ 23 := by
    rw [mag_small (by omega)]; omega
  rw [binary32.toReal_eq, abs_mul, show |(if binary32.neg x = true then -1 else 1 : ℝ)| = 1 by
    cases binary32.neg x <;> simp, one_mul, abs_of_nonneg (by positivity),
    show binary32.scale = 149 by decide, le_div_iff₀ (by positivity)] at h
  have h2 : (mag binary32.mb (binary32.code x) : ℝ) < 2 ^ 23 := by exact_mod_cast hm
  norm_num at h
  norm_num at h2
  linarith

/-- The value of a pattern without sign is not negative. -/
theorem toReal_nonneg {x : BitVec 32} (h : binary32.neg x = false) : 0 ≤ binary32.toReal x := by
  rw [binary32.toReal_eq, h]
  simp only [Bool.false_eq_true, if_false, one_mul]
  positivity

/-- The sign of a nonzero value. -/
theorem neg_of_toReal {x : BitVec 32} (h : 0 < binary32.toReal x) : binary32.neg x = false := by
  by_contra hc
  rw [Bool.not_eq_false] at hc
  rw [binary32.toReal_eq, hc] at h
  simp only [if_true] at h
  have : (0 : ℝ) ≤ (mag binary32.mb (binary32.code x) : ℝ) / 2 ^ binary32.scale := by positivity
  linarith

end Nova
