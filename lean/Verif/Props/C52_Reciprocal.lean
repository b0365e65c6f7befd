import Verif.Lemmas.Newton
import Verif.Lemmas.Witness
import Mathlib.Algebra.Order.Field.Basic

/-!
# C52 The Newton refined reciprocal

`C52_square` and `C52_below` are about exact arithmetic; `C52_reciprocal` is about the bit patterns
which the vector classes compute, for any estimate instruction whose residual `|1 - x*r|` is at most
`ε`: the result is finite and its residual is at most `ε² + 5/2^24`.
-/

namespace Nova
open FP VecMath

/-- The refinement in exact arithmetic: the code's `(1 - r*x)*r + r`. -/
theorem C52_square {R : Type} [CommRing R] (x r : R) :
    1 - x * ((1 - r * x) * r + r) = (1 - x * r) ^ 2 := by ring

/-- The refined reciprocal never exceeds the reciprocal. -/
theorem C52_below {K : Type} [Field K] [LinearOrder K] [IsStrictOrderedRing K] (x r : K) :
    x * ((1 - r * x) * r + r) ≤ 1 := by
  have h := C52_square x r
  have := sq_nonneg (1 - x * r)
  rw [← h] at this
  linarith

/-- The builds which compute the reciprocal from an estimate. -/
def Build32.refines : Build32 → Bool
  | .generic => false
  | _ => true

section
attribute [local irreducible] litD litF Fmt.add Fmt.mul Fmt.div Fmt.sub Fmt.fma Fmt.ltb Fmt.leb Fmt.eqb
  Fmt.roundInt Fmt.toInt32 Fmt.ofInt32 Fmt.sqrt Fmt.ofInt

theorem recip_sse (P : Platform 32) (s : Bool) (f : Sse.Flags) (x : BitVec 32) :
    ((Build32.sse s f).lane P).reciprocal x =
      (Sse.ops f (P.x86 binary32)).madd
        (binary32.sub (Sse.ops f (P.x86 binary32)).one (binary32.mul (P.rcp x) x)) (P.rcp x) (P.rcp x) := rfl

theorem recip_avx (P : Platform 32) (fma : Bool) (x : BitVec 32) :
    ((Build32.avx fma).lane P).reciprocal x =
      (AvxF.ops fma (P.x86 binary32)).madd
        (binary32.sub (AvxF.ops fma (P.x86 binary32)).one (binary32.mul (P.rcp x) x)) (P.rcp x) (P.rcp x) := rfl

theorem recip_neon (P : Platform 32) (x : BitVec 32) :
    (Build32.neon.lane P).reciprocal x =
      binary32.mul (P.rcp x) (binary32.sub (binary32.ofInt 2) (binary32.mul x (P.rcp x))) := rfl

theorem recip_altivec (P : Platform 32) (x : BitVec 32) :
    (Build32.altivec.lane P).reciprocal x =
      binary32.fma (binary32.fma (binary32.negate (P.rcp x)) x (litF 1)) (P.rcp x) (P.rcp x) := rfl

theorem madd_sse (P : Platform 32) (f : Sse.Flags) (a b c : BitVec 32) :
    (Sse.ops f (P.x86 binary32)).madd a b c =
      if f.fma then binary32.fma a b c else binary32.add (binary32.mul a b) c := rfl

theorem madd_avx (P : Platform 32) (fma : Bool) (a b c : BitVec 32) :
    (AvxF.ops fma (P.x86 binary32)).madd a b c =
      if fma then binary32.fma a b c else binary32.add (binary32.mul a b) c := rfl

theorem div_neon (P : Platform 32) (x y : BitVec 32) :
    (Build32.neon.lane P).div y x = binary32.mul y ((Build32.neon.lane P).reciprocal x) := rfl

theorem div_altivec (P : Platform 32) (x y : BitVec 32) :
    (Build32.altivec.lane P).div y x = binary32.fma y ((Build32.altivec.lane P).reciprocal x) 0#32 := rfl

end

theorem ofInt_two32 : binary32.ofInt 2 = 0x40000000#32 := by decide +kernel

/-- The reciprocal which a float vector class computes has residual at most `ε² + 5/2^24`, whenever the
estimate has residual `ε`, for every argument between `2^-100` and `2^100` in magnitude. -/
theorem C52_reciprocal (b : Build32) (hb : b.refines) (P : Platform 32) (x : BitVec 32) (ε : ℝ)
    (h : GoodEstimate x (P.rcp x) ε) :
    IsFin binary32 ((b.lane P).reciprocal x) ∧
    |1 - binary32.toReal x * binary32.toReal ((b.lane P).reciprocal x)| ≤ ε ^ 2 + 5 / 2 ^ 24 := by
  have weak : ∀ {r : BitVec 32}, (IsFin binary32 r ∧
      |1 - binary32.toReal x * binary32.toReal r| ≤ ε ^ 2 + 4 / 2 ^ 24) →
      IsFin binary32 r ∧ |1 - binary32.toReal x * binary32.toReal r| ≤ ε ^ 2 + 5 / 2 ^ 24 :=
    fun h => ⟨h.1, h.2.trans (by norm_num)⟩
  have hd := diff_two_steps h
  cases b with
  | generic => exact absurd hb (by decide)
  | sse s f =>
    rw [recip_sse, madd_sse, show (Sse.ops f (P.x86 binary32)).one = 0x3f800000#32 from sse_one f.sse2 P]
    by_cases hf : f.fma = true
    · rw [if_pos hf]; exact weak (newton_fma h hd.1 hd.2)
    · rw [if_neg hf]; exact weak (newton_mul_add h hd.1 hd.2)
  | avx fma =>
    rw [recip_avx, madd_avx, show (AvxF.ops fma (P.x86 binary32)).one = 0x3f800000#32 from litF_one]
    by_cases hf : fma = true
    · rw [if_pos hf]; exact weak (newton_fma h hd.1 hd.2)
    · rw [if_neg hf]; exact weak (newton_mul_add h hd.1 hd.2)
  | neon => rw [recip_neon, ofInt_two32]; exact newton_recps h
  | altivec =>
    rw [recip_altivec, litF_one]
    have hd := diff_one_step h
    exact weak (newton_fma h hd.1 hd.2)

/-- With an estimate as good as the one of `rcpps` (relative error below `1.5 * 2^-12`), the reciprocal of
x86 is within `2^-21` of the exact one. -/
theorem C52_x86 (b : Build32) (hb : b.refines) (P : Platform 32) (x : BitVec 32)
    (h : GoodEstimate x (P.rcp x) (3 / 2 ^ 13)) :
    |binary32.toReal ((b.lane P).reciprocal x) - 1 / binary32.toReal x| ≤
      1 / 2 ^ 21 * |1 / binary32.toReal x| := by
  obtain ⟨-, h1⟩ := C52_reciprocal b hb P x _ h
  have hx : binary32.toReal x ≠ 0 := by
    intro h0
    have := h.x_low
    rw [h0, abs_zero] at this
    norm_num at this
  generalize binary32.toReal ((b.lane P).reciprocal x) = Z at *
  generalize binary32.toReal x = X at *
  rw [show Z - 1 / X = -(1 - X * Z) * (1 / X) by field_simp; ring, abs_mul, abs_neg]
  refine mul_le_mul_of_nonneg_right (h1.trans (by norm_num)) (abs_nonneg _)

/-- The back ends without an estimate round the exact quotient. -/
theorem C52_generic (P : Platform 32) (x : BitVec 32) :
    (Build32.generic.lane P).reciprocal x = binary32.div (binary32.ofInt 1) x := rfl

/-- A platform whose estimate is the rounded quotient meets the hypothesis. -/
theorem estimate_of_div {x : BitVec 32} (hx : IsFin binary32 x)
    (h1 : 1 / 2 ^ 100 ≤ |binary32.toReal x|) (h2 : |binary32.toReal x| ≤ 2 ^ 100) :
    GoodEstimate x (binary32.div 0x3f800000#32 x) (3 / 2 ^ 13) := by
  have h0 : binary32.toReal x ≠ 0 := by
    intro h0; rw [h0, abs_zero] at h1; norm_num at h1
  have hb : |(1 : ℝ) / binary32.toReal x| ≤ 2 ^ 100 := by
    rw [abs_div, abs_one, div_le_iff₀ (abs_pos.mpr h0)]
    calc (1 : ℝ) = 2 ^ 100 * (1 / 2 ^ 100) := by norm_num
      _ ≤ _ := mul_le_mul_of_nonneg_left h1 (by positivity)
  have hd := Fmt.div_near (F := binary32) (x := 0x3f800000#32) (y := x) (by decide) hx h0
    (by rw [bias32, toReal_one32']; exact hb.trans (by norm_num))
  rw [toReal_one32'] at hd
  refine ⟨hx, hd.1, h1, h2, by norm_num, ?_⟩
  have e := near32 hd
  generalize binary32.toReal (binary32.div 0x3f800000#32 x) = R at *
  generalize binary32.toReal x = X at *
  rw [show 1 - X * R = -(X * (R - 1 / X)) by field_simp; ring, abs_neg, abs_mul]
  calc |X| * |R - 1 / X| ≤ |X| * (1 / 2 ^ 24 * |1 / X| + 1 / 2 ^ 150) :=
        mul_le_mul_of_nonneg_left e (abs_nonneg _)
    _ = 1 / 2 ^ 24 * (|X| * |1 / X|) + |X| * (1 / 2 ^ 150) := by ring
    _ = 1 / 2 ^ 24 + |X| * (1 / 2 ^ 150) := by
        rw [← abs_mul, mul_one_div_cancel h0, abs_one]; ring
    _ ≤ 1 / 2 ^ 24 + 2 ^ 100 * (1 / 2 ^ 150) := by
        have := mul_le_mul_of_nonneg_right h2 (by norm_num : (0 : ℝ) ≤ 1 / 2 ^ 150); linarith
    _ ≤ _ := by norm_num

/-- The hypotheses are met: argument 2, exact estimate. -/
example : GoodEstimate 0x40000000#32 ({ platform0 with rcp := binary32.div 0x3f800000#32 }.rcp 0x40000000#32)
    (3 / 2 ^ 13) :=
  estimate_of_div (by decide) (by rw [toReal_two32]; norm_num) (by rw [toReal_two32]; norm_num)

/-! ## Division on NEON and Altivec

These classes divide by multiplying with the refined reciprocal: the quotient is accurate, but it is not
the correctly rounded one which the scalar code computes. -/

theorem quotient_bound {X Y Z Q δ : ℝ} (hX : X ≠ 0) (hδ : δ ≤ 1 / 1024) (hz : |1 - X * Z| ≤ δ)
    (hq : |Q - Y * Z| ≤ 1 / 2 ^ 24 * |Y * Z| + 1 / 2 ^ 150) :
    |Q - Y / X| ≤ (δ + 2 / 2 ^ 24) * |Y / X| + 1 / 2 ^ 150 := by
  have h1 : |Y * Z - Y / X| ≤ δ * |Y / X| := by
    rw [show Y * Z - Y / X = -(1 - X * Z) * (Y / X) by field_simp; ring, abs_mul, abs_neg]
    exact mul_le_mul_of_nonneg_right hz (abs_nonneg _)
  have h2 : |Y * Z| ≤ 2 * |Y / X| := by
    have := abs_add_le (Y * Z - Y / X) (Y / X)
    rw [sub_add_cancel] at this
    have h3 := mul_le_mul_of_nonneg_right hδ (abs_nonneg (Y / X))
    linarith [abs_nonneg (Y / X)]
  have h4 := abs_add_le (Q - Y * Z) (Y * Z - Y / X)
  rw [show Q - Y * Z + (Y * Z - Y / X) = Q - Y / X by ring] at h4
  have h5 := mul_le_mul_of_nonneg_left h2 (by norm_num : (0 : ℝ) ≤ 1 / 2 ^ 24)
  have h6 : (δ + 2 / 2 ^ 24) * |Y / X| = δ * |Y / X| + 1 / 2 ^ 24 * (2 * |Y / X|) := by ring
  rw [h6]; linarith

/-- The quotient of NEON and Altivec, with an estimate of residual `ε`: relative error at most
`ε² + 7/2^24` (unless it underflows), for every dividend whose quotient does not overflow. -/
theorem C59_accuracy (b : Build32) (hb : b = .neon ∨ b = .altivec) (P : Platform 32) (x y : BitVec 32)
    (ε : ℝ) (h : GoodEstimate x (P.rcp x) ε) (hy : IsFin binary32 y)
    (hr : |binary32.toReal y / binary32.toReal x| ≤ 2 ^ 126) :
    IsFin binary32 ((b.lane P).div y x) ∧
    |binary32.toReal ((b.lane P).div y x) - binary32.toReal y / binary32.toReal x| ≤
      (ε ^ 2 + 7 / 2 ^ 24) * |binary32.toReal y / binary32.toReal x| + 1 / 2 ^ 150 := by
  obtain ⟨f1, h1⟩ := C52_reciprocal b (by rcases hb with rfl | rfl <;> rfl) P x _ h
  have hx : binary32.toReal x ≠ 0 := by
    intro h0
    have := h.x_low
    rw [h0, abs_zero] at this
    norm_num at this
  have hδ : ε ^ 2 + 5 / 2 ^ 24 ≤ 1 / 1024 := by
    have := pow_le_pow_left₀ ((abs_nonneg _).trans h.res) h.small 2
    norm_num at *; linarith
  have hyz : |binary32.toReal y * binary32.toReal ((b.lane P).reciprocal x)| ≤ 2 ^ 127 := by
    generalize binary32.toReal ((b.lane P).reciprocal x) = Z at *
    generalize binary32.toReal x = X at *
    generalize binary32.toReal y = Y at *
    rw [show Y * Z = (X * Z) * (Y / X) by field_simp, abs_mul]
    have h2 : |X * Z| ≤ 2 := by
      have := h1.trans hδ
      rw [abs_le] at this ⊢; constructor <;> linarith
    exact (mul_le_mul h2 hr (abs_nonneg _) (by norm_num)).trans (by norm_num)
  have key : ∀ q, (IsFin binary32 q ∧
      |binary32.toReal q - binary32.toReal y * binary32.toReal ((b.lane P).reciprocal x)| ≤
      1 / 2 ^ 24 * |binary32.toReal y * binary32.toReal ((b.lane P).reciprocal x)| + 1 / 2 ^ 150) →
      IsFin binary32 q ∧ |binary32.toReal q - binary32.toReal y / binary32.toReal x| ≤
      (ε ^ 2 + 7 / 2 ^ 24) * |binary32.toReal y / binary32.toReal x| + 1 / 2 ^ 150 := by
    rintro q ⟨f, hq⟩
    refine ⟨f, (quotient_bound hx hδ h1 hq).trans (le_of_eq ?_)⟩
    ring
  rcases hb with rfl | rfl
  · rw [div_neon]
    exact key _ (mul_near32 hy f1 hyz)
  · rw [div_altivec]
    apply key
    have z : binary32.toReal 0#32 = 0 := by
      rw [binary32.toReal_eq, show mag binary32.mb (binary32.code 0#32) = 0 by decide +kernel]; simp
    have := fma_near32 (x := y) (y := (Build32.altivec.lane P).reciprocal x) (z := 0#32) hy f1 (by decide)
      (by rw [z, add_zero]; exact hyz)
    rwa [z, add_zero] at this

/-- The platform whose estimate is the rounded quotient. -/
def exactEstimate : Platform 32 := { platform0 with rcp := binary32.div 0x3f800000#32 }

theorem exactEstimate_good {x : BitVec 32} (hx : IsFin binary32 x)
    (h1 : 1 / 2 ^ 100 ≤ |binary32.toReal x|) (h2 : |binary32.toReal x| ≤ 2 ^ 100) :
    GoodEstimate x (exactEstimate.rcp x) (3 / 2 ^ 13) := estimate_of_div hx h1 h2

theorem exactEstimate_rcp (x : BitVec 32) : exactEstimate.rcp x = binary32.div 0x3f800000#32 x := rfl

/-- Even with the best possible estimate the quotient differs from the quotient of the scalar code:
`5 / 3`. -/
theorem C59_negation (b : Build32) (hb : b = .neon ∨ b = .altivec) :
    (∀ x, IsFin binary32 x → 1 / 2 ^ 100 ≤ |binary32.toReal x| → |binary32.toReal x| ≤ 2 ^ 100 →
      GoodEstimate x (exactEstimate.rcp x) (3 / 2 ^ 13)) ∧
    (b.lane exactEstimate).div 0x40a00000#32 0x40400000#32 ≠
      binary32.div 0x40a00000#32 0x40400000#32 := by
  refine ⟨fun x hx h1 h2 => exactEstimate_good hx h1 h2, ?_⟩
  rcases hb with rfl | rfl
  · rw [div_neon, recip_neon, exactEstimate_rcp]; decide +kernel
  · rw [div_altivec, recip_altivec, exactEstimate_rcp, litF_one]; decide +kernel

/-- Every other build divides as the scalar code does. -/
theorem C59_exact (b : Build32) (hb : b ≠ .neon ∧ b ≠ .altivec) (P : Platform 32) (x y : BitVec 32) :
    (b.lane P).div y x = (Build32.scalar P).div y x := by
  cases b with
  | neon => exact absurd rfl hb.1
  | altivec => exact absurd rfl hb.2
  | _ => rfl

/-- The same for `double`. -/
theorem C59_double (b : Build64) (P : Platform 64) (x y : BitVec 64) :
    (b.lane P).div y x = (Build64.scalar P).div y x := by
  cases b <;> rfl

example : GoodEstimate 0x40400000#32 (exactEstimate.rcp 0x40400000#32) (3 / 2 ^ 13) ∧
    IsFin binary32 0x40a00000#32 := by
  have h : binary32.toReal 0x40400000#32 = 3 := by
    rw [binary32.toReal_eq, show binary32.neg 0x40400000#32 = false by decide,
      show mag binary32.mb (binary32.code 0x40400000#32) = 3 * 2 ^ 149 by decide +kernel,
      show binary32.scale = 149 by decide]
    norm_num
  exact ⟨exactEstimate_good (by decide) (by rw [h]; norm_num) (by rw [h]; norm_num), by decide⟩

end Nova
