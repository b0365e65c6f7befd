import Verif.Lemmas.BitLanes

/-!
# C33 absolute value, C34 constants, C35 relational operators, C36 select, C39 sign, C40 undenormalize

At the level of bit patterns, for every build and every pattern.
-/

namespace Nova
open FP VecMath

/-! ## C33 -/

/-- `abs` clears bit 31 and keeps all others, for all 2^32 patterns, in every `float` build; the
scalar function does the same. -/
theorem C33_abs_float (b : Build32) (P : Platform 32) (x : BitVec 32) :
    ((b.lane P).abs x).toNat = x.toNat % 2 ^ 31 ∧
      (b.lane P).abs x = (Build32.scalar P).abs x := by
  rw [abs_lane32]; exact ⟨fabs_toNat binary32 x, rfl⟩

/-- The same for `double`. -/
theorem C33_abs_double (b : Build64) (P : Platform 64) (x : BitVec 64) :
    ((b.lane P).abs x).toNat = x.toNat % 2 ^ 63 ∧
      (b.lane P).abs x = (Build64.scalar P).abs x := by
  rw [abs_lane64]; exact ⟨fabs_toNat binary64 x, rfl⟩

/-- On finite numbers `abs` is the magnitude, infinities become +∞, a NaN stays a NaN. -/
theorem C33_abs_value_float (b : Build32) (P : Platform 32) (x : BitVec 32) :
    (IsFin binary32 x → binary32.toReal ((b.lane P).abs x) = |binary32.toReal x|) ∧
    (binary32.isInf x = true → binary32.toEReal ((b.lane P).abs x) = ⊤) ∧
    (binary32.isNaN ((b.lane P).abs x) = binary32.isNaN x) := by
  rw [abs_lane32]
  refine ⟨fun _ => binary32.toReal_fabs x, fun h => ?_, binary32.isNaN_fabs x⟩
  simp [Fmt.toEReal, h]

theorem C33_abs_value_double (b : Build64) (P : Platform 64) (x : BitVec 64) :
    (IsFin binary64 x → binary64.toReal ((b.lane P).abs x) = |binary64.toReal x|) ∧
    (binary64.isInf x = true → binary64.toEReal ((b.lane P).abs x) = ⊤) ∧
    (binary64.isNaN ((b.lane P).abs x) = binary64.isNaN x) := by
  rw [abs_lane64]
  refine ⟨fun _ => binary64.toReal_fabs x, fun h => ?_, binary64.isNaN_fabs x⟩
  simp [Fmt.toEReal, h]

example : IsFin binary32 0xc0490fdb#32 ∧ binary32.isInf 0xff800000#32 = true := by decide

/-! ## C34 -/

/-- The SSE constants, with and without SSE2. -/
theorem C34_sse (f : Sse.Flags) (P : Platform 32) :
    (Sse.ops f (P.x86 binary32)).zero = 0x00000000#32 ∧
    (Sse.ops f (P.x86 binary32)).one = 0x3f800000#32 ∧
    (Sse.ops f (P.x86 binary32)).half = 0x3f000000#32 ∧
    (Sse.ops f (P.x86 binary32)).signMask = 0x80000000#32 ∧
    (Sse.ops f (P.x86 binary32)).absMask = 0x7fffffff#32 ∧
    (Sse.ops f (P.x86 binary32)).expMask = 0x7f800000#32 ∧
    (Sse.ops f (P.x86 binary32)).expMask1 = 0x3f000000#32 ∧
    Sse.ones (P.x86 binary32) = 0xffffffff#32 :=
  ⟨rfl, sse_one _ P, sse_half _ P, sse_signMask _ P, sse_absMask _ P, rfl, rfl, sse_ones P⟩

/-- The AVX constants of `vec<float>`. -/
theorem C34_avx_float (fma : Bool) (P : Platform 32) :
    (AvxF.ops fma (P.x86 binary32)).zero = 0x00000000#32 ∧
    (AvxF.ops fma (P.x86 binary32)).one = 0x3f800000#32 ∧
    (AvxF.ops fma (P.x86 binary32)).half = 0x3f000000#32 ∧
    (AvxF.ops fma (P.x86 binary32)).signMask = 0x80000000#32 ∧
    (AvxF.ops fma (P.x86 binary32)).absMask = 0x7fffffff#32 ∧
    (AvxF.ops fma (P.x86 binary32)).expMask = 0x7f800000#32 ∧
    (AvxF.ops fma (P.x86 binary32)).expMask1 = 0x3f000000#32 ∧
    AvxF.genOnes (P.x86 binary32) = 0xffffffff#32 :=
  ⟨rfl, litF_one, litF_half, rfl, rfl, rfl, rfl, sse_ones P⟩

/-- The constants of `vec<double>` with SSE2 and AVX. -/
theorem C34_double (f : Dbl.Flags) (P : Platform 64) :
    (Dbl.ops f (P.x86 binary64)).zero = 0x0000000000000000#64 ∧
    (Dbl.ops f (P.x86 binary64)).one = 0x3ff0000000000000#64 ∧
    (Dbl.ops f (P.x86 binary64)).half = 0x3fe0000000000000#64 ∧
    (Dbl.ops f (P.x86 binary64)).signMask = 0x8000000000000000#64 ∧
    (Dbl.ops f (P.x86 binary64)).absMask = 0x7fffffffffffffff#64 ∧
    Dbl.genOnes (P.x86 binary64) = 0xffffffffffffffff#64 := by
  refine ⟨rfl, dbl_one, dbl_half, dbl_signMask _, dbl_absMask _, ?_⟩
  have : binary64.eqb 0#64 0#64 = true := by decide +kernel
  change maskOf (binary64.eqb 0#64 0#64) = _
  rw [this]; rfl

/-- The constants of simd_utils.hpp. -/
theorem C34_simd_utils (sse2 : Bool) :
    SimdUtils.one sse2 = 0x3f800000#32 ∧ SimdUtils.half sse2 = 0x3f000000#32 ∧
    SimdUtils.quarter = 0x3e800000#32 ∧ SimdUtils.signMask sse2 = 0x80000000#32 ∧
    SimdUtils.absMask sse2 = 0x7fffffff#32 := by
  unfold SimdUtils.one SimdUtils.half SimdUtils.quarter
  rw [litF_one, litF_half, litF_quarter]
  cases sse2 <;> decide

/-- These patterns are 1, 1/2, 1/4 and the sign bit with its complement. -/
theorem C34_patterns :
    binary32.toReal 0x3f800000#32 = 1 ∧ binary32.toReal 0x3f000000#32 = 1 / 2 ∧
    binary32.toReal 0x3e800000#32 = 1 / 4 ∧
    binary64.toReal 0x3ff0000000000000#64 = 1 ∧ binary64.toReal 0x3fe0000000000000#64 = 1 / 2 ∧
    binary32.toReal 0x00000000#32 = 0 ∧ binary64.toReal 0x0000000000000000#64 = 0 ∧
    (∀ i, (0x80000000#32).getLsbD i = decide (i = 31)) ∧
    (∀ i, i < 32 → (0x7fffffff#32).getLsbD i = decide (i ≠ 31)) ∧
    (∀ i, (0x8000000000000000#64).getLsbD i = decide (i = 63)) ∧
    (∀ i, i < 64 → (0x7fffffffffffffff#64).getLsbD i = decide (i ≠ 63)) := by
  have h32 : binary32.scale = 149 := by decide
  have h64 : binary64.scale = 1074 := by decide
  refine ⟨?_, ?_, ?_, ?_, ?_, ?_, ?_, fun i => ?_, ?_, fun i => ?_, ?_⟩
  · have : binary32.units 0x3f800000#32 = 2 ^ 149 := by decide +kernel
    unfold Fmt.toReal; rw [this, h32]; push_cast; norm_num
  · have : binary32.units 0x3f000000#32 = 2 ^ 148 := by decide +kernel
    unfold Fmt.toReal; rw [this, h32]; push_cast; norm_num
  · have : binary32.units 0x3e800000#32 = 2 ^ 147 := by decide +kernel
    unfold Fmt.toReal; rw [this, h32]; push_cast; norm_num
  · have : binary64.units 0x3ff0000000000000#64 = 2 ^ 1074 := by decide +kernel
    unfold Fmt.toReal; rw [this, h64, Int.cast_pow, Int.cast_ofNat]; exact div_self (pow_ne_zero _ two_ne_zero)
  · have : binary64.units 0x3fe0000000000000#64 = 2 ^ 1073 := by decide +kernel
    unfold Fmt.toReal; rw [this, h64, Int.cast_pow, Int.cast_ofNat, pow_succ (2 : ℝ) 1073,
      div_mul_eq_div_div, div_self (pow_ne_zero _ two_ne_zero)]
  · have : binary32.units 0x00000000#32 = 0 := by decide +kernel
    unfold Fmt.toReal; rw [this]; simp
  · have : binary64.units 0x0000000000000000#64 = 0 := by decide +kernel
    unfold Fmt.toReal; rw [this]; simp
  · rw [← signBit32, binary32.getLsbD_signBit]
  · decide
  · rw [← signBit64, binary64.getLsbD_signBit]
  · decide

/-- Without an instruction set `gen_ones()` is the number one and not a mask of ones. -/
theorem C34_generic_ones :
    genericOnes binary32 = 0x3f800000#32 ∧ genericOnes binary64 = 0x3ff0000000000000#64 ∧
    genericOnes binary32 ≠ BitVec.allOnes 32 ∧ genericOnes binary64 ≠ BitVec.allOnes 64 := by
  decide +kernel

/-! ## C35 -/

/-- The scalar operators. -/
theorem C35_relational_scalar_float (P : Platform 32) (r : Rel) (x y : BitVec 32) :
    (r.Holds binary32 x y → r.op.f (Build32.scalar P) x y = 0x3f800000#32) ∧
    (¬ r.Holds binary32 x y → r.op.f (Build32.scalar P) x y = 0x00000000#32) := by
  rw [rel_scalar32]
  exact ofBool_iff binary32 one32 (Rel.test_iff binary32 r x y)

theorem C35_relational_scalar_double (P : Platform 64) (r : Rel) (x y : BitVec 64) :
    (r.Holds binary64 x y → r.op.f (Build64.scalar P) x y = 0x3ff0000000000000#64) ∧
    (¬ r.Holds binary64 x y → r.op.f (Build64.scalar P) x y = 0x0000000000000000#64) := by
  rw [rel_scalar64]
  exact ofBool_iff binary64 one64 (Rel.test_iff binary64 r x y)

theorem of_test {w : Nat} (F : Fmt w) (r : Rel) (x y : BitVec w) {v one zero : BitVec w}
    (h : v = if r.test F x y then one else zero) :
    (r.Holds F x y → v = one) ∧ (¬ r.Holds F x y → v = zero) := by
  have ht := Rel.test_iff F r x y
  constructor
  · intro hh; rw [h, if_pos (ht.mpr hh)]
  · intro hh; rw [h, if_neg (fun hc => hh (ht.mp hc))]

/-- Every relational operator of every `float` build, except `>` and `>=` with AVX: 1.0 where the C++
comparison holds, +0.0 elsewhere, for all pairs of patterns. -/
theorem C35_relational_float (b : Build32) (P : Platform 32) (r : Rel) (x y : BitVec 32)
    (h : (b.isAvx && r.isGreater) = false) :
    (r.Holds binary32 x y → r.op.f (b.lane P) x y = 0x3f800000#32) ∧
    (¬ r.Holds binary32 x y → r.op.f (b.lane P) x y = 0x00000000#32) :=
  of_test binary32 r x y (rel_lane32 b P r x y (Or.inl h))

theorem C35_relational_double (b : Build64) (P : Platform 64) (r : Rel) (x y : BitVec 64)
    (h : (b.isAvx && r.isGreater) = false) :
    (r.Holds binary64 x y → r.op.f (b.lane P) x y = 0x3ff0000000000000#64) ∧
    (¬ r.Holds binary64 x y → r.op.f (b.lane P) x y = 0x0000000000000000#64) :=
  of_test binary64 r x y (rel_lane64 b P r x y (Or.inl h))

/-- With AVX `>` and `>=` are right on numbers.  What is missing: NaN operands
(`C35_avx_greater_nan_float`). -/
theorem C35_relational_avx_float_partial (b : Build32) (P : Platform 32) (r : Rel) (x y : BitVec 32)
    (hx : Num binary32 x) (hy : Num binary32 y) :
    (r.Holds binary32 x y → r.op.f (b.lane P) x y = 0x3f800000#32) ∧
    (¬ r.Holds binary32 x y → r.op.f (b.lane P) x y = 0x00000000#32) :=
  of_test binary32 r x y (rel_lane32 b P r x y (Or.inr ⟨hx, hy⟩))

theorem C35_relational_avx_double_partial (b : Build64) (P : Platform 64) (r : Rel) (x y : BitVec 64)
    (hx : Num binary64 x) (hy : Num binary64 y) :
    (r.Holds binary64 x y → r.op.f (b.lane P) x y = 0x3ff0000000000000#64) ∧
    (¬ r.Holds binary64 x y → r.op.f (b.lane P) x y = 0x0000000000000000#64) :=
  of_test binary64 r x y (rel_lane64 b P r x y (Or.inr ⟨hx, hy⟩))

/-- The full property fails: with AVX, `>` and `>=` return 1.0 for every comparison with a NaN, where
the scalar operators return 0.0. -/
theorem C35_avx_greater_nan_float (fma : Bool) (P : Platform 32) (r : Rel) (hr : r.isGreater = true)
    (x y : BitVec 32) (h : ¬ Num binary32 x ∨ ¬ Num binary32 y) :
    r.op.f ((Build32.avx fma).lane P) x y = 0x3f800000#32 ∧
    r.op.f (Build32.scalar P) x y = 0x00000000#32 := by
  have hn : binary32.isNaN x = true ∨ binary32.isNaN y = true := by simpa [Num] using h
  constructor
  · have h1 := litF_one
    cases r <;> first | exact absurd hr (by decide) | skip
    · change maskOf (!binary32.leb x y) &&& litF 1 = _
      rw [binary32.leb_nan hn, h1]; rfl
    · change maskOf (!binary32.ltb x y) &&& litF 1 = _
      rw [binary32.ltb_nan hn, h1]; rfl
  · refine (C35_relational_scalar_float P r x y).2 ?_
    cases r <;> first | exact absurd hr (by decide) | skip
    all_goals
      rintro ⟨hx, hy, _⟩
      rcases h with h | h <;> exact h (by assumption)

theorem C35_avx_greater_nan_double (fma : Bool) (P : Platform 64) (r : Rel) (hr : r.isGreater = true)
    (x y : BitVec 64) (h : ¬ Num binary64 x ∨ ¬ Num binary64 y) :
    r.op.f ((Build64.avx fma).lane P) x y = 0x3ff0000000000000#64 ∧
    r.op.f (Build64.scalar P) x y = 0x0000000000000000#64 := by
  have hn : binary64.isNaN x = true ∨ binary64.isNaN y = true := by simpa [Num] using h
  constructor
  · have h1 := dbl_one
    cases r <;> first | exact absurd hr (by decide) | skip
    · change maskOf (!binary64.leb x y) &&& binary64.ofRat 1 = _
      rw [binary64.leb_nan hn, h1]; rfl
    · change maskOf (!binary64.ltb x y) &&& binary64.ofRat 1 = _
      rw [binary64.ltb_nan hn, h1]; rfl
  · refine (C35_relational_scalar_double P r x y).2 ?_
    cases r <;> first | exact absurd hr (by decide) | skip
    all_goals
      rintro ⟨hx, hy, _⟩
      rcases h with h | h <;> exact h (by assumption)

example : ¬ Num binary32 0x7fc00000#32 ∧ Num binary32 0x3f800000#32 ∧
    ((Build32.sse true ⟨true, true, false⟩).isAvx && Rel.greater.isGreater) = false := by decide

/-! ## C36 -/

/-- `select` on every back end but NEON: the second operand where the mask is all ones, the first where
it is zero. -/
theorem C36_select_float (a b : BitVec 32) :
    (∀ f hw, (Sse.ops f hw).select a b (BitVec.allOnes 32) = b ∧ (Sse.ops f hw).select a b 0#32 = a) ∧
    (∀ fma hw, (AvxF.ops fma hw).select a b (BitVec.allOnes 32) = b ∧
      (AvxF.ops fma hw).select a b 0#32 = a) ∧
    (∀ hw, (Altivec.ops hw).select a b (BitVec.allOnes 32) = b ∧
      (Altivec.ops hw).select a b 0#32 = a) ∧
    (genericSelect binary32 a b (BitVec.allOnes 32) = b ∧ genericSelect binary32 a b 0#32 = a) := by
  refine ⟨fun f hw => ⟨sse_select _ a b true, sse_select _ a b false⟩,
    fun f hw => ⟨sse_select true a b true, sse_select true a b false⟩, fun hw => ⟨?_, ?_⟩, ?_, ?_⟩
  · simp [Altivec.ops, Altivec.pre, -BitVec.reduceAllOnes, -BitVec.reduceNot]
  · exact (BitVec.or_comm _ _).trans (bsl_zero b a)
  · have : binary32.eqb (BitVec.allOnes 32) binary32.posZero = false := by decide +kernel
    unfold genericSelect; rw [this]; rfl
  · have : binary32.eqb 0#32 binary32.posZero = true := by decide +kernel
    unfold genericSelect; rw [this]; rfl

theorem C36_select_double (a b : BitVec 64) :
    (∀ f hw, (Dbl.ops f hw).select a b (BitVec.allOnes 64) = b ∧ (Dbl.ops f hw).select a b 0#64 = a) ∧
    (genericSelect binary64 a b (BitVec.allOnes 64) = b ∧ genericSelect binary64 a b 0#64 = a) := by
  refine ⟨fun f hw => ⟨dbl_select f hw a b true, dbl_select f hw a b false⟩, ?_, ?_⟩
  · have : binary64.eqb (BitVec.allOnes 64) binary64.posZero = false := by decide +kernel
    unfold genericSelect; rw [this]; rfl
  · have : binary64.eqb 0#64 binary64.posZero = true := by decide +kernel
    unfold genericSelect; rw [this]; rfl

/-- The `vec_select` fallback of detail/vec_math.hpp, bit by bit: any mask, not only ones and zeros. -/
theorem C36_vec_select_bits (a b m : BitVec 32) (i : Nat) :
    (vecSelect (fun x y => ~~~x &&& y) a b m).getLsbD i
      = if m.getLsbD i then b.getLsbD i else a.getLsbD i := by
  unfold vecSelect
  rw [BitVec.getLsbD_or, BitVec.getLsbD_and, BitVec.getLsbD_and, BitVec.getLsbD_not]
  by_cases hi : i < 32
  · cases m.getLsbD i <;> simp [hi]
  · have h1 : a.getLsbD i = false := BitVec.getLsbD_of_ge _ _ (by omega)
    have h2 : b.getLsbD i = false := BitVec.getLsbD_of_ge _ _ (by omega)
    simp [h1, h2]

/-- The full property fails: NEON's `select` returns the first operand where the mask is all ones and
the second where it is zero. -/
theorem C36_neon_select_swapped (hw : Hw 32) (a b : BitVec 32) :
    (Neon.ops hw).select a b (BitVec.allOnes 32) = a ∧ (Neon.ops hw).select a b 0#32 = b := by
  constructor
  · simp [Neon.ops, Neon.pre, -BitVec.reduceAllOnes, -BitVec.reduceNot]
  · exact bsl_zero a b

example : ∃ a b : BitVec 32, a ≠ b := ⟨1#32, 2#32, by decide⟩

/-! ## C39 -/

/-- The SIMD `sgn` of a positive number is 1.0 and of a negative number −1.0, as for the scalar
function.  A zero gives a zero: +0 for the scalar function, the argument itself (so −0 for −0) in the
vector classes. -/
theorem C39_sign_float (b : Build32) (P : Platform 32) (x : BitVec 32) (h : Num binary32 x) :
    (0 < binary32.toEReal x → (b.lane P).sign x = 0x3f800000#32 ∧
      (Build32.scalar P).sign x = 0x3f800000#32) ∧
    (binary32.toEReal x < 0 → (b.lane P).sign x = 0xbf800000#32 ∧
      (Build32.scalar P).sign x = 0xbf800000#32) ∧
    (binary32.toEReal x = 0 → (b.lane P).sign x = (if b = .generic then 0#32 else x) ∧
      (Build32.scalar P).sign x = 0#32) := by
  have hs : (Build32.scalar P).sign x = _ := sign_scalar binary32 h
  have hb : b ≠ .generic → (b.lane P).sign x = _ :=
    fun hb => (sign_lane32 b hb P x).trans (sign_pack binary32 h)
  have hg : b = .generic → (b.lane P).sign x = (Build32.scalar P).sign x := by rintro rfl; rfl
  have h1 : binary32.pack false 0x3f800000 = 0x3f800000#32 := by decide
  have h2 : binary32.pack true 0x3f800000 = 0xbf800000#32 := by decide
  rw [one32, negOne32, binary32.posZero_eq] at hs
  rw [h1, h2] at hb
  rw [← binary32.key_pos_iff h, ← binary32.key_neg_iff h, ← binary32.key_zero_iff h]
  refine ⟨fun hk => ?_, fun hk => ?_, fun hk => ?_⟩
  · rw [if_pos hk] at hs hb
    by_cases hc : b = .generic
    · rw [hg hc]; exact ⟨hs, hs⟩
    · exact ⟨hb hc, hs⟩
  · rw [if_neg (by omega), if_neg (by omega)] at hs hb
    by_cases hc : b = .generic
    · rw [hg hc]; exact ⟨hs, hs⟩
    · exact ⟨hb hc, hs⟩
  · rw [if_neg (by omega), if_pos hk] at hs hb
    by_cases hc : b = .generic
    · rw [hg hc, if_pos hc]; exact ⟨hs, hs⟩
    · rw [if_neg hc]; exact ⟨hb hc, hs⟩

theorem C39_sign_double (b : Build64) (P : Platform 64) (x : BitVec 64) (h : Num binary64 x) :
    (0 < binary64.toEReal x → (b.lane P).sign x = 0x3ff0000000000000#64 ∧
      (Build64.scalar P).sign x = 0x3ff0000000000000#64) ∧
    (binary64.toEReal x < 0 → (b.lane P).sign x = 0xbff0000000000000#64 ∧
      (Build64.scalar P).sign x = 0xbff0000000000000#64) ∧
    (binary64.toEReal x = 0 → (b.lane P).sign x = (if b = .generic then 0#64 else x) ∧
      (Build64.scalar P).sign x = 0#64) := by
  have hs : (Build64.scalar P).sign x = _ := sign_scalar binary64 h
  have hb : b ≠ .generic → (b.lane P).sign x = _ :=
    fun hb => (sign_lane64 b hb P x).trans (sign_pack binary64 h)
  have hg : b = .generic → (b.lane P).sign x = (Build64.scalar P).sign x := by rintro rfl; rfl
  have h1 : binary64.pack false 0x3ff0000000000000 = 0x3ff0000000000000#64 := by decide
  have h2 : binary64.pack true 0x3ff0000000000000 = 0xbff0000000000000#64 := by decide
  rw [one64, negOne64, binary64.posZero_eq] at hs
  rw [h1, h2] at hb
  rw [← binary64.key_pos_iff h, ← binary64.key_neg_iff h, ← binary64.key_zero_iff h]
  refine ⟨fun hk => ?_, fun hk => ?_, fun hk => ?_⟩
  · rw [if_pos hk] at hs hb
    by_cases hc : b = .generic
    · rw [hg hc]; exact ⟨hs, hs⟩
    · exact ⟨hb hc, hs⟩
  · rw [if_neg (by omega), if_neg (by omega)] at hs hb
    by_cases hc : b = .generic
    · rw [hg hc]; exact ⟨hs, hs⟩
    · exact ⟨hb hc, hs⟩
  · rw [if_neg (by omega), if_pos hk] at hs hb
    by_cases hc : b = .generic
    · rw [hg hc, if_pos hc]; exact ⟨hs, hs⟩
    · rw [if_neg hc]; exact ⟨hb hc, hs⟩

/-- As numbers the two results are equal for every number. -/
theorem C39_sign_same_number (b : Build32) (P : Platform 32) (x : BitVec 32) (h : Num binary32 x) :
    binary32.toEReal ((b.lane P).sign x) = binary32.toEReal ((Build32.scalar P).sign x) := by
  obtain ⟨h1, h2, h3⟩ := C39_sign_float b P x h
  rcases lt_trichotomy (binary32.toEReal x) 0 with hk | hk | hk
  · rw [(h2 hk).1, (h2 hk).2]
  · rw [(h3 hk).1, (h3 hk).2, ← binary32.posZero_eq, binary32.toEReal_posZero]
    split
    · exact binary32.toEReal_posZero
    · exact hk
  · rw [(h1 hk).1, (h1 hk).2]

/-- A NaN is outside the property and indeed the results differ: the scalar function returns −1. -/
theorem C39_sign_nan_differs (f : Bool) (P : Platform 32) :
    ((Build32.avx f).lane P).sign 0x7fc00000#32 = 0x3f800000#32 ∧
    (Build32.scalar P).sign 0x7fc00000#32 = 0xbf800000#32 := by
  constructor
  · rw [sign_lane32 _ (by simp)]; decide +kernel
  · change Scalar.sign binary32 0x7fc00000#32 = _; decide +kernel

example : Num binary32 0xc0490fdb#32 ∧ Num binary32 0x80000000#32 := by decide

/-! ## C40 -/

/-- `undenormalize`, scalar and vector, for every pattern: a pattern whose exponent field is zero (the
zeros and the subnormal numbers) becomes +0, every other pattern, NaN and infinities included, is
returned unchanged. -/
theorem C40_undenormalize_float (b : Build32) (hb : b.hasUndenormalize = true) (P : Platform 32)
    (x : BitVec 32) :
    (b.lane P).undenormalize x = (if (x >>> 23) &&& 0xff#32 = 0 then 0#32 else x) ∧
    (Build32.scalar P).undenormalize x = (b.lane P).undenormalize x := by
  have h0 := undenormalize_lane32 .generic rfl P x
  have h1 := undenormalize_lane32 b hb P x
  have hc : binary32.code x < 2 ^ 23 ↔ (x >>> 23) &&& 0xff#32 = 0 := by
    unfold Fmt.code
    rw [← BitVec.toNat_inj, BitVec.toNat_and, BitVec.toNat_ushiftRight, Nat.shiftRight_eq_div_pow]
    have h2 : (x.toNat / 2 ^ 23) &&& (0xff#32).toNat = x.toNat / 2 ^ 23 % 2 ^ 8 :=
      Nat.and_two_pow_sub_one_eq_mod _ 8
    rw [h2]
    have := x.isLt
    simp
    omega
  rw [h1]
  refine ⟨?_, h0.trans rfl⟩
  by_cases h : (x >>> 23) &&& 0xff#32 = 0
  · rw [if_pos h, if_pos (hc.mpr h)]
  · rw [if_neg h, if_neg (fun hh => h (hc.mp hh))]

theorem C40_undenormalize_double (b : Build64) (P : Platform 64) (x : BitVec 64) :
    (b.lane P).undenormalize x = (if (x >>> 52) &&& 0x7ff#64 = 0 then 0#64 else x) ∧
    (Build64.scalar P).undenormalize x = (b.lane P).undenormalize x := by
  have h0 := undenormalize_lane64 .generic P x
  have h1 := undenormalize_lane64 b P x
  have hc : binary64.code x < 2 ^ 52 ↔ (x >>> 52) &&& 0x7ff#64 = 0 := by
    unfold Fmt.code
    rw [← BitVec.toNat_inj, BitVec.toNat_and, BitVec.toNat_ushiftRight, Nat.shiftRight_eq_div_pow]
    have h2 : (x.toNat / 2 ^ 52) &&& (0x7ff#64).toNat = x.toNat / 2 ^ 52 % 2 ^ 11 :=
      Nat.and_two_pow_sub_one_eq_mod _ 11
    rw [h2]
    have := x.isLt
    simp
    omega
  rw [h1]
  refine ⟨?_, h0.trans rfl⟩
  by_cases h : (x >>> 52) &&& 0x7ff#64 = 0
  · rw [if_pos h, if_pos (hc.mpr h)]
  · rw [if_neg h, if_neg (fun hh => h (hc.mp hh))]

/-- In terms of values: the result is zero exactly for the finite numbers below the least normal number,
and every other number keeps its value. -/
theorem C40_undenormalize_value (b : Build32) (hb : b.hasUndenormalize = true) (P : Platform 32)
    (x : BitVec 32) (_ : IsFin binary32 x) :
    binary32.toReal ((b.lane P).undenormalize x)
      = if |binary32.toReal x| < 2 ^ (-126 : ℤ) then 0 else binary32.toReal x := by
  rw [undenormalize_lane32 b hb]
  have hscale : binary32.scale = 149 := by decide
  have hx : |binary32.toReal x| < 2 ^ (-126 : ℤ) ↔ binary32.code x < 2 ^ 23 := by
    have h1 : (2 : ℝ) ^ (-126 : ℤ) = (mag 23 (2 ^ 23) : ℝ) / 2 ^ 149 := by
      have : mag 23 (2 ^ 23) = 2 ^ 23 := by decide +kernel
      rw [this]; norm_num
    rw [← binary32.toReal_fabs, h1]
    unfold Fmt.toReal Fmt.units
    rw [binary32.neg_fabs, binary32.code_fabs, hscale]
    have hp : (0 : ℝ) < 2 ^ 149 := by positivity
    simp only [Bool.false_eq_true, if_false, Int.cast_natCast]
    rw [div_lt_div_iff_of_pos_right hp, Nat.cast_lt]
    exact mag_lt_iff
  by_cases hc : binary32.code x < 2 ^ 23
  · rw [if_pos hc, if_pos (hx.mpr hc)]; exact C34_patterns.2.2.2.2.2.1
  · rw [if_neg hc, if_neg (fun hh => hc (hx.mp hh))]

example : IsFin binary32 0x00000001#32 ∧ (Build32.avx true).hasUndenormalize = true := by decide

end Nova
