import Verif.Lemmas.RoundLanes
import Verif.Lemmas.Witness
import Verif.SpecFloat

/-!
# C41 round, floor and ceil, C42 round of the vector and scalar versions, C57 trunc, C58 frac

`Fmt.IsRounded` (Float/RoundInt.lean) says in terms of real numbers what a rounded value is: `.down` is the
floor, `.up` the ceiling, `.zero` the integer part, `.nearest` the nearest integer with ties to even and
`.away` the nearest integer with ties away from zero.
-/

namespace Nova
open FP VecMath

/-! ## C41 -/

/-- round, floor and ceil of every vector class return the correctly rounded integer: for all finite
numbers if the class uses a rounding instruction, and for all numbers below 2^23 in magnitude if it does
not (SSE before SSE4.1, NEON; round of Altivec).  An integral argument is returned unchanged by round and
floor.  The limit 2^23 is necessary: `C41_negation_round`. -/
theorem C41_round_partial (b : Build32) (hb : b ≠ .generic) (P : Platform 32) (x : BitVec 32)
    (hx : IsFin binary32 x) (hr : b.roundsAll = true ∨ |binary32.toReal x| < 2 ^ 23) :
    IsFin binary32 ((b.lane P).round x) ∧
    Fmt.IsRounded .nearest (binary32.toReal x) (binary32.toReal ((b.lane P).round x)) ∧
    ((∃ k : ℤ, binary32.toReal x = k) → (b.lane P).round x = x) := by
  rcases round_lane32 b P (hr.imp_right code_lt_of_value) with h | h
  · exact absurd h.1 hb
  · rw [h.2]
    have hv := binary32.roundInt_value Fmt.wide32 .nearest hx
    exact ⟨hv.1, hv.2.2, roundInt_integral binary32 Fmt.wide32 .nearest hx⟩

theorem C41_floor_partial (b : Build32) (P : Platform 32) (x : BitVec 32)
    (hx : IsFin binary32 x) (hr : b.floorsAll = true ∨ |binary32.toReal x| < 2 ^ 23) :
    IsFin binary32 ((b.lane P).floor x) ∧
    binary32.toReal ((b.lane P).floor x) = ⌊binary32.toReal x⌋ ∧
    ((∃ k : ℤ, binary32.toReal x = k) → (b.lane P).floor x = x) ∧
    (b.lane P).floor x = (Build32.scalar P).floor x := by
  rw [floor_lane32 b P (hr.imp_right code_lt_of_value)]
  have hv := binary32.roundInt_value Fmt.wide32 .down hx
  exact ⟨hv.1, hv.2.2, roundInt_integral binary32 Fmt.wide32 .down hx, rfl⟩

/-- ceil: the value is right; without a rounding instruction the sign of a zero is lost. -/
theorem C41_ceil_partial (b : Build32) (P : Platform 32) (x : BitVec 32)
    (hx : IsFin binary32 x) (hr : b.floorsAll = true ∨ |binary32.toReal x| < 2 ^ 23) :
    IsFin binary32 ((b.lane P).ceil x) ∧
    binary32.toReal ((b.lane P).ceil x) = ⌈binary32.toReal x⌉ ∧
    (b.floorsAll = true ∨ ⌈binary32.toReal x⌉ ≠ 0 → (b.lane P).ceil x = (Build32.scalar P).ceil x) := by
  have hv := binary32.roundInt_value Fmt.wide32 .up hx
  rcases ceil_lane32 b P (hr.imp_right code_lt_of_value) with h | ⟨h1, h2, h3⟩
  · rw [h]; exact ⟨hv.1, hv.2.2, fun _ => rfl⟩
  · have h0 : binary32.toReal (binary32.roundInt .up x) = 0 := by
      rw [binary32.toReal_eq, h2, mag_zero]; simp
    have hc : ((⌈binary32.toReal x⌉ : ℤ) : ℝ) = 0 := by
      rw [← h0]; exact hv.2.2.symm
    have hz : binary32.toReal 0#32 = 0 := by
      rw [binary32.toReal_eq, show binary32.code 0#32 = 0 by decide, mag_zero]; simp
    rw [h3, hz, hc]
    refine ⟨by decide, rfl, fun h => ?_⟩
    rcases h with h | h
    · rw [h1] at h; exact absurd h (by decide)
    · exact absurd (by exact_mod_cast hc) h

/-- `double`: every class, all finite numbers, all bits. -/
theorem C41_double (b : Build64) (P : Platform 64) (x : BitVec 64) (hx : IsFin binary64 x) :
    (b.lane P).floor x = (Build64.scalar P).floor x ∧
    (b.lane P).ceil x = (Build64.scalar P).ceil x ∧
    IsFin binary64 ((b.lane P).floor x) ∧ IsFin binary64 ((b.lane P).ceil x) ∧
    IsFin binary64 ((b.lane P).round x) ∧
    binary64.toReal ((b.lane P).floor x) = ⌊binary64.toReal x⌋ ∧
    binary64.toReal ((b.lane P).ceil x) = ⌈binary64.toReal x⌉ ∧
    (Fmt.IsRounded .nearest (binary64.toReal x) (binary64.toReal ((b.lane P).round x)) ∨
      Fmt.IsRounded .away (binary64.toReal x) (binary64.toReal ((b.lane P).round x))) := by
  have hd := binary64.roundInt_value Fmt.wide64 .down hx
  have hu := binary64.roundInt_value Fmt.wide64 .up hx
  have hn := binary64.roundInt_value Fmt.wide64 .nearest hx
  have ha := binary64.roundInt_value Fmt.wide64 .away hx
  cases b with
  | generic => exact ⟨rfl, rfl, hd.1, hu.1, ha.1, hd.2.2, hu.2.2, .inr ha.2.2⟩
  | sse2 s f =>
    cases s
    · exact ⟨rfl, rfl, hd.1, hu.1, ha.1, hd.2.2, hu.2.2, .inr ha.2.2⟩
    · exact ⟨rfl, rfl, hd.1, hu.1, hn.1, hd.2.2, hu.2.2, .inl hn.2.2⟩
  | avx f => exact ⟨rfl, rfl, hd.1, hu.1, hn.1, hd.2.2, hu.2.2, .inl hn.2.2⟩

/-- -2.5 on SSE2: round -2, floor -3, ceil -2 -/
example : IsFin binary32 0xc0200000#32 ∧ |binary32.toReal 0xc0200000#32| < 2 ^ 23 ∧
    ((Build32.sse true ⟨true, false, false⟩).lane platform0).round 0xc0200000#32 = 0xc0000000#32 ∧
    ((Build32.sse true ⟨true, false, false⟩).lane platform0).floor 0xc0200000#32 = 0xc0400000#32 ∧
    ((Build32.sse true ⟨true, false, false⟩).lane platform0).ceil 0xc0200000#32 = 0xc0000000#32 := by
  refine ⟨by decide +kernel, ?_, by decide +kernel, by decide +kernel, by decide +kernel⟩
  rw [binary32.toReal_eq, show binary32.neg 0xc0200000#32 = true by decide +kernel,
    show mag binary32.mb (binary32.code 0xc0200000#32) = 5 * 2 ^ 148 by decide +kernel,
    show binary32.scale = 149 by decide]
  norm_num

/-- Without a rounding instruction, round changes the integral number 8388609 = 2^23 + 1 into 8388608, so
C41 is false of the code. -/
theorem C41_negation_round (b : Build32) (hb : b.roundsAll = false) (P : Platform 32) :
    IsFin binary32 0x4B000001#32 ∧ binary32.toReal 0x4B000001#32 = 8388609 ∧
    binary32.toReal ((b.lane P).round 0x4B000001#32) = 8388608 := by
  have hv : ∀ x : BitVec 32, binary32.neg x = false → mag 23 (binary32.code x) = 2 ^ 149 * 8388609 →
      binary32.toReal x = 8388609 := by
    intro x h1 h2
    rw [binary32.toReal_eq, h1, show binary32.mb = 23 from rfl, h2, show binary32.scale = 149 by decide]
    norm_num
  have hw : binary32.toReal 0x4B000000#32 = 8388608 := by
    rw [binary32.toReal_eq, show binary32.neg 0x4B000000#32 = false by decide,
      show mag binary32.mb (binary32.code 0x4B000000#32) = 2 ^ 149 * 8388608 by decide +kernel,
      show binary32.scale = 149 by decide]
    norm_num
  refine ⟨by decide, hv _ (by decide) (by decide +kernel), ?_⟩
  have key : (b.lane P).round 0x4B000001#32 = 0x4B000000#32 := by
    rw [round_lane32_explicit b hb P]; decide +kernel
  rw [key, hw]

/-- … floor changes 8388609 into 8388608 and ceil 8388611 into 8388612. -/
theorem C41_negation_floor_ceil (b : Build32) (hb : b.floorsAll = false) (P : Platform 32) :
    (b.lane P).floor 0x4B000001#32 = 0x4B000000#32 ∧
    (b.lane P).ceil 0x4B000003#32 = 0x4B000004#32 := by
  rw [(floor_lane32_explicit b hb P _).1, (floor_lane32_explicit b hb P _).2]; decide +kernel

/-- … and ceil(-0.25) is +0 where the C library returns -0. -/
theorem C41_negation_ceil_zero (b : Build32) (hb : b.floorsAll = false) (P : Platform 32) :
    (b.lane P).ceil 0xBE800000#32 = 0#32 ∧ (Build32.scalar P).ceil 0xBE800000#32 = 0x80000000#32 := by
  refine ⟨?_, by rw [scalar_ceil]; decide +kernel⟩
  rw [(floor_lane32_explicit b hb P _).2]; decide +kernel

/-! ## C42 -/

/-- Where the C library's `round` is used (C99), `round_vec` and `round_vec_simd` return the same pattern
for every finite number that is not half way between two integers (for classes without a rounding
instruction: below 2^23).  Half way they differ: `C42_negation_ties`. -/
theorem C42_round_partial (b : Build32) (P : Platform 32) (hP : P.c99 = true) (x : BitVec 32)
    (hx : IsFin binary32 x) (hr : b.roundsAll = true ∨ |binary32.toReal x| < 2 ^ 23)
    (ht : ∀ k : ℤ, |binary32.toReal x - k| ≠ 1 / 2) :
    (b.lane P).round x = (Build32.scalar P).round x := by
  have hs : (Build32.scalar P).round x = binary32.roundInt .away x := by
    rw [scalar_round]
    rw [hP]; rfl
  rcases round_lane32 b P (hr.imp_right code_lt_of_value) with h | h
  · rw [h.2]; rfl
  · rw [h.2, hs]
    have hn := binary32.roundInt_value Fmt.wide32 .nearest hx
    have ha := binary32.roundInt_value Fmt.wide32 .away hx
    exact eq_of_toReal binary32 (by rw [hn.2.1, ha.2.1]) (nearest_unique hn.2.2 ha.2.2 ht)

theorem C42_round_double_partial (b : Build64) (P : Platform 64) (x : BitVec 64)
    (hx : IsFin binary64 x) (ht : ∀ k : ℤ, |binary64.toReal x - k| ≠ 1 / 2) :
    (b.lane P).round x = (Build64.scalar P).round x := by
  have key : binary64.roundInt .nearest x = binary64.roundInt .away x := by
    have hn := binary64.roundInt_value Fmt.wide64 .nearest hx
    have ha := binary64.roundInt_value Fmt.wide64 .away hx
    exact eq_of_toReal binary64 (by rw [hn.2.1, ha.2.1]) (nearest_unique hn.2.2 ha.2.2 ht)
  cases b with
  | generic => rfl
  | sse2 s f =>
    cases s
    · rfl
    · exact key
  | avx f => exact key

/-- 1.25 is finite, small and not half way between integers. -/
example : IsFin binary32 0x3FA00000#32 ∧ |binary32.toReal 0x3FA00000#32| < 2 ^ 23 ∧
    ∀ k : ℤ, |binary32.toReal 0x3FA00000#32 - k| ≠ 1 / 2 := by
  have hv : binary32.toReal 0x3FA00000#32 = 5 / 4 := by
    rw [binary32.toReal_eq, show binary32.neg 0x3FA00000#32 = false by decide +kernel,
      show mag binary32.mb (binary32.code 0x3FA00000#32) = 5 * 2 ^ 147 by decide +kernel,
      show binary32.scale = 149 by decide]
    norm_num
  refine ⟨by decide, by rw [hv]; norm_num, fun k h => ?_⟩
  rw [hv] at h
  rcases abs_eq (by norm_num : (0 : ℝ) ≤ 1 / 2) |>.mp h with h | h
  · have : (4 * k : ℝ) = 3 := by linarith
    have : 4 * k = 3 := by exact_mod_cast this
    omega
  · have : (4 * k : ℝ) = 7 := by linarith
    have : 4 * k = 7 := by exact_mod_cast this
    omega

/-- Every vector class rounds 2.5 to 2, the scalar version to 3: C42 is false of the code. -/
theorem C42_negation_ties (b : Build32) (hb : b ≠ .generic) (P : Platform 32) :
    (b.lane P).round 0x40200000#32 = 0x40000000#32 ∧
    (Build32.scalar P).round 0x40200000#32 = 0x40400000#32 := by
  constructor
  · rcases round_lane32 b P (x := 0x40200000#32) (.inr (by decide)) with h | h
    · exact absurd h.1 hb
    · rw [h.2]; decide +kernel
  · rw [scalar_round]
    cases P.c99 <;> decide +kernel

/-- Without C99 the scalar version is `floor(x + 0.5)`, and the sum is rounded: 0.49999997 becomes 1. -/
theorem C42_negation_scalar (P : Platform 32) (hP : P.c99 = false) :
    (Build32.scalar P).round 0x3EFFFFFF#32 = 0x3F800000#32 ∧
    ∀ b : Build32, b ≠ .generic → (b.lane P).round 0x3EFFFFFF#32 = 0#32 := by
  constructor
  · rw [scalar_round]
    rw [hP]; decide +kernel
  · intro b hb
    rcases round_lane32 b P (x := 0x3EFFFFFF#32) (.inr (by decide)) with h | h
    · exact absurd h.1 hb
    · rw [h.2]; decide +kernel

/-! ## C57 trunc -/

/-- Where the scalar version is defined (values that `long` can hold) it returns the integer part. -/
theorem C57_scalar {w : Nat} (F : Fmt w) (hF : F.Wide) (lit : Rat → BitVec w) (c99 : Bool) (M : Libm w)
    (x : BitVec w) (hx : IsFin F x) (hr : |F.toReal x| < 2 ^ 63) :
    ∃ r, (Scalar.arith F lit c99 M).trunc x = .ok r ∧ IsFin F r ∧
      F.toReal r = if 0 ≤ F.toReal x then (⌊F.toReal x⌋ : ℝ) else ⌈F.toReal x⌉ := by
  have hz := F.roundInt_value hF .zero hx
  have h := trunc_scalar F hF hx hr
  change Scalar.trunc F x = _ at h
  refine ⟨_, h, ?_⟩
  by_cases h0 : F.code (F.roundInt .zero x) = 0
  · rw [if_pos h0]
    have h1 : F.toReal (F.roundInt .zero x) = 0 := by rw [F.toReal_eq, h0, mag_zero]; simp
    refine ⟨F.isFinite_pack _ F.infCode_pos, ?_⟩
    have h2 : F.toReal F.posZero = 0 := by
      unfold Fmt.posZero
      rw [F.toReal_eq, F.code_pack _ (Nat.two_pow_pos _), mag_zero]; simp
    rw [h2]; exact h1.symm.trans hz.2.2
  · rw [if_neg h0]; exact ⟨hz.1, hz.2.2⟩

/-- Otherwise the conversion to `long` is undefined behaviour. -/
theorem C57_scalar_undefined {w : Nat} (F : Fmt w) (lit : Rat → BitVec w) (c99 : Bool) (M : Libm w)
    (x : BitVec w) (hx : ¬ IsFin F x ∨ 2 ^ 63 + 1 ≤ |F.toReal x|) :
    (Scalar.arith F lit c99 M).trunc x = .error .badConv := by
  change Scalar.trunc F x = _
  unfold Scalar.trunc
  by_cases hf : F.isFinite x = true
  · rw [if_pos hf]
    have hr := hx.resolve_left (fun h => h hf)
    rw [← F.toReal_fabs, F.toReal_eq, F.neg_fabs, F.code_fabs] at hr
    simp only [Bool.false_eq_true, if_false, one_mul] at hr
    rw [le_div_iff₀ (by positivity)] at hr
    have h1 : (2 ^ 63 + 1) * 2 ^ F.scale ≤ mag F.mb (F.code x) := by exact_mod_cast hr
    have h2 : 2 ^ 63 + 1 ≤ mag F.mb (F.code x) / 2 ^ F.scale :=
      (Nat.le_div_iff_mul_le (Nat.two_pow_pos _)).mpr h1
    unfold Scalar.toLong
    dsimp only
    generalize mag F.mb (F.code x) / 2 ^ F.scale = k at h2
    rw [if_neg]
    cases F.neg x <;> simp only [Bool.false_eq_true, if_false, if_true] <;> omega
  · rw [if_neg hf]

/-- The vector classes other than Altivec: wherever the scalar version is defined, `trunc_vec_simd` returns
the same number (the classes with a rounding instruction keep the sign of a zero, the scalar version
does not), and it is defined for all finite numbers if the class has a rounding instruction. -/
theorem C57_simd_partial (b : Build32) (hb : b ≠ .altivec) (P : Platform 32) (x : BitVec 32)
    (hx : IsFin binary32 x) (hr : (b.roundsAll = true ∧ b ≠ .generic) ∨ |binary32.toReal x| < 2 ^ 63) :
    ∃ r, (b.lane P).trunc x = .ok r ∧ IsFin binary32 r ∧
      binary32.toReal r =
        if 0 ≤ binary32.toReal x then (⌊binary32.toReal x⌋ : ℝ) else ⌈binary32.toReal x⌉ := by
  have hz := binary32.roundInt_value Fmt.wide32 .zero hx
  have hsc := fun h => C57_scalar binary32 Fmt.wide32 litD32 P.c99 P.M x hx h
  cases b with
  | altivec => exact absurd rfl hb
  | generic => exact hsc (hr.resolve_left (fun h => h.2 rfl))
  | neon => exact hsc (hr.resolve_left (fun h => absurd h.1 (by decide)))
  | avx f => exact ⟨_, rfl, hz.1, hz.2.2⟩
  | sse s f =>
    change ∃ r, (if f.sse41 then Except.ok (binary32.roundInt .zero x) else (Build32.scalar P).trunc x) = _ ∧ _
    cases hf : f.sse41
    · rw [if_neg (by decide)]
      exact hsc (hr.resolve_left (fun h => absurd h.1 (by simp [Build32.roundsAll, hf])))
    · rw [if_pos rfl]
      exact ⟨_, rfl, hz.1, hz.2.2⟩

theorem C57_simd_double (b : Build64) (P : Platform 64) (x : BitVec 64)
    (hx : IsFin binary64 x) (hr : |binary64.toReal x| < 2 ^ 63) :
    ∃ r, (b.lane P).trunc x = .ok r ∧ IsFin binary64 r ∧
      binary64.toReal r =
        if 0 ≤ binary64.toReal x then (⌊binary64.toReal x⌋ : ℝ) else ⌈binary64.toReal x⌉ := by
  have hz := binary64.roundInt_value Fmt.wide64 .zero hx
  have hsc := C57_scalar binary64 Fmt.wide64 binary64.ofRat true P.M x hx hr
  cases b with
  | generic => exact hsc
  | avx f => exact ⟨_, rfl, hz.1, hz.2.2⟩
  | sse2 s f =>
    cases s
    · exact hsc
    · exact ⟨_, rfl, hz.1, hz.2.2⟩

/-- -2.5 -/
example : IsFin binary32 0xc0200000#32 ∧
    (Build32.scalar platform0).trunc 0xc0200000#32 = .ok 0xc0000000#32 := by
  refine ⟨by decide, ?_⟩
  rw [scalar_trunc]
  decide +kernel

/-- Altivec converts to unsigned integers: every negative number (and NaN) becomes +0, so C57 is false
there. -/
theorem C57_negation_altivec (P : Platform 32) (x : BitVec 32) (hx : binary32.neg x = true) :
    (Build32.altivec.lane P).trunc x = .ok 0#32 := by
  change Except.ok (binary32.ofInt ((P.arm binary32).toUInt32 x).toNat) = _
  have : (P.arm binary32).toUInt32 x = 0#32 := by
    change (if binary32.isNaN x || binary32.neg x then 0 else _) = _
    rw [hx, Bool.or_true, if_pos rfl]; rfl
  rw [this]; decide

/-- … while the scalar version turns -2.5 into -2. -/
example : binary32.neg 0xc0200000#32 = true := by decide

/-! ## C58 frac -/

/-- frac(x) is finite and between 0 and 1, never negative, and the same in the vector and scalar versions;
for numbers without sign it is exact and less than 1.  (Without a rounding instruction: below 2^23.) -/
theorem C58_frac_partial (b : Build32) (P : Platform 32) (x : BitVec 32)
    (hx : IsFin binary32 x) (hr : b.floorsAll = true ∨ |binary32.toReal x| < 2 ^ 23) :
    (b.lane P).frac x = (Build32.scalar P).frac x ∧
    IsFin binary32 ((b.lane P).frac x) ∧
    0 ≤ binary32.toReal ((b.lane P).frac x) ∧ binary32.toReal ((b.lane P).frac x) ≤ 1 ∧
    (binary32.neg x = false → binary32.toReal ((b.lane P).frac x) = Int.fract (binary32.toReal x)) := by
  have he : (b.lane P).frac x = binary32.sub x (binary32.roundInt .down x) := by
    have h := floor_lane32 b P (hr.imp_right code_lt_of_value)
    cases b with
    | altivec => rfl
    | generic => rfl
    | avx f => rfl
    | sse s f => change binary32.sub x (((Build32.sse s f).lane P).floor x) = _; rw [h]
    | neon => change binary32.sub x ((Build32.neon.lane P).floor x) = _; rw [h]
  have h1 := sub_floor binary32 Fmt.wide32 (x := x) (one := 0x3f800000#32) hx (by decide +kernel) (by decide)
  rw [he]
  refine ⟨rfl, h1.1, ?_, ?_, fun hn => ?_⟩
  · rw [binary32.toReal_eq, h1.2.1]; simp; positivity
  · have h2 : mag 23 (binary32.code (binary32.sub x (binary32.roundInt .down x))) ≤
        mag 23 (binary32.code 0x3f800000#32) := mag_le_iff.mpr h1.2.2
    rw [show mag 23 (binary32.code 0x3f800000#32) = 2 ^ 149 by decide +kernel] at h2
    rw [binary32.toReal_eq, h1.2.1, show binary32.scale = 149 by decide]
    simp only [Bool.false_eq_true, if_false, one_mul]
    rw [div_le_one (by positivity)]
    exact_mod_cast h2
  · rw [sub_floor_exact binary32 Fmt.wide32 hx hn]; rfl

theorem C58_frac_double_partial (b : Build64) (P : Platform 64) (x : BitVec 64) (hx : IsFin binary64 x) :
    (b.lane P).frac x = (Build64.scalar P).frac x ∧
    IsFin binary64 ((b.lane P).frac x) ∧
    0 ≤ binary64.toReal ((b.lane P).frac x) ∧ binary64.toReal ((b.lane P).frac x) ≤ 1 ∧
    (binary64.neg x = false → binary64.toReal ((b.lane P).frac x) = Int.fract (binary64.toReal x)) := by
  have he : (b.lane P).frac x = binary64.sub x (binary64.roundInt .down x) := by
    cases b with
    | generic => rfl
    | avx f => rfl
    | sse2 s f => cases s <;> rfl
  have h1 := sub_floor binary64 Fmt.wide64 (x := x) (one := 0x3ff0000000000000#64) hx (by decide +kernel)
    (by decide)
  rw [he]
  refine ⟨rfl, h1.1, ?_, ?_, fun hn => ?_⟩
  · rw [binary64.toReal_eq, h1.2.1]; simp; positivity
  · have h2 : mag 52 (binary64.code (binary64.sub x (binary64.roundInt .down x))) ≤
        mag 52 (binary64.code 0x3ff0000000000000#64) := mag_le_iff.mpr h1.2.2
    rw [show mag 52 (binary64.code 0x3ff0000000000000#64) = 2 ^ 1074 by decide +kernel] at h2
    rw [binary64.toReal_eq, h1.2.1, show binary64.scale = 1074 by decide]
    simp only [Bool.false_eq_true, if_false, one_mul]
    rw [div_le_one (by positivity)]
    exact_mod_cast h2
  · rw [sub_floor_exact binary64 Fmt.wide64 hx hn]; rfl

example : IsFin binary32 0xc0200000#32 ∧
    (Build32.scalar platform0).frac 0xc0200000#32 = 0x3f000000#32 := by decide +kernel

/-- frac is not below 1: of the negative number -2^-30 it is 1.0, in every class and in the scalar version. -/
theorem C58_negation_one (b : Build32) (P : Platform 32) :
    (b.lane P).frac 0xB0800000#32 = 0x3F800000#32 ∧
    (Build32.scalar P).frac 0xB0800000#32 = 0x3F800000#32 := by
  have hs : (Build32.scalar P).frac 0xB0800000#32 = 0x3F800000#32 := by
    rw [scalar_frac]
    decide +kernel
  have h := (C58_frac_partial b P 0xB0800000#32 (by decide) (.inr ?_)).1
  · rw [h]; exact ⟨hs, hs⟩
  · rw [binary32.toReal_eq, show binary32.neg 0xB0800000#32 = true by decide +kernel,
      show mag binary32.mb (binary32.code 0xB0800000#32) = 2 ^ 119 by decide +kernel,
      show binary32.scale = 149 by decide]
    norm_num

end Nova
