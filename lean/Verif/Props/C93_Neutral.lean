import Verif.SpecNeutral
import Verif.Props.C92_Exact

/-!
# C93 Neutral settings change nothing, and applying a function twice is applying it once

With the arguments of the tables in `SpecNeutral` the first argument is returned: the same bits, except that a zero may
change its sign (`Same`).  The results of the functions that round, clip or take signs are such arguments, so that a
second application changes nothing.
-/

namespace Nova
open FP VecMath Spec

section generic
variable {w : Nat} {F : Fmt w}

theorem Spec.Exactly.same {r x : BitVec w} (h : Exactly F r (F.toReal x)) (hx : IsFin F x) : Same F r x :=
  same_of_real F h.1 hx h.2

theorem representable_self {x : BitVec w} (hx : IsFin F x) : Representable F (F.toReal x) := ⟨x, hx, rfl⟩

theorem representable_zero : Representable F 0 := by
  refine ⟨F.posZero, F.isFinite_pack _ F.infCode_pos, ?_⟩
  unfold Fmt.posZero
  rw [F.toReal_pack _ F.infCode_pos, mag_zero]; simp

theorem neutral_sgn {x : ℝ} (h : x = 0 ∨ x = 1 ∨ x = -1) : sgn x = x := by
  unfold sgn
  rcases h with rfl | rfl | rfl <;> norm_num

theorem neutral_sqrt {x : ℝ} (h : x = 0 ∨ x = 1 ∨ x = -1) : sgn x * Real.sqrt |x| = x := by
  rw [neutral_sgn h]
  rcases h with rfl | rfl | rfl <;> norm_num

/-- The steps of the algebraic functions. -/
theorem neutral_steps (op : UnOp) {x : BitVec w} (hx : IsFin F x) (hop : op ∈ [UnOp.abs, .sgn, .square, .cube, .signedSqrt, .reciprocal, .softclip])
    (h : UnNeutral64 op (F.toReal x)) : AllExact F (UnSteps op (F.toReal x)) (F.toReal x) := by
  have r0 : Representable F 0 := representable_zero
  have r := representable_self hx
  have one : ∀ {s v : ℝ}, s = v → Representable F v → AllExact F [s] v := fun {s v} e hv =>
    ⟨fun t ht => by rw [List.mem_singleton] at ht; rw [ht, e]; exact hv, by simpa using e⟩
  cases op with
  | abs => exact one (abs_of_nonneg h) r
  | sgn => exact one (neutral_sgn h) r
  | square => exact one (by rcases h with e | e <;> rw [e] <;> norm_num) r
  | signedSqrt => exact one (neutral_sqrt h) r
  | cube =>
    have e1 : F.toReal x * F.toReal x * F.toReal x = F.toReal x := by
      rcases h with e | e | e <;> rw [e] <;> norm_num
    refine ⟨fun s hs => ?_, by simpa [UnSteps] using e1⟩
    have hs' : s = F.toReal x * F.toReal x ∨ s = F.toReal x * F.toReal x * F.toReal x := by simpa [UnSteps] using hs
    rcases hs' with rfl | rfl
    · rcases h with e | e | e
      · rw [e, mul_zero]; exact r0
      · rw [e, mul_one, ← e]; exact r
      · refine ⟨F.negate x, by unfold IsFin; rw [F.isFinite_negate]; exact hx, ?_⟩
        rw [F.toReal_negate, e]; norm_num
    · rw [e1]; exact r
  | reciprocal =>
    have h0 : F.toReal x ≠ 0 := by rcases h with e | e <;> rw [e] <;> norm_num
    unfold UnSteps
    dsimp only
    rw [if_neg h0]
    exact one (by rcases h with e | e <;> rw [e] <;> norm_num) r
  | softclip =>
    unfold UnSteps
    dsimp only
    rw [if_pos (show |F.toReal x| < 1 / 2 from h)]
    exact one rfl r
  | _ => exact absurd hop (by decide)

theorem neutral_binary (op : BinOp) {x y : BitVec w} (hx : IsFin F x) (h : BinNeutral op (F.toReal x) (F.toReal y)) :
    AllExact F (BinSteps op (F.toReal x) (F.toReal y)) (F.toReal x) := by
  have r := representable_self hx
  have one : ∀ {s v : ℝ}, s = v → Representable F v → AllExact F [s] v := fun {s v} e hv =>
    ⟨fun t ht => by rw [List.mem_singleton] at ht; rw [ht, e]; exact hv, by simpa using e⟩
  cases op with
  | plus => exact one (by rw [show F.toReal y = 0 from h, add_zero]) r
  | sum => exact one (by rw [show F.toReal y = 0 from h, add_zero]) r
  | minus => exact one (by rw [show F.toReal y = 0 from h, sub_zero]) r
  | times => exact one (by rw [show F.toReal y = 1 from h, mul_one]) r
  | over =>
    have h1 : F.toReal y = 1 := h
    unfold BinSteps
    dsimp only
    rw [if_neg (by rw [h1]; norm_num)]
    exact one (by rw [h1, div_one]) r
  | min => exact one (min_eq_left h) r
  | max => exact one (max_eq_left h) r
  | clip2 =>
    have := abs_le.mp (show |F.toReal x| ≤ F.toReal y from h)
    exact one (by rw [min_eq_left this.2, max_eq_right this.1]) r
  | _ => exact h.elim

theorem neutral_ternary (h1 : Representable F 1) (op : TerOp) {x y z : BitVec w} (hx : IsFin F x)
    (h : TerNeutral op (F.toReal x) (F.toReal y) (F.toReal z)) :
    AllExact F (TerSteps op (F.toReal x) (F.toReal y) (F.toReal z)) (F.toReal x) := by
  have r := representable_self hx
  have r0 : Representable F 0 := representable_zero
  cases op with
  | clip =>
    have e : max (min (F.toReal x) (F.toReal z)) (F.toReal y) = F.toReal x := by rw [min_eq_left h.2, max_eq_left h.1]
    exact ⟨fun s hs => by rw [show s = _ from List.mem_singleton.mp hs, e]; exact r, by simpa [TerSteps] using e⟩
  | muladd =>
    obtain ⟨e, e'⟩ := h
    rw [e, e']
    refine ⟨fun s hs => ?_, by simp [TerSteps]⟩
    have : s = F.toReal x := by simpa [TerSteps] using hs
    rw [this]; exact r
  | ampmod =>
    have e : F.toReal y * F.toReal z = 0 := mul_eq_zero.mpr h
    refine ⟨fun s hs => ?_, by simp [TerSteps, e]⟩
    have : s = 0 ∨ s = 1 ∨ s = F.toReal x := by simpa [TerSteps, e] using hs
    rcases this with rfl | rfl | rfl <;> assumption
  | sum =>
    obtain ⟨e, e'⟩ := h
    rw [e, e']
    refine ⟨fun s hs => ?_, by simp [TerSteps]⟩
    have : s = F.toReal x := by simpa [TerSteps] using hs
    rw [this]; exact r

theorem neutral_quad (op : QuadOp) {x y z u : BitVec w} (hx : IsFin F x)
    (h : QuadNeutral op (F.toReal x) (F.toReal y) (F.toReal z) (F.toReal u)) :
    AllExact F (QuadSteps op (F.toReal x) (F.toReal y) (F.toReal z) (F.toReal u)) (F.toReal x) := by
  have r := representable_self hx
  have r0 : Representable F 0 := representable_zero
  cases op with
  | mix =>
    obtain ⟨e, e'⟩ := h
    rw [e, e']
    refine ⟨fun s hs => ?_, by simp [QuadSteps]⟩
    have : s = F.toReal x ∨ s = 0 := by
      have : s = F.toReal x ∨ s = 0 ∨ s = F.toReal x := by simpa [QuadSteps] using hs
      tauto
    rcases this with rfl | rfl <;> assumption
  | sum =>
    obtain ⟨e, e', e''⟩ := h
    rw [e, e', e'']
    refine ⟨fun s hs => ?_, by simp [QuadSteps]⟩
    have : s = F.toReal x ∨ s = 0 := by
      have : s = F.toReal x ∨ s = 0 ∨ s = F.toReal x := by simpa [QuadSteps] using hs
      tauto
    rcases this with rfl | rfl <;> assumption

theorem normal_code {x : BitVec w} (h : 2 ^ F.mb / 2 ^ F.scale ≤ |F.toReal x|) : ¬ F.code x < 2 ^ F.mb := by
  intro hc
  rw [abs_real, div_le_div_iff_of_pos_right (by positivity), mag_small (le_trans hc.le (Nat.pow_le_pow_right (by decide) (by omega)))] at h
  have : 2 ^ F.mb ≤ F.code x := by exact_mod_cast h
  omega

end generic

/-! ## Neutral settings -/

/-- One element of a unary function of `float`. -/
theorem C93_unary_float_partial (b : Build32) (P : Platform 32) (op : UnOp) (x : BitVec 32) (hx : IsFin binary32 x)
    (h : UnNeutral b P.c99 op (binary32.toReal x)) : ∃ r, op.f (b.lane P) x = .ok r ∧ Same binary32 r x := by
  have alg : op ∈ [UnOp.abs, .sgn, .square, .cube, .signedSqrt, .reciprocal, .softclip] → UnNeutral64 op (binary32.toReal x) →
      (op = .signedSqrt → b.exactSqrt = true) → (op = .reciprocal → b = .generic) →
      ∃ r, op.f (b.lane P) x = .ok r ∧ Same binary32 r x := fun hop hn hs hr => by
    obtain ⟨r, e, hr⟩ := C92_unary_float_partial b P op x _ hx hs hr (neutral_steps op hx hop hn)
    exact ⟨r, e, hr.same hx⟩
  cases op with
  | abs => exact alg (by decide) h (fun h => by cases h) (fun h => by cases h)
  | sgn => exact alg (by decide) h (fun h => by cases h) (fun h => by cases h)
  | square => exact alg (by decide) h (fun h => by cases h) (fun h => by cases h)
  | cube => exact alg (by decide) h (fun h => by cases h) (fun h => by cases h)
  | signedSqrt => exact alg (by decide) h.2 (fun _ => h.1) (fun h => by cases h)
  | reciprocal => exact alg (by decide) h.2 (fun h => by cases h) (fun _ => h.1)
  | softclip => exact alg (by decide) h (fun h => by cases h) (fun h => by cases h)
  | floor =>
    obtain ⟨k, hk⟩ := h
    exact ⟨_, rfl, .inl ((C41_floor_partial b P x hx hk).2.2.1 k)⟩
  | ceil =>
    obtain ⟨⟨k, e⟩, hk⟩ := h
    obtain ⟨f, v, -⟩ := C41_ceil_partial b P x hx hk
    refine ⟨_, rfl, same_of_real _ f hx ?_⟩
    rw [v, e, Int.ceil_intCast]
  | round =>
    obtain ⟨k, hk⟩ := h
    refine ⟨_, rfl, ?_⟩
    by_cases hb : b = .generic
    · subst hb
      change Same binary32 (Scalar.round binary32 P.c99 x) x
      unfold Scalar.round
      cases hc : P.c99
      · obtain ⟨k, e⟩ := k
        have hs : |binary32.toReal x| < 2 ^ 23 := hk.resolve_left (fun h => by rw [hc] at h; exact absurd (h.2 rfl) (by decide))
        have hh : Exactly binary32 (binary32.ofRat 0.5) (1 / 2) := ⟨soft32.hf, by rw [soft32.h]; norm_num⟩
        have kb : |k| < 2 ^ 23 := by rw [e] at hs; exact_mod_cast hs
        have ad := (show Exactly binary32 x (binary32.toReal x) from ⟨hx, rfl⟩).add hh (by
          have := C92_grid_float (2 * k + 1) 1 (by norm_num) (by rw [abs_lt] at kb; rw [abs_le]; omega)
          convert this using 1
          rw [e]; push_cast; ring)
        have rv := binary32.roundInt_value Fmt.wide32 .down ad.1
        refine same_of_real _ rv.1 hx ?_
        rw [if_neg (by decide), show _ = _ from rv.2.2, ad.2, e, Int.floor_intCast_add, show ⌊(1 / 2 : ℝ)⌋ = 0 by norm_num, add_zero]
      · exact .inl (roundInt_integral binary32 Fmt.wide32 .away hx k)
    · exact .inl ((C41_round_partial b hb P x hx (hk.imp_left And.left)).2.2 k)
  | trunc =>
    obtain ⟨⟨k, e⟩, hb, hk⟩ := h
    obtain ⟨r, er, f, v⟩ := C57_simd_partial b hb P x hx (.inr hk)
    refine ⟨r, er, same_of_real _ f hx ?_⟩
    rw [v, e, Int.floor_intCast, Int.ceil_intCast, ite_self]
  | frac =>
    have hn : binary32.neg x = false := by
      by_contra hc
      rw [Bool.not_eq_false] at hc
      have h0 := h.1
      rw [binary32.toReal_eq, hc, if_pos rfl] at h0
      have : (0 : ℝ) ≤ (mag binary32.mb (binary32.code x) : ℝ) / 2 ^ binary32.scale := by positivity
      linarith
    obtain ⟨-, f, -, -, v⟩ := C58_frac_partial b P x hx (.inr (by rw [abs_of_pos h.1]; linarith [h.2]))
    refine ⟨_, rfl, same_of_real _ f hx ?_⟩
    rw [v hn, Int.fract_eq_self.mpr ⟨h.1.le, h.2⟩]
  | undenormalize =>
    obtain ⟨hb, hv⟩ := h
    refine ⟨_, rfl, ?_⟩
    rw [undenormalize_lane32 b hb]
    rcases hv with e | e
    · have hc : binary32.code x = 0 := by
        by_contra hc
        have := abs_real (F := binary32) x
        rw [e, abs_zero] at this
        have hm : 0 < mag binary32.mb (binary32.code x) := Nat.pos_of_ne_zero fun h => hc (mag_eq_zero.mp h)
        have : (0 : ℝ) < mag binary32.mb (binary32.code x) / 2 ^ binary32.scale := by positivity
        linarith
      rw [if_pos (by rw [hc]; decide)]
      exact .inr ⟨by decide, hc⟩
    · have := normal_code (F := binary32) (x := x) (by
        rw [show binary32.mb = 23 from rfl, show binary32.scale = 149 by decide]
        convert e using 1; norm_num)
      rw [if_neg (show ¬ binary32.code x < 2 ^ 23 from this)]
      exact .inl rfl
  | _ => exact h.elim

/-- The same for `double`. -/
theorem C93_unary_double (b : Build64) (P : Platform 64) (op : UnOp) (x : BitVec 64) (hx : IsFin binary64 x)
    (h : UnNeutral64 op (binary64.toReal x)) : ∃ r, op.f (b.lane P) x = .ok r ∧ Same binary64 r x := by
  have alg : op ∈ [UnOp.abs, .sgn, .square, .cube, .signedSqrt, .reciprocal, .softclip] →
      ∃ r, op.f (b.lane P) x = .ok r ∧ Same binary64 r x := fun hop => by
    obtain ⟨r, e, hr⟩ := C92_unary_double b P op x _ hx (neutral_steps op hx hop h)
    exact ⟨r, e, hr.same hx⟩
  cases op with
  | abs => exact alg (by decide)
  | sgn => exact alg (by decide)
  | square => exact alg (by decide)
  | cube => exact alg (by decide)
  | signedSqrt => exact alg (by decide)
  | reciprocal => exact alg (by decide)
  | softclip => exact alg (by decide)
  | floor =>
    obtain ⟨k, e⟩ := h
    obtain ⟨-, -, f, -, -, v, -⟩ := C41_double b P x hx
    refine ⟨_, rfl, same_of_real _ f hx ?_⟩
    rw [v, e, Int.floor_intCast]
  | ceil =>
    obtain ⟨k, e⟩ := h
    obtain ⟨-, -, -, f, -, -, v, -⟩ := C41_double b P x hx
    refine ⟨_, rfl, same_of_real _ f hx ?_⟩
    rw [v, e, Int.ceil_intCast]
  | round =>
    refine ⟨_, rfl, ?_⟩
    have r := fun m => roundInt_integral binary64 Fmt.wide64 m hx h
    cases b with
    | generic => exact .inl (r .away)
    | sse2 s f =>
      cases s
      · exact .inl (r .away)
      · exact .inl (r .nearest)
    | avx f => exact .inl (r .nearest)
  | trunc =>
    obtain ⟨⟨k, e⟩, hk⟩ := h
    obtain ⟨r, er, f, v⟩ := C57_simd_double b P x hx hk
    refine ⟨r, er, same_of_real _ f hx ?_⟩
    rw [v, e, Int.floor_intCast, Int.ceil_intCast, ite_self]
  | frac =>
    have hn : binary64.neg x = false := by
      by_contra hc
      rw [Bool.not_eq_false] at hc
      have h0 := h.1
      rw [binary64.toReal_eq, hc, if_pos rfl] at h0
      have : (0 : ℝ) ≤ (mag binary64.mb (binary64.code x) : ℝ) / 2 ^ binary64.scale := by positivity
      linarith
    obtain ⟨-, f, -, -, v⟩ := C58_frac_double_partial b P x hx
    refine ⟨_, rfl, same_of_real _ f hx ?_⟩
    rw [v hn, Int.fract_eq_self.mpr ⟨h.1.le, h.2⟩]
  | undenormalize =>
    refine ⟨_, rfl, ?_⟩
    rw [undenormalize_lane64 b]
    rcases h with e | e
    · have hc : binary64.code x = 0 := by
        by_contra hc
        have := abs_real (F := binary64) x
        rw [e, abs_zero] at this
        have hm : 0 < mag binary64.mb (binary64.code x) := Nat.pos_of_ne_zero fun h => hc (mag_eq_zero.mp h)
        have : (0 : ℝ) < mag binary64.mb (binary64.code x) / 2 ^ binary64.scale := by positivity
        linarith
      rw [if_pos (by rw [hc]; decide)]
      exact .inr ⟨by decide +kernel, hc⟩
    · rw [if_neg (show ¬ binary64.code x < 2 ^ 52 from normal_code (F := binary64) e)]
      exact .inl rfl
  | _ => exact h.elim

/-- One element of a function of two `float`s. -/
theorem C93_binary_float_partial (b : Build32) (P : Platform 32) (op : BinOp) (x y : BitVec 32) (hx : IsFin binary32 x)
    (hy : IsFin binary32 y) (h : BinNeutral op (binary32.toReal x) (binary32.toReal y)) (ho : op = .over → divides b = true) :
    Same binary32 (op.f (b.lane P) x y) x :=
  (C92_binary_float_partial b P op x y _ hx hy (neutral_binary op hx h) ho).same hx

theorem C93_binary_double (b : Build64) (P : Platform 64) (op : BinOp) (x y : BitVec 64) (hx : IsFin binary64 x)
    (hy : IsFin binary64 y) (h : BinNeutral op (binary64.toReal x) (binary64.toReal y)) :
    Same binary64 (op.f (b.lane P) x y) x :=
  (C92_binary_double b P op x y _ hx hy (neutral_binary op hx h)).same hx

theorem C93_ternary_float (b : Build32) (P : Platform 32) (op : TerOp) (x y z : BitVec 32) (hx : IsFin binary32 x)
    (hy : IsFin binary32 y) (hz : IsFin binary32 z)
    (h : TerNeutral op (binary32.toReal x) (binary32.toReal y) (binary32.toReal z)) :
    Same binary32 (op.f (b.lane P) x y z) x :=
  (C92_ternary_float b P op x y z _ hx hy hz (neutral_ternary one_exactly32.representable op hx h)).same hx

theorem C93_ternary_double (b : Build64) (P : Platform 64) (op : TerOp) (x y z : BitVec 64) (hx : IsFin binary64 x)
    (hy : IsFin binary64 y) (hz : IsFin binary64 z)
    (h : TerNeutral op (binary64.toReal x) (binary64.toReal y) (binary64.toReal z)) :
    Same binary64 (op.f (b.lane P) x y z) x :=
  (C92_ternary_double b P op x y z _ hx hy hz (neutral_ternary one_exactly64.representable op hx h)).same hx

theorem C93_quad_float (b : Build32) (P : Platform 32) (op : QuadOp) (x y z u : BitVec 32) (hx : IsFin binary32 x)
    (hy : IsFin binary32 y) (hz : IsFin binary32 z) (hu : IsFin binary32 u)
    (h : QuadNeutral op (binary32.toReal x) (binary32.toReal y) (binary32.toReal z) (binary32.toReal u)) :
    Same binary32 (op.f (b.lane P) x y z u) x :=
  (C92_quad_float b P op x y z u _ hx hy hz hu (neutral_quad op hx h)).same hx

theorem C93_quad_double (b : Build64) (P : Platform 64) (op : QuadOp) (x y z u : BitVec 64) (hx : IsFin binary64 x)
    (hy : IsFin binary64 y) (hz : IsFin binary64 z) (hu : IsFin binary64 u)
    (h : QuadNeutral op (binary64.toReal x) (binary64.toReal y) (binary64.toReal z) (binary64.toReal u)) :
    Same binary64 (op.f (b.lane P) x y z u) x :=
  (C92_quad_double b P op x y z u _ hx hy hz hu (neutral_quad op hx h)).same hx

/-! ## Once is enough -/

theorem floor_bound {x : ℝ} (h : |x| ≤ 2 ^ 23 - 1) : |(⌊x⌋ : ℝ)| < 2 ^ 23 := by
  obtain ⟨l, u⟩ := abs_le.mp h
  have a : (-(2 ^ 23 - 1) : ℤ) ≤ ⌊x⌋ := Int.le_floor.mpr (by push_cast; linarith)
  have b : (⌊x⌋ : ℝ) ≤ x := Int.floor_le x
  have a' : (-(2 ^ 23 - 1) : ℝ) ≤ ⌊x⌋ := by exact_mod_cast a
  rw [abs_lt]; constructor <;> linarith

theorem ceil_bound {x : ℝ} (h : |x| ≤ 2 ^ 23 - 1) : |(⌈x⌉ : ℝ)| < 2 ^ 23 := by
  obtain ⟨l, u⟩ := abs_le.mp h
  have a : ⌈x⌉ ≤ (2 ^ 23 - 1 : ℤ) := Int.ceil_le.mpr (by push_cast; linarith)
  have b : x ≤ (⌈x⌉ : ℝ) := Int.le_ceil x
  have a' : (⌈x⌉ : ℝ) ≤ (2 ^ 23 - 1 : ℝ) := by exact_mod_cast a
  rw [abs_lt]; constructor <;> linarith

theorem truncate_bound (x : ℝ) : |(if 0 ≤ x then (⌊x⌋ : ℝ) else ⌈x⌉)| ≤ |x| := by
  by_cases h : 0 ≤ x
  · rw [if_pos h, abs_of_nonneg h, abs_of_nonneg (by exact_mod_cast Int.floor_nonneg.mpr h)]
    exact Int.floor_le x
  · rw [if_neg h]
    have h' := not_le.mp h
    have : ⌈x⌉ ≤ 0 := Int.ceil_le.mpr (by push_cast; linarith)
    rw [abs_of_neg h', abs_of_nonpos (by exact_mod_cast this)]
    linarith [Int.le_ceil x]

theorem whole_truncate (x : ℝ) : Whole (if 0 ≤ x then (⌊x⌋ : ℝ) else ⌈x⌉) := by
  split <;> exact ⟨_, rfl⟩

theorem sgn_cases (x : ℝ) : sgn x = 0 ∨ sgn x = 1 ∨ sgn x = -1 := by
  unfold sgn
  split
  · simp
  · split <;> simp

theorem round_bound {m : Fmt.Mode} (hm : m = .nearest ∨ m = .away) {v r : ℝ} (h : Fmt.IsRounded m v r) :
    Whole r ∧ |v - r| ≤ 1 / 2 := by
  rcases hm with rfl | rfl
  · obtain ⟨k, rfl, b, -⟩ := h; exact ⟨⟨k, rfl⟩, b⟩
  · obtain ⟨k, rfl, b, -⟩ := h; exact ⟨⟨k, rfl⟩, b⟩

/-- The result of a function of one `float` is left unchanged by the function. -/
theorem C93_once_float_partial (b : Build32) (P : Platform 32) (op : UnOp) (x : BitVec 32) (hx : IsFin binary32 x)
    (h : UnOnce b P.c99 op (binary32.toReal x)) :
    ∃ r s, op.f (b.lane P) x = .ok r ∧ op.f (b.lane P) r = .ok s ∧ IsFin binary32 r ∧ Same binary32 s r := by
  have key : ∀ r, op.f (b.lane P) x = .ok r → IsFin binary32 r → UnNeutral b P.c99 op (binary32.toReal r) →
      ∃ r s, op.f (b.lane P) x = .ok r ∧ op.f (b.lane P) r = .ok s ∧ IsFin binary32 r ∧ Same binary32 s r := fun r e f n => by
    obtain ⟨s, e', hs⟩ := C93_unary_float_partial b P op r f n
    exact ⟨r, s, e, e', f, hs⟩
  have one : ∀ {v : ℝ}, Representable binary32 v → AllExact binary32 [v] v := fun {v} hv =>
    ⟨fun t ht => by rw [List.mem_singleton.mp ht]; exact hv, rfl⟩
  cases op with
  | abs =>
    have rep : Representable binary32 |binary32.toReal x| :=
      ⟨binary32.fabs x, by unfold IsFin; simpa using hx, binary32.toReal_fabs x⟩
    obtain ⟨r, e, v⟩ := C92_unary_float_partial b P .abs x _ hx (fun h => by cases h) (fun h => by cases h) (one rep)
    exact key r e v.1 (by rw [v.2]; exact abs_nonneg _)
  | sgn =>
    have rep : Representable binary32 (sgn (binary32.toReal x)) := by
      rcases sgn_cases (binary32.toReal x) with e | e | e <;> rw [e]
      · exact representable_zero
      · exact one_exactly32.representable
      · exact one_exactly32.negate.representable
    obtain ⟨r, e, v⟩ := C92_unary_float_partial b P .sgn x _ hx (fun h => by cases h) (fun h => by cases h) (one rep)
    exact key r e v.1 (by rw [v.2]; exact sgn_cases _)
  | floor =>
    obtain ⟨f, v, -⟩ := C41_floor_partial b P x hx (h.imp_right fun h => by linarith)
    exact key _ rfl f ⟨⟨_, v⟩, h.imp_right fun h => by rw [v]; exact floor_bound h⟩
  | ceil =>
    obtain ⟨f, v, -⟩ := C41_ceil_partial b P x hx (h.imp_right fun h => by linarith)
    exact key _ rfl f ⟨⟨_, v⟩, h.imp_right fun h => by rw [v]; exact ceil_bound h⟩
  | round =>
    obtain ⟨hc, hr⟩ := h
    have fin : IsFin binary32 ((b.lane P).round x) ∧ Whole (binary32.toReal ((b.lane P).round x)) ∧
        |binary32.toReal x - binary32.toReal ((b.lane P).round x)| ≤ 1 / 2 := by
      by_cases hb : b = .generic
      · have e : (b.lane P).round x = binary32.roundInt .away x := by
          subst hb
          change Scalar.round binary32 P.c99 x = _
          rw [hc rfl]; rfl
        rw [e]
        have rv := binary32.roundInt_value Fmt.wide32 .away hx
        exact ⟨rv.1, round_bound (.inr rfl) rv.2.2⟩
      · obtain ⟨f, v, -⟩ := C41_round_partial b hb P x hx (hr.imp_right fun h => by linarith)
        exact ⟨f, round_bound (.inl rfl) v⟩
    refine key _ rfl fin.1 ⟨fin.2.1, ?_⟩
    rcases hr with hr | hr
    · exact .inl ⟨hr, hc⟩
    · right
      obtain ⟨l, u⟩ := abs_le.mp hr
      obtain ⟨l', u'⟩ := abs_le.mp fin.2.2
      rw [abs_lt]; constructor <;> linarith
  | trunc =>
    obtain ⟨hb, hk⟩ := h
    obtain ⟨r, er, f, v⟩ := C57_simd_partial b hb P x hx (.inr hk)
    exact key r er f ⟨by rw [v]; exact whole_truncate _, hb, by rw [v]; exact (truncate_bound _).trans_lt hk⟩
  | undenormalize =>
    have hb : b.hasUndenormalize = true := h
    have e := undenormalize_lane32 b hb P x
    by_cases hc : binary32.code x < 2 ^ 23
    · rw [if_pos hc] at e
      exact key 0#32 (by change Except.ok ((b.lane P).undenormalize x) = _; rw [e]) (by decide) ⟨hb, .inl (by
        rw [binary32.toReal_eq, show binary32.code 0#32 = 0 by decide, mag_zero]; simp)⟩
    · rw [if_neg hc] at e
      have e' : UnOp.undenormalize.f (b.lane P) x = .ok x := by change Except.ok ((b.lane P).undenormalize x) = _; rw [e]
      exact ⟨x, x, e', e', hx, .inl rfl⟩
  | _ => exact h.elim

/-- The same for `double`. -/
theorem C93_once_double (b : Build64) (P : Platform 64) (op : UnOp) (x : BitVec 64) (hx : IsFin binary64 x)
    (h : UnOnce64 op (binary64.toReal x)) :
    ∃ r s, op.f (b.lane P) x = .ok r ∧ op.f (b.lane P) r = .ok s ∧ IsFin binary64 r ∧ Same binary64 s r := by
  have key : ∀ r, op.f (b.lane P) x = .ok r → IsFin binary64 r → UnNeutral64 op (binary64.toReal r) →
      ∃ r s, op.f (b.lane P) x = .ok r ∧ op.f (b.lane P) r = .ok s ∧ IsFin binary64 r ∧ Same binary64 s r := fun r e f n => by
    obtain ⟨s, e', hs⟩ := C93_unary_double b P op r f n
    exact ⟨r, s, e, e', f, hs⟩
  have one : ∀ {v : ℝ}, Representable binary64 v → AllExact binary64 [v] v := fun {v} hv =>
    ⟨fun t ht => by rw [List.mem_singleton.mp ht]; exact hv, rfl⟩
  cases op with
  | abs =>
    have rep : Representable binary64 |binary64.toReal x| :=
      ⟨binary64.fabs x, by unfold IsFin; simpa using hx, binary64.toReal_fabs x⟩
    obtain ⟨r, e, v⟩ := C92_unary_double b P .abs x _ hx (one rep)
    exact key r e v.1 (by rw [v.2]; exact abs_nonneg _)
  | sgn =>
    have rep : Representable binary64 (sgn (binary64.toReal x)) := by
      rcases sgn_cases (binary64.toReal x) with e | e | e <;> rw [e]
      · exact representable_zero
      · exact one_exactly64.representable
      · exact one_exactly64.negate.representable
    obtain ⟨r, e, v⟩ := C92_unary_double b P .sgn x _ hx (one rep)
    exact key r e v.1 (by rw [v.2]; exact sgn_cases _)
  | floor =>
    obtain ⟨-, -, f, -, -, v, -⟩ := C41_double b P x hx
    exact key _ rfl f ⟨_, v⟩
  | ceil =>
    obtain ⟨-, -, -, f, -, -, v, -⟩ := C41_double b P x hx
    exact key _ rfl f ⟨_, v⟩
  | round =>
    obtain ⟨-, -, -, -, f, -, -, v⟩ := C41_double b P x hx
    refine key _ rfl f ?_
    rcases v with v | v
    · exact (round_bound (.inl rfl) v).1
    · exact (round_bound (.inr rfl) v).1
  | trunc =>
    obtain ⟨r, er, f, v⟩ := C57_simd_double b P x hx h
    exact key r er f ⟨by rw [v]; exact whole_truncate _, by rw [v]; exact (truncate_bound _).trans_lt h⟩
  | undenormalize =>
    have e := undenormalize_lane64 b P x
    by_cases hc : binary64.code x < 2 ^ 52
    · rw [if_pos hc] at e
      exact key 0#64 (by change Except.ok ((b.lane P).undenormalize x) = _; rw [e]) (by decide +kernel) (.inl (by
        rw [binary64.toReal_eq, show binary64.code 0#64 = 0 by decide +kernel, mag_zero]; simp))
    · rw [if_neg hc] at e
      have e' : UnOp.undenormalize.f (b.lane P) x = .ok x := by change Except.ok ((b.lane P).undenormalize x) = _; rw [e]
      exact ⟨x, x, e', e', hx, .inl rfl⟩
  | _ => exact h.elim

section generic
variable {w : Nat} {F : Fmt w}

theorem limits_once {A : Arith (BitVec w)} (O : OrderOps F A) {x y z : BitVec w} (hx : Num F x) (hy : Num F y) (hz : Num F z) :
    Same F (A.min_ (A.min_ x y) y) (A.min_ x y) ∧ Same F (A.max_ (A.max_ x y) y) (A.max_ x y) ∧
    Same F (Functor.clip2 A (Functor.clip2 A x y) y) (Functor.clip2 A x y) ∧
    Same F (Functor.clip A (Functor.clip A x y z) y z) (Functor.clip A x y z) := by
  refine ⟨?_, ?_, ?_, ?_⟩
  · have n := O.min.num hx hy
    refine same_of_value F (O.min.num n hy) n ?_
    rw [O.min.val _ _ n hy, O.min.val _ _ hx hy, min_assoc, min_self]
  · have n := O.max.num hx hy
    refine same_of_value F (O.max.num n hy) n ?_
    rw [O.max.val _ _ n hy, O.max.val _ _ hx hy, max_assoc, max_self]
  · obtain ⟨n, v⟩ := clip2_spec F O.max O.min O.zero O.sub hx hy
    obtain ⟨n', v'⟩ := clip2_spec F O.max O.min O.zero O.sub n hy
    refine same_of_value F n' n ?_
    rw [v', v]
    generalize -F.toEReal y = a
    generalize F.toEReal y = b
    generalize F.toEReal x = c
    rw [min_max_distrib_right, ← max_assoc, min_assoc, min_self]
    congr 1
    exact max_eq_left (min_le_left _ _)
  · obtain ⟨n, v⟩ := clip_spec F O.max O.min hx hy hz
    obtain ⟨n', v'⟩ := clip_spec F O.max O.min n hy hz
    refine same_of_value F n' n ?_
    rw [v', v]
    generalize F.toEReal y = a
    generalize F.toEReal z = b
    generalize F.toEReal x = c
    rw [min_max_distrib_right, ← max_assoc, min_assoc, min_self]
    congr 1
    exact max_eq_left (min_le_left _ _)

end generic

/-- Limiting twice is limiting once: minimum, maximum, `clip2`, `clip`; infinities included, whatever the order of the
limits. -/
theorem C93_limits (b : Build32) (P : Platform 32) (b' : Build64) (P' : Platform 64) :
    (∀ op ∈ [BinOp.min, .max, .clip2], ∀ x y : BitVec 32, Num binary32 x → Num binary32 y →
      Same binary32 (op.f (b.lane P) (op.f (b.lane P) x y) y) (op.f (b.lane P) x y)) ∧
    (∀ x y z : BitVec 32, Num binary32 x → Num binary32 y → Num binary32 z →
      Same binary32 (TerOp.clip.f (b.lane P) (TerOp.clip.f (b.lane P) x y z) y z) (TerOp.clip.f (b.lane P) x y z)) ∧
    (∀ op ∈ [BinOp.min, .max, .clip2], ∀ x y : BitVec 64, Num binary64 x → Num binary64 y →
      Same binary64 (op.f (b'.lane P') (op.f (b'.lane P') x y) y) (op.f (b'.lane P') x y)) ∧
    (∀ x y z : BitVec 64, Num binary64 x → Num binary64 y → Num binary64 z →
      Same binary64 (TerOp.clip.f (b'.lane P') (TerOp.clip.f (b'.lane P') x y z) y z) (TerOp.clip.f (b'.lane P') x y z)) := by
  refine ⟨fun op hop x y hx hy => ?_, fun x y z hx hy hz => (limits_once (lane_orderOps32 b P) hx hy hz).2.2.2,
    fun op hop x y hx hy => ?_, fun x y z hx hy hz => (limits_once (lane_orderOps64 b' P') hx hy hz).2.2.2⟩
  · have l := limits_once (lane_orderOps32 b P) hx hy hy
    simp only [List.mem_cons, List.not_mem_nil, or_false] at hop
    rcases hop with rfl | rfl | rfl
    · exact l.1
    · exact l.2.1
    · exact l.2.2.1
  · have l := limits_once (lane_orderOps64 b' P') hx hy hy
    simp only [List.mem_cons, List.not_mem_nil, or_false] at hop
    rcases hop with rfl | rfl | rfl
    · exact l.1
    · exact l.2.1
    · exact l.2.2.1

/-! ## Whole calls -/

/-- `f_vec_simd(out, in, n)` for `float` copies its input. -/
theorem C93_unary_calls_float_partial (b : Build32) (P : Platform 32) (op : UnOp)
    {m : Mem (BitVec 32)} {out inp : Nat} {n : BitVec 32} {x : Nat → BitVec 32} (hn : 0 < n.toNat)
    (hmul : b.target.perLine ∣ n.toNat) (hoal : b.target.align ∣ out) (hial : b.target.align ∣ inp)
    (hout : Allocated m out n.toNat) (hin : Holds m inp n.toNat x) (hs : SafePlacement out inp n.toNat)
    (hx : ∀ i, i < n.toNat → IsFin binary32 (x i) ∧ UnNeutral b P.c99 op (binary32.toReal (x i))) :
    ∃ y : Nat → BitVec 32, op.vecSimd (b.vec P) out inp n m = .ok ((), overwrite m out n.toNat y) ∧
      ∀ i, i < n.toNat → Same binary32 (y i) (x i) := by
  classical
  have h := fun i hi => C93_unary_float_partial b P op (x i) (hx i hi).1 (hx i hi).2
  choose y h1 h2 using h
  refine ⟨fun i => if h : i < n.toNat then y i h else 0, ?_, ?_⟩
  · refine C01_unary_simd b.target (b.env P) op hn hmul hoal hial hout hin hs fun i h => ?_
    rw [dif_pos h]; exact h1 i h
  · intro i h; simp only [dif_pos h]; exact h2 i h

/-- A second call, on the buffer the first one has written, changes nothing. -/
theorem C93_once_calls_float_partial (b : Build32) (P : Platform 32) (op : UnOp)
    {m : Mem (BitVec 32)} {out inp : Nat} {n : BitVec 32} {x : Nat → BitVec 32} (hn : 0 < n.toNat)
    (hmul : b.target.perLine ∣ n.toNat) (hoal : b.target.align ∣ out) (hial : b.target.align ∣ inp)
    (hout : Allocated m out n.toNat) (hin : Holds m inp n.toNat x) (hs : SafePlacement out inp n.toNat)
    (hx : ∀ i, i < n.toNat → IsFin binary32 (x i) ∧ UnOnce b P.c99 op (binary32.toReal (x i))) :
    ∃ y z : Nat → BitVec 32, op.vecSimd (b.vec P) out inp n m = .ok ((), overwrite m out n.toNat y) ∧
      op.vecSimd (b.vec P) out out n (overwrite m out n.toNat y) =
        .ok ((), overwrite (overwrite m out n.toNat y) out n.toNat z) ∧
      ∀ i, i < n.toNat → Same binary32 (z i) (y i) := by
  classical
  have h := fun i hi => C93_once_float_partial b P op (x i) (hx i hi).1 (hx i hi).2
  choose y z h1 h2 h3 h4 using h
  refine ⟨fun i => if h : i < n.toNat then y i h else 0, fun i => if h : i < n.toNat then z i h else 0, ?_, ?_, ?_⟩
  · refine C01_unary_simd b.target (b.env P) op hn hmul hoal hial hout hin hs fun i h => ?_
    rw [dif_pos h]; exact h1 i h
  · refine C01_unary_simd b.target (b.env P) op (x := fun i => if h : i < n.toNat then y i h else 0) hn hmul hoal hoal
      ?_ ?_ (.inl (by rfl)) fun i h => ?_
    · exact fun i hi => overwrite_alloc (hout i hi)
    · exact fun i hi => overwrite_inside hi
    · simp only [dif_pos h]; exact h2 i h
  · intro i h; simp only [dif_pos h]; exact h4 i h

/-- `f_vec_simd` with two arguments for `float`: buffers, numbers or ramps. -/
theorem C93_binary_calls_float_partial (bd : Build32) (P : Platform 32) (op : BinOp)
    (ho : op = .over → divides bd = true)
    {m : Mem (BitVec 32)} {out : Nat} {a b : SArg (BitVec 32)} {n : BitVec 32}
    {x y : Nat → BitVec 32} (hn : 0 < n.toNat) (hmul : bd.target.perLine ∣ n.toNat)
    (hoal : bd.target.align ∣ out) (hout : Allocated m out n.toNat)
    (ha : SimdSupplies (bd.vec P) bd.target.align m out n.toNat a x)
    (hb : SimdSupplies (bd.vec P) bd.target.align m out n.toNat b y)
    (hx : ∀ i, i < n.toNat → IsFin binary32 (x i) ∧ IsFin binary32 (y i) ∧
      BinNeutral op (binary32.toReal (x i)) (binary32.toReal (y i))) :
    ∃ r : Nat → BitVec 32, op.vecSimd (bd.vec P) out a b n m = .ok ((), overwrite m out n.toNat r) ∧
      ∀ i, i < n.toNat → Same binary32 (r i) (x i) :=
  ⟨_, C02_binary_simd bd.target (bd.env P) op hn hmul hoal hout ha hb,
    fun i hi => C93_binary_float_partial bd P op (x i) (y i) (hx i hi).1 (hx i hi).2.1 (hx i hi).2.2 ho⟩

/-- `f_vec_simd` with three arguments for `float`: buffers, numbers or ramps. -/
theorem C93_ternary_calls_float (bd : Build32) (P : Platform 32) (op : TerOp)
    {m : Mem (BitVec 32)} {out : Nat} {a b g : SArg (BitVec 32)} {n : BitVec 32}
    {x y z : Nat → BitVec 32} (hn : 0 < n.toNat) (hmul : bd.target.perLine ∣ n.toNat)
    (hoal : bd.target.align ∣ out) (hout : Allocated m out n.toNat)
    (ha : SimdSupplies (bd.vec P) bd.target.align m out n.toNat a x)
    (hb : SimdSupplies (bd.vec P) bd.target.align m out n.toNat b y)
    (hg : SimdSupplies (bd.vec P) bd.target.align m out n.toNat g z)
    (hx : ∀ i, i < n.toNat → IsFin binary32 (x i) ∧ IsFin binary32 (y i) ∧ IsFin binary32 (z i) ∧
      TerNeutral op (binary32.toReal (x i)) (binary32.toReal (y i)) (binary32.toReal (z i))) :
    ∃ r : Nat → BitVec 32, op.vecSimd (bd.vec P) out a b g n m = .ok ((), overwrite m out n.toNat r) ∧
      ∀ i, i < n.toNat → Same binary32 (r i) (x i) :=
  ⟨_, C03_ternary_simd bd.target (bd.env P) op hn hmul hoal hout ha hb hg,
    fun i hi => C93_ternary_float bd P op (x i) (y i) (z i) (hx i hi).1 (hx i hi).2.1 (hx i hi).2.2.1 (hx i hi).2.2.2⟩

/-- `f_vec_simd` with four arguments for `float`: buffers, numbers or ramps. -/
theorem C93_quad_calls_float (bd : Build32) (P : Platform 32) (op : QuadOp)
    {m : Mem (BitVec 32)} {out : Nat} {a b g q : SArg (BitVec 32)} {n : BitVec 32}
    {x y z u : Nat → BitVec 32} (hn : 0 < n.toNat) (hmul : bd.target.perLine ∣ n.toNat)
    (hoal : bd.target.align ∣ out) (hout : Allocated m out n.toNat)
    (ha : SimdSupplies (bd.vec P) bd.target.align m out n.toNat a x)
    (hb : SimdSupplies (bd.vec P) bd.target.align m out n.toNat b y)
    (hg : SimdSupplies (bd.vec P) bd.target.align m out n.toNat g z)
    (hq : SimdSupplies (bd.vec P) bd.target.align m out n.toNat q u)
    (hx : ∀ i, i < n.toNat → IsFin binary32 (x i) ∧ IsFin binary32 (y i) ∧ IsFin binary32 (z i) ∧ IsFin binary32 (u i) ∧
      QuadNeutral op (binary32.toReal (x i)) (binary32.toReal (y i)) (binary32.toReal (z i)) (binary32.toReal (u i))) :
    ∃ r : Nat → BitVec 32, op.vecSimd (bd.vec P) out a b g q n m = .ok ((), overwrite m out n.toNat r) ∧
      ∀ i, i < n.toNat → Same binary32 (r i) (x i) :=
  ⟨_, C04_quad_simd bd.target (bd.env P) op hn hmul hoal hout ha hb hg hq,
    fun i hi => C93_quad_float bd P op (x i) (y i) (z i) (u i) (hx i hi).1 (hx i hi).2.1 (hx i hi).2.2.1 (hx i hi).2.2.2.1 (hx i hi).2.2.2.2⟩

/-- `f_vec_simd(out, in, n)` for `double` copies its input. -/
theorem C93_unary_calls_double (b : Build64) (P : Platform 64) (op : UnOp)
    {m : Mem (BitVec 64)} {out inp : Nat} {n : BitVec 32} {x : Nat → BitVec 64} (hn : 0 < n.toNat)
    (hmul : b.target.perLine ∣ n.toNat) (hoal : b.target.align ∣ out) (hial : b.target.align ∣ inp)
    (hout : Allocated m out n.toNat) (hin : Holds m inp n.toNat x) (hs : SafePlacement out inp n.toNat)
    (hx : ∀ i, i < n.toNat → IsFin binary64 (x i) ∧ UnNeutral64 op (binary64.toReal (x i))) :
    ∃ y : Nat → BitVec 64, op.vecSimd (b.vec P) out inp n m = .ok ((), overwrite m out n.toNat y) ∧
      ∀ i, i < n.toNat → Same binary64 (y i) (x i) := by
  classical
  have h := fun i hi => C93_unary_double b P op (x i) (hx i hi).1 (hx i hi).2
  choose y h1 h2 using h
  refine ⟨fun i => if h : i < n.toNat then y i h else 0, ?_, ?_⟩
  · refine C01_unary_simd b.target (b.env P) op hn hmul hoal hial hout hin hs fun i h => ?_
    rw [dif_pos h]; exact h1 i h
  · intro i h; simp only [dif_pos h]; exact h2 i h

/-- A second call, on the buffer the first one has written, changes nothing. -/
theorem C93_once_calls_double (b : Build64) (P : Platform 64) (op : UnOp)
    {m : Mem (BitVec 64)} {out inp : Nat} {n : BitVec 32} {x : Nat → BitVec 64} (hn : 0 < n.toNat)
    (hmul : b.target.perLine ∣ n.toNat) (hoal : b.target.align ∣ out) (hial : b.target.align ∣ inp)
    (hout : Allocated m out n.toNat) (hin : Holds m inp n.toNat x) (hs : SafePlacement out inp n.toNat)
    (hx : ∀ i, i < n.toNat → IsFin binary64 (x i) ∧ UnOnce64 op (binary64.toReal (x i))) :
    ∃ y z : Nat → BitVec 64, op.vecSimd (b.vec P) out inp n m = .ok ((), overwrite m out n.toNat y) ∧
      op.vecSimd (b.vec P) out out n (overwrite m out n.toNat y) =
        .ok ((), overwrite (overwrite m out n.toNat y) out n.toNat z) ∧
      ∀ i, i < n.toNat → Same binary64 (z i) (y i) := by
  classical
  have h := fun i hi => C93_once_double b P op (x i) (hx i hi).1 (hx i hi).2
  choose y z h1 h2 h3 h4 using h
  refine ⟨fun i => if h : i < n.toNat then y i h else 0, fun i => if h : i < n.toNat then z i h else 0, ?_, ?_, ?_⟩
  · refine C01_unary_simd b.target (b.env P) op hn hmul hoal hial hout hin hs fun i h => ?_
    rw [dif_pos h]; exact h1 i h
  · refine C01_unary_simd b.target (b.env P) op (x := fun i => if h : i < n.toNat then y i h else 0) hn hmul hoal hoal
      ?_ ?_ (.inl (by rfl)) fun i h => ?_
    · exact fun i hi => overwrite_alloc (hout i hi)
    · exact fun i hi => overwrite_inside hi
    · simp only [dif_pos h]; exact h2 i h
  · intro i h; simp only [dif_pos h]; exact h4 i h

/-- `f_vec_simd` with two arguments for `double`: buffers, numbers or ramps. -/
theorem C93_binary_calls_double (bd : Build64) (P : Platform 64) (op : BinOp)
    {m : Mem (BitVec 64)} {out : Nat} {a b : SArg (BitVec 64)} {n : BitVec 32}
    {x y : Nat → BitVec 64} (hn : 0 < n.toNat) (hmul : bd.target.perLine ∣ n.toNat)
    (hoal : bd.target.align ∣ out) (hout : Allocated m out n.toNat)
    (ha : SimdSupplies (bd.vec P) bd.target.align m out n.toNat a x)
    (hb : SimdSupplies (bd.vec P) bd.target.align m out n.toNat b y)
    (hx : ∀ i, i < n.toNat → IsFin binary64 (x i) ∧ IsFin binary64 (y i) ∧
      BinNeutral op (binary64.toReal (x i)) (binary64.toReal (y i))) :
    ∃ r : Nat → BitVec 64, op.vecSimd (bd.vec P) out a b n m = .ok ((), overwrite m out n.toNat r) ∧
      ∀ i, i < n.toNat → Same binary64 (r i) (x i) :=
  ⟨_, C02_binary_simd bd.target (bd.env P) op hn hmul hoal hout ha hb,
    fun i hi => C93_binary_double bd P op (x i) (y i) (hx i hi).1 (hx i hi).2.1 (hx i hi).2.2⟩

/-- `f_vec_simd` with three arguments for `double`: buffers, numbers or ramps. -/
theorem C93_ternary_calls_double (bd : Build64) (P : Platform 64) (op : TerOp)
    {m : Mem (BitVec 64)} {out : Nat} {a b g : SArg (BitVec 64)} {n : BitVec 32}
    {x y z : Nat → BitVec 64} (hn : 0 < n.toNat) (hmul : bd.target.perLine ∣ n.toNat)
    (hoal : bd.target.align ∣ out) (hout : Allocated m out n.toNat)
    (ha : SimdSupplies (bd.vec P) bd.target.align m out n.toNat a x)
    (hb : SimdSupplies (bd.vec P) bd.target.align m out n.toNat b y)
    (hg : SimdSupplies (bd.vec P) bd.target.align m out n.toNat g z)
    (hx : ∀ i, i < n.toNat → IsFin binary64 (x i) ∧ IsFin binary64 (y i) ∧ IsFin binary64 (z i) ∧
      TerNeutral op (binary64.toReal (x i)) (binary64.toReal (y i)) (binary64.toReal (z i))) :
    ∃ r : Nat → BitVec 64, op.vecSimd (bd.vec P) out a b g n m = .ok ((), overwrite m out n.toNat r) ∧
      ∀ i, i < n.toNat → Same binary64 (r i) (x i) :=
  ⟨_, C03_ternary_simd bd.target (bd.env P) op hn hmul hoal hout ha hb hg,
    fun i hi => C93_ternary_double bd P op (x i) (y i) (z i) (hx i hi).1 (hx i hi).2.1 (hx i hi).2.2.1 (hx i hi).2.2.2⟩

/-- `f_vec_simd` with four arguments for `double`: buffers, numbers or ramps. -/
theorem C93_quad_calls_double (bd : Build64) (P : Platform 64) (op : QuadOp)
    {m : Mem (BitVec 64)} {out : Nat} {a b g q : SArg (BitVec 64)} {n : BitVec 32}
    {x y z u : Nat → BitVec 64} (hn : 0 < n.toNat) (hmul : bd.target.perLine ∣ n.toNat)
    (hoal : bd.target.align ∣ out) (hout : Allocated m out n.toNat)
    (ha : SimdSupplies (bd.vec P) bd.target.align m out n.toNat a x)
    (hb : SimdSupplies (bd.vec P) bd.target.align m out n.toNat b y)
    (hg : SimdSupplies (bd.vec P) bd.target.align m out n.toNat g z)
    (hq : SimdSupplies (bd.vec P) bd.target.align m out n.toNat q u)
    (hx : ∀ i, i < n.toNat → IsFin binary64 (x i) ∧ IsFin binary64 (y i) ∧ IsFin binary64 (z i) ∧ IsFin binary64 (u i) ∧
      QuadNeutral op (binary64.toReal (x i)) (binary64.toReal (y i)) (binary64.toReal (z i)) (binary64.toReal (u i))) :
    ∃ r : Nat → BitVec 64, op.vecSimd (bd.vec P) out a b g q n m = .ok ((), overwrite m out n.toNat r) ∧
      ∀ i, i < n.toNat → Same binary64 (r i) (x i) :=
  ⟨_, C04_quad_simd bd.target (bd.env P) op hn hmul hoal hout ha hb hg hq,
    fun i hi => C93_quad_double bd P op (x i) (y i) (z i) (u i) (hx i hi).1 (hx i hi).2.1 (hx i hi).2.2.1 (hx i hi).2.2.2.1 (hx i hi).2.2.2.2⟩

/-! ## What is not neutral -/

/-- A muted channel is not silent if it holds an infinity: mixed at gain 0 it destroys the other channel. -/
theorem C93_negation_muted (b : Build32) (P : Platform 32) (x : BitVec 32) :
    Num binary32 0x7f800000#32 ∧ binary32.toReal 0#32 = 0 ∧ binary32.toReal 0x3f800000#32 = 1 ∧
    binary32.isNaN (QuadOp.mix.f (b.lane P) x 0x3f800000#32 0x7f800000#32 0#32) = true := by
  refine ⟨by decide, ?_, (val32 (x := 0x3f800000#32) 1 (by decide +kernel)).2.trans (by norm_num), ?_⟩
  · rw [binary32.toReal_eq, show binary32.code 0#32 = 0 by decide, mag_zero]; simp
  · change binary32.isNaN ((b.lane P).add ((b.lane P).mul x 0x3f800000#32) ((b.lane P).mul 0x7f800000#32 0#32)) = true
    by_contra h
    rw [Bool.not_eq_true, lane_add32] at h
    have n := (add_num h).2
    by_cases hb : multiplies b = true
    · rw [lane_mul32' b hb] at n; exact absurd n (by decide +kernel)
    · cases b <;> first | exact absurd rfl hb | skip
      rw [altivec_mul] at n; exact absurd n (by decide +kernel)

/-- Without C99 the scalar `round` is `floor(x + 0.5)`, and the sum is rounded: 8388609 becomes 8388610. -/
theorem C93_negation_round (P : Platform 32) (hP : P.c99 = false) :
    Whole (binary32.toReal 0x4B000001#32) ∧ (Build32.scalar P).round 0x4B000001#32 = 0x4B000002#32 ∧
    ¬ Same binary32 ((Build32.scalar P).round 0x4B000001#32) 0x4B000001#32 := by
  have e : (Build32.scalar P).round 0x4B000001#32 = 0x4B000002#32 := by rw [scalar_round, hP]; decide +kernel
  refine ⟨⟨8388609, ?_⟩, e, ?_⟩
  · rw [(val32 (x := 0x4B000001#32) 8388609 (by decide +kernel)).2]; norm_num
  · rw [e]; unfold Same; decide +kernel

/-- The sign of a zero may change: `-0 + 0 = +0`. -/
theorem C93_zero_sign (b : Build32) (P : Platform 32) : BinOp.plus.f (b.lane P) 0x80000000#32 0#32 = 0#32 := by
  change (b.lane P).add _ _ = _
  rw [lane_add32]; decide +kernel

/-! ## Examples -/

/-- A gain of 1. -/
example : BinNeutral .times (binary32.toReal 0x40490fdb#32) (binary32.toReal 0x3f800000#32) :=
  (val32 (x := 0x3f800000#32) 1 (by decide +kernel)).2.trans (by norm_num)

/-- 2.5 rounded: 2 (SSE4.1), and 2 stays. -/
example (P : Platform 32) : UnOnce (.avx true) P.c99 .round (binary32.toReal 0x40200000#32) ∧
    (Build32.avx true |>.lane P).round 0x40200000#32 = 0x40000000#32 ∧
    (Build32.avx true |>.lane P).round 0x40000000#32 = 0x40000000#32 :=
  ⟨⟨fun h => (by injection h), Or.inl rfl⟩,
    (by decide +kernel : (Build32.avx true |>.lane platform0).round 0x40200000#32 = 0x40000000#32),
    (by decide +kernel : (Build32.avx true |>.lane platform0).round 0x40000000#32 = 0x40000000#32)⟩

end Nova
