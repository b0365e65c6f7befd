import Verif.Lemmas.BasicFinal
import Verif.Props.C05_Sizes
import Verif.Props.C46_Exp
import Verif.Props.C52_Reciprocal
import Verif.Props.C61_Trig
import Verif.Props.C70_Atan
import Verif.Props.C71_Asin
import Verif.Props.C73_Tanh
import Verif.Props.C74_Pow
import Verif.Props.C77_Units

/-!
# C76 whole calls in single precision

`f_vec_simd(out, in, n)` and `f_vec_simd<N>(out, in)` for every public function `f` in every build with vector mathematics
(SSE2 and later): each element written is a finite float within the tolerance of `SpecAccuracy` of the mathematical value
at the element(s) read, and nothing else is written.

Two facts about the platform are assumed: the constants 1/log 2 and 1/log 10 are rounded correctly by the compiler
(`GoodLogs`), and `rcpps` has the relative error Intel and AMD document, 1.5 * 2^-12 (`GoodRcp`).
-/

namespace Nova
open FP VecMath Spec

/-- The documented accuracy of `rcpps`, away from overflow and underflow. -/
def Platform.GoodRcp (P : Platform 32) : Prop :=
  ∀ x, IsFin binary32 x → 1 / 2 ^ 100 ≤ |binary32.toReal x| → |binary32.toReal x| ≤ 2 ^ 100 →
    IsFin binary32 (P.rcp x) ∧ |1 - binary32.toReal x * binary32.toReal (P.rcp x)| ≤ 3 / 2 ^ 13

theorem normal_of_ge {x : BitVec 32} (hx : IsFin binary32 x) (h : 1 / 2 ^ 126 ≤ binary32.toReal x) :
    IsNormal x ∧ 0 < binary32.toReal x :=
  ⟨isNormal_of_value hx (h.trans (le_abs_self _)), lt_of_lt_of_le (by positivity) h⟩

/-- One element of a unary function. -/
theorem C76_unary (b : Build32) (hb : b.simdMath = true) (P : Platform 32) (hP : P.GoodLogs) (hrcp : P.GoodRcp)
    (op : UnOp) (x : BitVec 32) (hx : IsFin binary32 x) (hr : UnRange op (binary32.toReal x)) :
    ∃ r, op.f (b.lane P) x = .ok r ∧ IsFin binary32 r ∧ UnNear op (binary32.toReal x) (binary32.toReal r) := by
  have hN : Num binary32 x := binary32.isFinite_not_nan hx
  cases op with
  | abs =>
    refine ⟨_, rfl, ?_, (C33_abs_value_float b P x).1 hx⟩
    rw [lane_abs32]; unfold IsFin at hx ⊢; rw [binary32.isFinite_fabs]; exact hx
  | sgn =>
    obtain ⟨h1, h2, h3⟩ := C39_sign_float b P x hN
    rw [binary32.toEReal_of_finite hx] at h1 h2 h3
    refine ⟨_, rfl, ?_⟩
    change IsFin binary32 ((b.lane P).sign x) ∧ binary32.toReal ((b.lane P).sign x) = sgn _
    rcases lt_trichotomy (binary32.toReal x) 0 with h | h | h
    · obtain ⟨o1, o2⟩ := val32 (x := 0xbf800000#32) (-1) (by decide +kernel)
      rw [(h2 (by exact_mod_cast h)).1, sgn_of_neg h, o2]
      exact ⟨o1, by norm_num⟩
    · rw [(h3 (by exact_mod_cast h)).1, if_neg (by rintro rfl; exact absurd hb (by decide)), h, sgn_zero]
      exact ⟨hx, rfl⟩
    · obtain ⟨o1, o2⟩ := val32 (x := 0x3f800000#32) 1 (by decide +kernel)
      rw [(h1 (by exact_mod_cast h)).1, sgn_of_pos h, o2]
      exact ⟨o1, by norm_num⟩
  | square =>
    refine ⟨_, rfl, ?_⟩
    have e : (b.lane P).square x = binary32.mul x x := by
      cases b <;> first | rfl | exact absurd hb (by decide)
    rw [e]
    obtain ⟨f, h⟩ := square_near hx hr
    refine ⟨f, h.trans (add_le_add_left (mul_le_mul_of_nonneg_right (by norm_num) (sq_nonneg _)) _)⟩
  | cube =>
    refine ⟨_, rfl, ?_⟩
    have h := cube_near hx hr
    cases b with
    | sse => exact h.1
    | avx => exact h.2
    | _ => exact absurd hb (by decide)
  | round =>
    have hg : b ≠ .generic := by rintro rfl; exact absurd hb (by decide)
    obtain ⟨f, h, -⟩ := C41_round_partial b hg P x hx (.inr hr)
    exact ⟨_, rfl, f, h⟩
  | frac =>
    obtain ⟨-, f, h0, h1, -⟩ := C58_frac_partial b P x hx (.inr hr)
    refine ⟨_, rfl, f, h0, h1, ?_⟩
    obtain ⟨ff, fv, -⟩ := C41_floor_partial b P x hx (.inr hr)
    have e : (b.lane P).frac x = binary32.sub x ((b.lane P).floor x) := by
      cases b <;> rfl
    obtain ⟨-, h⟩ := sub_near32 hx ff (by
      rw [fv, Int.self_sub_floor, abs_of_nonneg (Int.fract_nonneg _)]
      exact (Int.fract_lt_one _).le.trans (by norm_num))
    rw [fv, Int.self_sub_floor, abs_of_nonneg (a := Int.fract (binary32.toReal x)) (Int.fract_nonneg _)] at h
    rw [e]
    exact h.trans (mul_le_mul_of_nonneg_right (by norm_num) (Int.fract_nonneg _))
  | ceil =>
    obtain ⟨f, h, -⟩ := C41_ceil_partial b P x hx (.inr hr)
    exact ⟨_, rfl, f, h⟩
  | floor =>
    obtain ⟨f, h, -⟩ := C41_floor_partial b P x hx (.inr hr)
    exact ⟨_, rfl, f, h⟩
  | trunc =>
    have hg : b ≠ .altivec := by rintro rfl; exact absurd hb (by decide)
    exact C57_simd_partial b hg P x hx (.inr hr)
  | undenormalize =>
    have hu : b.hasUndenormalize = true := by cases b <;> first | rfl | exact absurd hb (by decide)
    have h := C40_undenormalize_value b hu P x hx
    refine ⟨_, rfl, ?_, ?_⟩
    · rw [(C40_undenormalize_float b hu P x).1]
      split
      · decide
      · exact hx
    · change binary32.toReal ((b.lane P).undenormalize x) = _ ∨ binary32.toReal ((b.lane P).undenormalize x) = _ ∧ _
      rw [h]
      split
      · exact .inr ⟨rfl, by assumption⟩
      · exact .inl rfl
  | reciprocal =>
    have hre : b.refines := by cases b <;> first | rfl | exact absurd hb (by decide)
    obtain ⟨h1, h2⟩ := hrcp x hx hr.1 hr.2
    have hg : GoodEstimate x (P.rcp x) (3 / 2 ^ 13) := ⟨hx, h1, hr.1, hr.2, by norm_num, h2⟩
    exact ⟨_, rfl, (C52_reciprocal b hre P x _ hg).1, C52_x86 b hre P x hg⟩
  | sin => exact ⟨_, rfl, C61_sin b hb P x hx hr⟩
  | cos => exact ⟨_, rfl, C61_cos b hb P x hx hr⟩
  | tan => exact ⟨_, rfl, C62_tan b hb P x hx hr.1 hr.2⟩
  | asin => exact ⟨_, rfl, C71_asin b hb P x hx hr⟩
  | acos => exact ⟨_, rfl, C72_acos_partial b hb P x hx hr.1 hr.2⟩
  | atan => exact ⟨_, rfl, C70_atan b hb P x hx⟩
  | tanh => exact ⟨_, rfl, C73_tanh b hb P x hx⟩
  | log => obtain ⟨n, p⟩ := normal_of_ge hx hr; exact ⟨_, rfl, C63_log b hb P x n p⟩
  | log2 => obtain ⟨n, p⟩ := normal_of_ge hx hr; exact ⟨_, rfl, C63_log2 b hb P x n p hP.fin2 hP.two⟩
  | log10 => obtain ⟨n, p⟩ := normal_of_ge hx hr; exact ⟨_, rfl, C63_log10 b hb P x n p hP.fin10 hP.ten⟩
  | exp => exact ⟨_, rfl, C60_exp b hb P x hx hr.1 hr.2⟩
  | signedSqrt =>
    have hs : b.exactSqrt = true := by cases b <;> first | rfl | exact absurd hb (by decide)
    obtain ⟨-, -, h1, h2⟩ := C43_signed_sqrt_float b hs P x hN
    exact ⟨_, rfl, signedSqrt_near hx h1 h2⟩
  | midi2freq => exact C77_midi2freq b hb P x hx hr
  | midi2ratio => exact C77_midi2ratio b hb P x hx hr
  | oct2freq => exact C77_oct2freq b hb P x hx hr
  | db2amp => exact C77_db2amp b hb P x hx hr
  | ratio2midi => obtain ⟨n, p⟩ := normal_of_ge hx hr; exact C77_ratio2midi b hb P hP x n p
  | amp2db => exact C77_amp2db b hb P hP x hx hr
  | freq2midi =>
    obtain ⟨r, h1, h2, h3⟩ := C77_freq2midi b hb P hP x hx hr
    refine ⟨r, h1, h2, ?_⟩
    rwa [add_comm, mul_comm] at h3
  | freq2oct =>
    obtain ⟨r, h1, h2, h3⟩ := C77_freq2oct b hb P hP x hx hr
    refine ⟨r, h1, h2, ?_⟩
    rwa [add_comm] at h3
  | softclip =>
    obtain ⟨h1, h2, h3⟩ := softclip_near hx hr
    have e : (b.lane P).softclip x = Scalar.softclip binary32 x := C48_softclip_float b P x
    obtain ⟨-, -, l, u⟩ := C48_softclip_finite_float b P x hx
    rw [e, binary32.toEReal_of_finite h1] at l u
    refine ⟨_, rfl, ?_⟩
    rw [e]
    refine ⟨h1, h2, fun h => ⟨abs_le.mpr ⟨?_, ?_⟩, h3 h⟩⟩
    · rw [show (-1 : EReal) = ((-1 : ℝ) : EReal) by simp] at l
      exact EReal.coe_le_coe_iff.mp l
    · rw [show (1 : EReal) = ((1 : ℝ) : EReal) by simp] at u
      exact EReal.coe_le_coe_iff.mp u

/-! ## Minimum, maximum, limits and comparisons on finite values -/

theorem max_fin {f : BitVec 32 → BitVec 32 → BitVec 32} (h : IsMax binary32 f) {x y : BitVec 32}
    (hx : IsFin binary32 x) (hy : IsFin binary32 y) :
    IsFin binary32 (f x y) ∧ binary32.toReal (f x y) = max (binary32.toReal x) (binary32.toReal y) := by
  have nx := binary32.isFinite_not_nan hx
  have ny := binary32.isFinite_not_nan hy
  have hf : IsFin binary32 (f x y) := by rcases h.mem x y nx ny with e | e <;> rw [e] <;> assumption
  refine ⟨hf, ?_⟩
  have := h.val x y nx ny
  rw [binary32.toEReal_of_finite hf, binary32.toEReal_of_finite hx, binary32.toEReal_of_finite hy,
    ← EReal.coe_strictMono.monotone.map_max] at this
  exact EReal.coe_eq_coe_iff.mp this

theorem min_fin {f : BitVec 32 → BitVec 32 → BitVec 32} (h : IsMin binary32 f) {x y : BitVec 32}
    (hx : IsFin binary32 x) (hy : IsFin binary32 y) :
    IsFin binary32 (f x y) ∧ binary32.toReal (f x y) = min (binary32.toReal x) (binary32.toReal y) := by
  have nx := binary32.isFinite_not_nan hx
  have ny := binary32.isFinite_not_nan hy
  have hf : IsFin binary32 (f x y) := by rcases h.mem x y nx ny with e | e <;> rw [e] <;> assumption
  refine ⟨hf, ?_⟩
  have := h.val x y nx ny
  rw [binary32.toEReal_of_finite hf, binary32.toEReal_of_finite hx, binary32.toEReal_of_finite hy,
    ← EReal.coe_strictMono.monotone.map_min] at this
  exact EReal.coe_eq_coe_iff.mp this

theorem zero_sub_fin {x : BitVec 32} (hx : IsFin binary32 x) :
    IsFin binary32 (binary32.sub binary32.posZero x) ∧
    binary32.toReal (binary32.sub binary32.posZero x) = -binary32.toReal x := by
  have nx := binary32.isFinite_not_nan hx
  have hf : IsFin binary32 (binary32.sub binary32.posZero x) := by
    rw [binary32.zero_sub nx]
    split
    · decide
    · unfold IsFin at *; simpa using hx
  refine ⟨hf, ?_⟩
  have := (binary32.toEReal_zero_sub nx).1
  rw [binary32.toEReal_of_finite hf, binary32.toEReal_of_finite hx] at this
  exact_mod_cast this

theorem lane_zero32' (b : Build32) (P : Platform 32) : (b.lane P).zero = binary32.posZero := by
  cases b with
  | sse s f => exact (C34_sse f P).1.trans (by decide)
  | _ => exact (show binary32.ofInt 0 = binary32.posZero by decide +kernel)

/-- A relational operator gives 1 or 0. -/
theorem rel_fin (b : Build32) (P : Platform 32) (r : Rel) {x y : BitVec 32} (hx : IsFin binary32 x)
    (hy : IsFin binary32 y) :
    IsFin binary32 (r.op.f (b.lane P) x y) ∧ (r.Holds binary32 x y → binary32.toReal (r.op.f (b.lane P) x y) = 1) ∧
    (¬ r.Holds binary32 x y → binary32.toReal (r.op.f (b.lane P) x y) = 0) := by
  have nx := binary32.isFinite_not_nan hx
  have ny := binary32.isFinite_not_nan hy
  obtain ⟨o1, o2⟩ := val32 (x := 0x3f800000#32) 1 (by decide +kernel)
  obtain ⟨z1, z2⟩ := val32 (x := 0x00000000#32) 0 (by decide +kernel)
  obtain ⟨h1, h2⟩ := C35_relational_avx_float_partial b P r x y nx ny
  refine ⟨?_, fun h => ?_, fun h => ?_⟩
  · by_cases h : r.Holds binary32 x y
    · rw [h1 h]; exact o1
    · rw [h2 h]; exact z1
  · rw [h1 h, o2]; norm_num
  · rw [h2 h, z2]; norm_num

theorem ite_of {p q : Prop} [Decidable q] {v : ℝ} (hpq : p ↔ q) (h1 : p → v = 1) (h0 : ¬ p → v = 0) :
    v = if q then 1 else 0 := by
  by_cases h : q
  · rw [if_pos h]; exact h1 (hpq.mpr h)
  · rw [if_neg h]; exact h0 (fun hp => h (hpq.mp hp))

/-- One element of a binary function. -/
theorem C76_binary (b : Build32) (hb : b.simdMath = true) (P : Platform 32)
    (op : BinOp) (x y : BitVec 32) (hx : IsFin binary32 x) (hy : IsFin binary32 y)
    (hr : BinRange op (binary32.toReal x) (binary32.toReal y)) :
    IsFin binary32 (op.f (b.lane P) x y) ∧
    BinNear op (binary32.toReal x) (binary32.toReal y) (binary32.toReal (op.f (b.lane P) x y)) := by
  classical
  have nx : Num binary32 x := binary32.isFinite_not_nan hx
  have ny : Num binary32 y := binary32.isFinite_not_nan hy
  have ex := binary32.toEReal_of_finite hx
  have ey := binary32.toEReal_of_finite hy
  have hn : b ≠ .neon ∧ b ≠ .altivec := by
    constructor <;> (rintro rfl; exact absurd hb (by decide))
  cases op with
  | plus => change IsFin _ ((b.lane P).add x y) ∧ |binary32.toReal ((b.lane P).add x y) - _| ≤ _
            rw [lane_add32]; exact add_near32 hx hy hr
  | sum => change IsFin _ ((b.lane P).add x y) ∧ |binary32.toReal ((b.lane P).add x y) - _| ≤ _
           rw [lane_add32]; exact add_near32 hx hy hr
  | minus => change IsFin _ ((b.lane P).sub x y) ∧ |binary32.toReal ((b.lane P).sub x y) - _| ≤ _
             rw [lane_sub32']; exact sub_near32 hx hy hr
  | times => change IsFin _ ((b.lane P).mul x y) ∧ |binary32.toReal ((b.lane P).mul x y) - _| ≤ _
             rw [lane_mul32 b hb]; exact mul_near32 hx hy hr
  | over => change IsFin _ ((b.lane P).div x y) ∧ |binary32.toReal ((b.lane P).div x y) - _| ≤ _
            rw [C59_exact b hn]; exact div_near32 hx hy hr.1 hr.2
  | min =>
    obtain ⟨f, v⟩ := min_fin (isMin_lane32 b P) hx hy
    refine ⟨f, ?_⟩
    change BinMeans .min _ _ (binary32.toReal ((b.lane P).min_ x y))
    rw [v]
    exact ⟨min_choice _ _, min_le_left _ _, min_le_right _ _⟩
  | max =>
    obtain ⟨f, v⟩ := max_fin (isMax_lane32 b P) hx hy
    refine ⟨f, ?_⟩
    change BinMeans .max _ _ (binary32.toReal ((b.lane P).max_ x y))
    rw [v]
    exact ⟨max_choice _ _, le_max_left _ _, le_max_right _ _⟩
  | less =>
    obtain ⟨f, h1, h0⟩ := rel_fin b P .less hx hy
    exact ⟨f, ite_of ⟨fun h => by have := h.2.2; rwa [ex, ey, EReal.coe_lt_coe_iff] at this, fun h => ⟨nx, ny, by rwa [ex, ey, EReal.coe_lt_coe_iff]⟩⟩ h1 h0⟩
  | lessEqual =>
    obtain ⟨f, h1, h0⟩ := rel_fin b P .lessEqual hx hy
    exact ⟨f, ite_of ⟨fun h => by have := h.2.2; rwa [ex, ey, EReal.coe_le_coe_iff] at this, fun h => ⟨nx, ny, by rwa [ex, ey, EReal.coe_le_coe_iff]⟩⟩ h1 h0⟩
  | greater =>
    obtain ⟨f, h1, h0⟩ := rel_fin b P .greater hx hy
    exact ⟨f, ite_of ⟨fun h => by have := h.2.2; rwa [ex, ey, gt_iff_lt, EReal.coe_lt_coe_iff] at this, fun h => ⟨nx, ny, by rwa [ex, ey, gt_iff_lt, EReal.coe_lt_coe_iff]⟩⟩ h1 h0⟩
  | greaterEqual =>
    obtain ⟨f, h1, h0⟩ := rel_fin b P .greaterEqual hx hy
    exact ⟨f, ite_of ⟨fun h => by have := h.2.2; rwa [ex, ey, ge_iff_le, EReal.coe_le_coe_iff] at this, fun h => ⟨nx, ny, by rwa [ex, ey, ge_iff_le, EReal.coe_le_coe_iff]⟩⟩ h1 h0⟩
  | equal =>
    obtain ⟨f, h1, h0⟩ := rel_fin b P .equal hx hy
    exact ⟨f, ite_of ⟨fun h => by have := h.2.2; rwa [ex, ey, EReal.coe_eq_coe_iff] at this, fun h => ⟨nx, ny, by rwa [ex, ey, EReal.coe_eq_coe_iff]⟩⟩ h1 h0⟩
  | notequal =>
    obtain ⟨f, h1, h0⟩ := rel_fin b P .notEqual hx hy
    have := ite_of (q := ¬ (binary32.toReal x = binary32.toReal y))
      ⟨fun h e => h ⟨nx, ny, by rw [ex, ey, e]⟩, fun h e => h (by have := e.2.2; rwa [ex, ey, EReal.coe_eq_coe_iff] at this)⟩ h1 h0
    rw [ite_not] at this
    exact ⟨f, this⟩
  | clip2 =>
    obtain ⟨f1, v1⟩ := zero_sub_fin hy
    obtain ⟨f2, v2⟩ := min_fin (isMin_lane32 b P) hx hy
    obtain ⟨f3, v3⟩ := max_fin (isMax_lane32 b P) f1 f2
    have e : BinOp.clip2.f (b.lane P) x y = (b.lane P).max_ (binary32.sub binary32.posZero y) ((b.lane P).min_ x y) := by
      change Functor.clip2 (b.lane P) x y = _
      unfold Functor.clip2
      rw [lane_zero32', lane_sub32']
    rw [e]
    refine ⟨f3, ?_⟩
    change 0 ≤ binary32.toReal y at hr
    rw [v3, v1, v2]
    generalize binary32.toReal x = u at *
    generalize binary32.toReal y = v at *
    refine ⟨le_max_left _ _, max_le (by linarith) (min_le_right _ _), fun h => ?_, fun h => ?_, fun h => ?_⟩
    · rw [abs_le] at h; rw [min_eq_left h.2, max_eq_right h.1]
    · rw [min_eq_right h.le, max_eq_right (by linarith)]
    · rw [min_eq_left (by linarith), max_eq_left h.le]
  | pow =>
    obtain ⟨n, p⟩ := normal_of_ge hx hr.1
    exact C74_pow b hb P x y n p hy hr.2.1 hr.2.2
  | spow =>
    obtain ⟨f, h⟩ := C74_signed_pow b hb P x y (isNormal_of_value hx hr.1) hy hr.2.1 hr.2.2
    rw [← sgn_eq_sign] at h
    exact ⟨f, h⟩

theorem lane_madd_sse (s : Bool) (f : Sse.Flags) (P : Platform 32) (x y z : BitVec 32) :
    ((Build32.sse s f).lane P).madd x y z = if f.fma then binary32.fma x y z else binary32.add (binary32.mul x y) z := rfl
theorem lane_madd_avx (f : Bool) (P : Platform 32) (x y z : BitVec 32) :
    ((Build32.avx f).lane P).madd x y z = if f then binary32.fma x y z else binary32.add (binary32.mul x y) z := rfl

theorem lane_madd32 (b : Build32) (hb : b.simdMath = true) (P : Platform 32) (x y z : BitVec 32) :
    (b.lane P).madd x y z = binary32.fma x y z ∨ (b.lane P).madd x y z = binary32.add (binary32.mul x y) z := by
  cases b with
  | sse s f => rw [lane_madd_sse]; cases f.fma <;> simp
  | avx f => rw [lane_madd_avx]; cases f <;> simp
  | _ => exact absurd hb (by decide)

/-- One element of a ternary function. -/
theorem C76_ternary (b : Build32) (hb : b.simdMath = true) (P : Platform 32)
    (op : TerOp) (x y z : BitVec 32) (hx : IsFin binary32 x) (hy : IsFin binary32 y) (hz : IsFin binary32 z)
    (hr : TerRange op (binary32.toReal x) (binary32.toReal y) (binary32.toReal z)) :
    IsFin binary32 (op.f (b.lane P) x y z) ∧
    TerNear op (binary32.toReal x) (binary32.toReal y) (binary32.toReal z) (binary32.toReal (op.f (b.lane P) x y z)) := by
  cases op with
  | clip =>
    obtain ⟨f2, v2⟩ := min_fin (isMin_lane32 b P) hx hz
    obtain ⟨f3, v3⟩ := max_fin (isMax_lane32 b P) f2 hy
    refine ⟨f3, ?_⟩
    change TerMeans .clip _ _ _ (binary32.toReal ((b.lane P).max_ ((b.lane P).min_ x z) y))
    change binary32.toReal y ≤ binary32.toReal z at hr
    rw [v3, v2]
    generalize binary32.toReal x = u at *
    generalize binary32.toReal y = v at *
    generalize binary32.toReal z = w at *
    refine ⟨le_max_right _ _, max_le (min_le_right _ _) hr, fun h h' => ?_, fun h => ?_, fun h => ?_⟩
    · rw [min_eq_left h', max_eq_left h]
    · rw [min_eq_left (by linarith), max_eq_right h.le]
    · rw [min_eq_right h.le, max_eq_left hr]
  | muladd =>
    obtain ⟨h1, h2⟩ := madd_near hx hy hz hr.1 hr.2
    obtain e | e := lane_madd32 b hb P x y z
    · rw [show TerOp.muladd.f (b.lane P) x y z = (b.lane P).madd x y z from rfl, e]; exact h1
    · rw [show TerOp.muladd.f (b.lane P) x y z = (b.lane P).madd x y z from rfl, e]; exact h2
  | ampmod =>
    have e : TerOp.ampmod.f (b.lane P) x y z = binary32.mul x (binary32.add 0x3f800000#32 (binary32.mul y z)) := by
      change Functor.ampmod (b.lane P) x y z = _
      unfold Functor.ampmod
      rw [lane_mul32 b hb, lane_add32, lane_one32]
    rw [e]
    exact ampmod_near hx hy hz hr.1 hr.2
  | sum =>
    have e : TerOp.sum.f (b.lane P) x y z = binary32.add (binary32.add x y) z := by
      change Functor.sum3 (b.lane P) x y z = _
      unfold Functor.sum3
      rw [lane_add32]
    rw [e]
    exact sum3_near hx hy hz hr.1 hr.2.1 hr.2.2

/-- One element of a function with four arguments. -/
theorem C76_quad (b : Build32) (hb : b.simdMath = true) (P : Platform 32)
    (op : QuadOp) (x y z u : BitVec 32) (hx : IsFin binary32 x) (hy : IsFin binary32 y) (hz : IsFin binary32 z)
    (hu : IsFin binary32 u)
    (hr : QuadRange op (binary32.toReal x) (binary32.toReal y) (binary32.toReal z) (binary32.toReal u)) :
    IsFin binary32 (op.f (b.lane P) x y z u) ∧
    QuadNear op (binary32.toReal x) (binary32.toReal y) (binary32.toReal z) (binary32.toReal u)
      (binary32.toReal (op.f (b.lane P) x y z u)) := by
  cases op with
  | mix =>
    have e : QuadOp.mix.f (b.lane P) x y z u = binary32.add (binary32.mul x y) (binary32.mul z u) := by
      change Functor.mix2 (b.lane P) x y z u = _
      unfold Functor.mix2
      rw [lane_mul32 b hb, lane_add32]
    rw [e]
    exact mix_near hx hy hz hu hr.1 hr.2
  | sum =>
    have e : QuadOp.sum.f (b.lane P) x y z u = binary32.add (binary32.add x y) (binary32.add z u) := by
      change Functor.sum4 (b.lane P) x y z u = _
      unfold Functor.sum4
      rw [lane_add32]
    rw [e]
    exact sum4_near hx hy hz hu hr.1 hr.2.1 hr.2.2.1 hr.2.2.2

/-! ## Whole calls -/

/-- `f_vec_simd(out, in, n)`. -/
theorem C76_unary_simd (b : Build32) (hb : b.simdMath = true) (P : Platform 32) (hP : P.GoodLogs) (hrcp : P.GoodRcp)
    (op : UnOp) {m : Mem (BitVec 32)} {out inp : Nat} {n : BitVec 32} {x : Nat → BitVec 32} (hn : 0 < n.toNat)
    (hmul : b.target.perLine ∣ n.toNat) (hoal : b.target.align ∣ out) (hial : b.target.align ∣ inp)
    (hout : Allocated m out n.toNat) (hin : Holds m inp n.toNat x) (hs : SafePlacement out inp n.toNat)
    (hx : ∀ i, i < n.toNat → IsFin binary32 (x i) ∧ UnRange op (binary32.toReal (x i))) :
    ∃ y : Nat → BitVec 32, op.vecSimd (b.vec P) out inp n m = .ok ((), overwrite m out n.toNat y) ∧
      ∀ i, i < n.toNat → IsFin binary32 (y i) ∧ UnNear op (binary32.toReal (x i)) (binary32.toReal (y i)) := by
  classical
  choose y hy using fun i (h : i < n.toNat) => C76_unary b hb P hP hrcp op (x i) (hx i h).1 (hx i h).2
  refine ⟨fun i => if h : i < n.toNat then y i h else 0, ?_, fun i h => ?_⟩
  · refine C01_unary_simd b.target (b.env P) op hn hmul hoal hial hout hin hs fun i h => ?_
    rw [dif_pos h]; exact (hy i h).1
  · simp only [dif_pos h]; exact (hy i h).2

/-- `f_vec_simd<N>(out, in)`. -/
theorem C76_unary_simdN (b : Build32) (hb : b.simdMath = true) (P : Platform 32) (hP : P.GoodLogs) (hrcp : P.GoodRcp)
    (op : UnOp) {m : Mem (BitVec 32)} {out inp N : Nat} {x : Nat → BitVec 32} (hN : 0 < N)
    (hmul : b.target.size ∣ N) (hoal : b.target.align ∣ out) (hial : b.target.align ∣ inp)
    (hout : Allocated m out N) (hin : Holds m inp N x) (hs : SafePlacement out inp N)
    (hx : ∀ i, i < N → IsFin binary32 (x i) ∧ UnRange op (binary32.toReal (x i))) :
    ∃ y : Nat → BitVec 32, op.vecSimdN (b.vec P) N out inp m = .ok ((), overwrite m out N y) ∧
      ∀ i, i < N → IsFin binary32 (y i) ∧ UnNear op (binary32.toReal (x i)) (binary32.toReal (y i)) := by
  classical
  choose y hy using fun i (h : i < N) => C76_unary b hb P hP hrcp op (x i) (hx i h).1 (hx i h).2
  refine ⟨fun i => if h : i < N then y i h else 0, ?_, fun i h => ?_⟩
  · refine C05_unary_compileTime b.target (b.env P) op hN hmul hoal hial hout hin hs fun i h => ?_
    rw [dif_pos h]; exact (hy i h).1
  · simp only [dif_pos h]; exact (hy i h).2

/-- `f_vec_simd(out, arg0, arg1, n)`, every argument a pointer, a number or a ramp. -/
theorem C76_binary_simd (bd : Build32) (hb : bd.simdMath = true) (P : Platform 32) (op : BinOp)
    {m : Mem (BitVec 32)} {out : Nat} {a b : SArg (BitVec 32)} {n : BitVec 32} {x y : Nat → BitVec 32}
    (hn : 0 < n.toNat) (hmul : bd.target.perLine ∣ n.toNat) (hoal : bd.target.align ∣ out)
    (hout : Allocated m out n.toNat) (ha : SimdSupplies (bd.vec P) bd.target.align m out n.toNat a x)
    (hb' : SimdSupplies (bd.vec P) bd.target.align m out n.toNat b y)
    (hx : ∀ i, i < n.toNat → IsFin binary32 (x i) ∧ IsFin binary32 (y i) ∧
      BinRange op (binary32.toReal (x i)) (binary32.toReal (y i))) :
    ∃ z : Nat → BitVec 32, op.vecSimd (bd.vec P) out a b n m = .ok ((), overwrite m out n.toNat z) ∧
      ∀ i, i < n.toNat → IsFin binary32 (z i) ∧
        BinNear op (binary32.toReal (x i)) (binary32.toReal (y i)) (binary32.toReal (z i)) :=
  ⟨_, C02_binary_simd bd.target (bd.env P) op hn hmul hoal hout ha hb', fun i h =>
    C76_binary bd hb P op (x i) (y i) (hx i h).1 (hx i h).2.1 (hx i h).2.2⟩

/-- `f_vec_simd<N>(out, arg0, arg1)`. -/
theorem C76_binary_simdN (bd : Build32) (hb : bd.simdMath = true) (P : Platform 32) (op : BinOp)
    {m : Mem (BitVec 32)} {out N : Nat} {a b : SArg (BitVec 32)} {x y : Nat → BitVec 32}
    (hN : 0 < N) (hmul : bd.target.size ∣ N) (hoal : bd.target.align ∣ out)
    (hout : Allocated m out N) (ha : SimdSupplies (bd.vec P) bd.target.align m out N a x)
    (hb' : SimdSupplies (bd.vec P) bd.target.align m out N b y)
    (hx : ∀ i, i < N → IsFin binary32 (x i) ∧ IsFin binary32 (y i) ∧
      BinRange op (binary32.toReal (x i)) (binary32.toReal (y i))) :
    ∃ z : Nat → BitVec 32, op.vecSimdN (bd.vec P) N out a b m = .ok ((), overwrite m out N z) ∧
      ∀ i, i < N → IsFin binary32 (z i) ∧
        BinNear op (binary32.toReal (x i)) (binary32.toReal (y i)) (binary32.toReal (z i)) :=
  ⟨_, C05_binary_compileTime bd.target (bd.env P) op hN hmul hoal hout ha hb', fun i h =>
    C76_binary bd hb P op (x i) (y i) (hx i h).1 (hx i h).2.1 (hx i h).2.2⟩

/-- `f_vec_simd(out, arg0, arg1, arg2, n)`. -/
theorem C76_ternary_simd (bd : Build32) (hb : bd.simdMath = true) (P : Platform 32) (op : TerOp)
    {m : Mem (BitVec 32)} {out : Nat} {a b c : SArg (BitVec 32)} {n : BitVec 32} {x y z : Nat → BitVec 32}
    (hn : 0 < n.toNat) (hmul : bd.target.perLine ∣ n.toNat) (hoal : bd.target.align ∣ out)
    (hout : Allocated m out n.toNat) (ha : SimdSupplies (bd.vec P) bd.target.align m out n.toNat a x)
    (hb' : SimdSupplies (bd.vec P) bd.target.align m out n.toNat b y)
    (hc : SimdSupplies (bd.vec P) bd.target.align m out n.toNat c z)
    (hx : ∀ i, i < n.toNat → IsFin binary32 (x i) ∧ IsFin binary32 (y i) ∧ IsFin binary32 (z i) ∧
      TerRange op (binary32.toReal (x i)) (binary32.toReal (y i)) (binary32.toReal (z i))) :
    ∃ r : Nat → BitVec 32, op.vecSimd (bd.vec P) out a b c n m = .ok ((), overwrite m out n.toNat r) ∧
      ∀ i, i < n.toNat → IsFin binary32 (r i) ∧
        TerNear op (binary32.toReal (x i)) (binary32.toReal (y i)) (binary32.toReal (z i)) (binary32.toReal (r i)) :=
  ⟨_, C03_ternary_simd bd.target (bd.env P) op hn hmul hoal hout ha hb' hc, fun i h =>
    C76_ternary bd hb P op (x i) (y i) (z i) (hx i h).1 (hx i h).2.1 (hx i h).2.2.1 (hx i h).2.2.2⟩

/-- `f_vec_simd<N>(out, arg0, arg1, arg2)`. -/
theorem C76_ternary_simdN (bd : Build32) (hb : bd.simdMath = true) (P : Platform 32) (op : TerOp)
    {m : Mem (BitVec 32)} {out N : Nat} {a b c : SArg (BitVec 32)} {x y z : Nat → BitVec 32}
    (hN : 0 < N) (hmul : bd.target.size ∣ N) (hoal : bd.target.align ∣ out)
    (hout : Allocated m out N) (ha : SimdSupplies (bd.vec P) bd.target.align m out N a x)
    (hb' : SimdSupplies (bd.vec P) bd.target.align m out N b y)
    (hc : SimdSupplies (bd.vec P) bd.target.align m out N c z)
    (hx : ∀ i, i < N → IsFin binary32 (x i) ∧ IsFin binary32 (y i) ∧ IsFin binary32 (z i) ∧
      TerRange op (binary32.toReal (x i)) (binary32.toReal (y i)) (binary32.toReal (z i))) :
    ∃ r : Nat → BitVec 32, op.vecSimdN (bd.vec P) N out a b c m = .ok ((), overwrite m out N r) ∧
      ∀ i, i < N → IsFin binary32 (r i) ∧
        TerNear op (binary32.toReal (x i)) (binary32.toReal (y i)) (binary32.toReal (z i)) (binary32.toReal (r i)) :=
  ⟨_, C05_ternary_compileTime bd.target (bd.env P) op hN hmul hoal hout ha hb' hc, fun i h =>
    C76_ternary bd hb P op (x i) (y i) (z i) (hx i h).1 (hx i h).2.1 (hx i h).2.2.1 (hx i h).2.2.2⟩

/-- `f_vec_simd(out, arg0, arg1, arg2, arg3, n)`. -/
theorem C76_quad_simd (bd : Build32) (hb : bd.simdMath = true) (P : Platform 32) (op : QuadOp)
    {m : Mem (BitVec 32)} {out : Nat} {a b c d : SArg (BitVec 32)} {n : BitVec 32} {x y z u : Nat → BitVec 32}
    (hn : 0 < n.toNat) (hmul : bd.target.perLine ∣ n.toNat) (hoal : bd.target.align ∣ out)
    (hout : Allocated m out n.toNat) (ha : SimdSupplies (bd.vec P) bd.target.align m out n.toNat a x)
    (hb' : SimdSupplies (bd.vec P) bd.target.align m out n.toNat b y)
    (hc : SimdSupplies (bd.vec P) bd.target.align m out n.toNat c z)
    (hd : SimdSupplies (bd.vec P) bd.target.align m out n.toNat d u)
    (hx : ∀ i, i < n.toNat → IsFin binary32 (x i) ∧ IsFin binary32 (y i) ∧ IsFin binary32 (z i) ∧ IsFin binary32 (u i) ∧
      QuadRange op (binary32.toReal (x i)) (binary32.toReal (y i)) (binary32.toReal (z i)) (binary32.toReal (u i))) :
    ∃ r : Nat → BitVec 32, op.vecSimd (bd.vec P) out a b c d n m = .ok ((), overwrite m out n.toNat r) ∧
      ∀ i, i < n.toNat → IsFin binary32 (r i) ∧
        QuadNear op (binary32.toReal (x i)) (binary32.toReal (y i)) (binary32.toReal (z i)) (binary32.toReal (u i))
          (binary32.toReal (r i)) :=
  ⟨_, C04_quad_simd bd.target (bd.env P) op hn hmul hoal hout ha hb' hc hd, fun i h =>
    C76_quad bd hb P op (x i) (y i) (z i) (u i) (hx i h).1 (hx i h).2.1 (hx i h).2.2.1 (hx i h).2.2.2.1 (hx i h).2.2.2.2⟩

/-- `f_vec_simd<N>(out, arg0, arg1, arg2, arg3)`. -/
theorem C76_quad_simdN (bd : Build32) (hb : bd.simdMath = true) (P : Platform 32) (op : QuadOp)
    {m : Mem (BitVec 32)} {out N : Nat} {a b c d : SArg (BitVec 32)} {x y z u : Nat → BitVec 32}
    (hN : 0 < N) (hmul : bd.target.size ∣ N) (hoal : bd.target.align ∣ out)
    (hout : Allocated m out N) (ha : SimdSupplies (bd.vec P) bd.target.align m out N a x)
    (hb' : SimdSupplies (bd.vec P) bd.target.align m out N b y)
    (hc : SimdSupplies (bd.vec P) bd.target.align m out N c z)
    (hd : SimdSupplies (bd.vec P) bd.target.align m out N d u)
    (hx : ∀ i, i < N → IsFin binary32 (x i) ∧ IsFin binary32 (y i) ∧ IsFin binary32 (z i) ∧ IsFin binary32 (u i) ∧
      QuadRange op (binary32.toReal (x i)) (binary32.toReal (y i)) (binary32.toReal (z i)) (binary32.toReal (u i))) :
    ∃ r : Nat → BitVec 32, op.vecSimdN (bd.vec P) N out a b c d m = .ok ((), overwrite m out N r) ∧
      ∀ i, i < N → IsFin binary32 (r i) ∧
        QuadNear op (binary32.toReal (x i)) (binary32.toReal (y i)) (binary32.toReal (z i)) (binary32.toReal (u i))
          (binary32.toReal (r i)) :=
  ⟨_, C05_quad_compileTime bd.target (bd.env P) op hN hmul hoal hout ha hb' hc hd, fun i h =>
    C76_quad bd hb P op (x i) (y i) (z i) (u i) (hx i h).1 (hx i h).2.1 (hx i h).2.2.1 (hx i h).2.2.2.1 (hx i h).2.2.2.2⟩

/-! ## The hypotheses are satisfiable -/

theorem goodRcp_example (P : Platform 32) : { P with rcp := fun x => binary32.div 0x3f800000#32 x : Platform 32 }.GoodRcp := by
  intro x hx h1 h2
  have g := estimate_of_div hx h1 h2
  exact ⟨g.r_fin, g.res⟩

/-- Both facts about the platform hold together. -/
example (P : Platform 32) :
    { P with r2 := 0x3fb8aa3b#32, r10 := 0x3ede5bd9#32, rcp := fun x => binary32.div 0x3f800000#32 x : Platform 32 }.GoodLogs ∧
    { P with r2 := 0x3fb8aa3b#32, r10 := 0x3ede5bd9#32, rcp := fun x => binary32.div 0x3f800000#32 x : Platform 32 }.GoodRcp :=
  ⟨⟨(goodLogs_example P).fin2, (goodLogs_example P).two, (goodLogs_example P).fin10, (goodLogs_example P).ten⟩,
    fun x h0 h1 h2 => goodRcp_example P x h0 h1 h2⟩

/-- Sixteen arguments 1.0 of `log_vec_simd` on SSE2, in place. -/
example (P : Platform 32) (hP : P.GoodLogs) (hrcp : P.GoodRcp) :
    ∃ y : Nat → BitVec 32, UnOp.log.vecSimd ((Build32.sse false ⟨true, false, false⟩).vec P) 0 0 16#32
        (fun i => if i < 16 then some 0x3f800000#32 else none) =
      .ok ((), overwrite (fun i => if i < 16 then some 0x3f800000#32 else none) 0 16 y) ∧
      ∀ i, i < 16 → IsFin binary32 (y i) ∧ UnNear .log (binary32.toReal 0x3f800000#32) (binary32.toReal (y i)) := by
  obtain ⟨o1, o2⟩ := val32 (x := 0x3f800000#32) 1 (by decide +kernel)
  refine C76_unary_simd (.sse false ⟨true, false, false⟩) rfl P hP hrcp .log (n := 16#32) (x := fun _ => 0x3f800000#32)
    (by decide) (by decide) (by decide) (by decide) (by unfold Allocated; decide) (by unfold Holds; decide) (.inl le_rfl)
    fun i _ => ⟨o1, ?_⟩
  change 1 / 2 ^ 126 ≤ binary32.toReal 0x3f800000#32
  rw [o2]; norm_num

/-- `pow(2, 10)` and a `clip` with ordered limits. -/
example : BinRange .pow 2 10 ∧ TerRange .clip 0.5 (-1) 1 ∧ TerRange .muladd 2 3 4 ∧ QuadRange .mix 1 2 3 4 := by
  have h1 := Real.log_two_gt_d9
  have h2 := Real.log_two_lt_d9
  refine ⟨⟨by norm_num, by linarith, by linarith⟩, ?_, ?_, ?_⟩
  · change (-1 : ℝ) ≤ 1; norm_num
  · change |(2 : ℝ) * 3| ≤ 2 ^ 125 ∧ |(4 : ℝ)| ≤ 2 ^ 125; norm_num
  · change |(1 : ℝ) * 2| ≤ 2 ^ 125 ∧ |(3 : ℝ) * 4| ≤ 2 ^ 125; norm_num

end Nova
