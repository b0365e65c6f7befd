import Verif.Lemmas.UnitFinal
import Verif.Lemmas.TanFinal
import Verif.Props.C41_Rounding
import Verif.Props.C43_Math
import Verif.SpecAccuracy

/-!
# The accuracy of the arithmetic functions in single precision
-/

namespace Nova
open FP VecMath

theorem lane_sub32' (b : Build32) (P : Platform 32) : (b.lane P).sub = binary32.sub := by cases b <;> rfl
theorem lane_one32 (b : Build32) (P : Platform 32) : (b.lane P).one = 0x3f800000#32 := by
  cases b with
  | sse s f => exact (C34_sse f P).2.1
  | _ => exact (show binary32.ofInt 1 = 0x3f800000#32 by decide +kernel)

/-! ## Square and cube -/

theorem square_near {x : BitVec 32} (hx : IsFin binary32 x) (hr : |binary32.toReal x| ≤ 2 ^ 63) :
    IsFin binary32 (binary32.mul x x) ∧
    |binary32.toReal (binary32.mul x x) - binary32.toReal x ^ 2| ≤
      1 / 2 ^ 24 * binary32.toReal x ^ 2 + 1 / 2 ^ 150 := by
  have h2 : |binary32.toReal x * binary32.toReal x| ≤ 2 ^ 127 := by
    rw [abs_mul]
    calc _ ≤ (2 : ℝ) ^ 63 * 2 ^ 63 := mul_le_mul hr hr (abs_nonneg _) (by positivity)
      _ ≤ _ := by norm_num
  obtain ⟨f, e⟩ := mul_near32 hx hx h2
  rw [abs_mul_self, ← pow_two] at e
  exact ⟨f, e⟩

/-- The product of a rounded square with the number. -/
theorem cube_real {v s : ℝ} (hv : |v| ≤ 2 ^ 42) (hs : |s - v ^ 2| ≤ 1 / 2 ^ 24 * v ^ 2 + 1 / 2 ^ 150) :
    |s * v - v ^ 3| ≤ 5.9605e-8 * |v ^ 3| + 1 / 2 ^ 150 ∧ |s * v| ≤ 2 ^ 127 := by
  have h0 := abs_nonneg v
  have e0 : |v ^ 3| = |v| * v ^ 2 := by rw [abs_pow, ← sq_abs v]; ring
  have e1 : |s * v - v ^ 3| = |v| * |s - v ^ 2| := by rw [← abs_mul]; congr 1; ring
  have key : |s * v - v ^ 3| ≤ 5.9605e-8 * |v ^ 3| + 1 / 2 ^ 150 := by
    rw [e1, e0]
    rcases le_total |v| 1 with h1 | h1
    · calc |v| * |s - v ^ 2| ≤ |v| * (1 / 2 ^ 24 * v ^ 2 + 1 / 2 ^ 150) := mul_le_mul_of_nonneg_left hs h0
        _ = 1 / 2 ^ 24 * (|v| * v ^ 2) + |v| * (1 / 2 ^ 150) := by ring
        _ ≤ 5.9605e-8 * (|v| * v ^ 2) + 1 * (1 / 2 ^ 150) := by
          refine add_le_add (mul_le_mul_of_nonneg_right (by norm_num) (by positivity))
            (mul_le_mul_of_nonneg_right h1 (by positivity))
        _ = _ := by rw [one_mul]
    · have h2 : 1 ≤ v ^ 2 := by rw [← sq_abs]; exact one_le_pow₀ h1
      have hs' : |s - v ^ 2| ≤ 5.9605e-8 * v ^ 2 := by norm_num at hs ⊢; linarith
      have := mul_le_mul_of_nonneg_left hs' h0
      have h3 : (0 : ℝ) ≤ 1 / 2 ^ 150 := by positivity
      linarith
  refine ⟨key, ?_⟩
  have h3 : |v ^ 3| ≤ 2 ^ 126 := by
    rw [abs_pow]
    calc |v| ^ 3 ≤ (2 ^ 42) ^ 3 := pow_le_pow_left₀ h0 hv 3
      _ = _ := by norm_num
  have := abs_add_le (s * v - v ^ 3) (v ^ 3)
  rw [sub_add_cancel] at this
  generalize |v ^ 3| = c at *
  generalize |s * v - v ^ 3| = d at *
  generalize |s * v| = t at *
  norm_num at key h3 ⊢
  linarith

theorem cube_final {v s r : ℝ} (h1 : |s * v - v ^ 3| ≤ 5.9605e-8 * |v ^ 3| + 1 / 2 ^ 150)
    (h2 : |r - s * v| ≤ 1 / 2 ^ 24 * |s * v| + 1 / 2 ^ 150) : |r - v ^ 3| ≤ 1.2e-7 * |v ^ 3| + 1 / 2 ^ 148 := by
  have a := abs_add_le (s * v - v ^ 3) (v ^ 3)
  have b := abs_add_le (r - s * v) (s * v - v ^ 3)
  rw [sub_add_cancel] at a
  rw [sub_add_sub_cancel] at b
  have c0 := abs_nonneg (v ^ 3)
  generalize |v ^ 3| = c at *
  generalize |s * v - v ^ 3| = d at *
  generalize |s * v| = t at *
  norm_num at h1 h2 ⊢
  linarith

theorem cube_near {x : BitVec 32} (hx : IsFin binary32 x) (hr : |binary32.toReal x| ≤ 2 ^ 42) :
    (IsFin binary32 (binary32.mul x (binary32.mul x x)) ∧
    |binary32.toReal (binary32.mul x (binary32.mul x x)) - binary32.toReal x ^ 3| ≤
      1.2e-7 * |binary32.toReal x ^ 3| + 1 / 2 ^ 148) ∧
    (IsFin binary32 (binary32.mul (binary32.mul x x) x) ∧
    |binary32.toReal (binary32.mul (binary32.mul x x) x) - binary32.toReal x ^ 3| ≤
      1.2e-7 * |binary32.toReal x ^ 3| + 1 / 2 ^ 148) := by
  obtain ⟨f, e⟩ := square_near hx (hr.trans (by norm_num))
  obtain ⟨h1, h2⟩ := cube_real hr e
  constructor
  · obtain ⟨f2, e2⟩ := mul_near32 hx f (by rw [mul_comm]; exact h2)
    rw [mul_comm (binary32.toReal x)] at e2
    exact ⟨f2, cube_final h1 e2⟩
  · obtain ⟨f2, e2⟩ := mul_near32 f hx h2
    exact ⟨f2, cube_final h1 e2⟩

/-! ## Square root -/

/-- The smallest positive float. -/
theorem pos_ge_min {x : BitVec 32} (h0 : 0 < binary32.toReal x) : 1 / 2 ^ 149 ≤ binary32.toReal x := by
  unfold Fmt.toReal at h0 ⊢
  rw [show binary32.scale = 149 by decide] at h0 ⊢
  rw [div_pos_iff_of_pos_right (by positivity)] at h0
  have : 0 < binary32.units x := by exact_mod_cast h0
  have h1 : (1 : ℝ) ≤ binary32.units x := by exact_mod_cast this
  exact div_le_div_of_nonneg_right h1 (by positivity)

theorem sqrt_near_all {x : BitVec 32} (hx : IsFin binary32 x) (h0 : 0 < binary32.toReal x) :
    IsFin binary32 (binary32.sqrt x) ∧
    |binary32.toReal (binary32.sqrt x) - Real.sqrt (binary32.toReal x)| ≤ 6e-8 * Real.sqrt (binary32.toReal x) := by
  obtain ⟨N, e, h2, -⟩ := sqrt_parts hx h0
  have hmax := toReal_le_max hx
  rw [abs_of_pos h0] at hmax
  have hmin := pos_ge_min h0
  have hs1 : Real.sqrt (binary32.toReal x) ≤ 2 ^ 64 := by
    rw [Real.sqrt_le_left (by positivity)]; exact hmax.trans (by norm_num)
  have hs0 : 1 / 2 ^ 75 ≤ Real.sqrt (binary32.toReal x) := by
    apply Real.le_sqrt_of_sq_le; refine le_trans ?_ hmin; norm_num
  rw [e]
  generalize Real.sqrt (binary32.toReal x) = v at *
  have a := abs_le.mp h2
  have hb : (N : ℝ) / ((2 : ℕ) : ℝ) / 2 ^ binary32.scale ≤ 2 ^ binary32.bias := by
    rw [show binary32.scale = 149 by decide, bias32, Nat.cast_ofNat]
    have a2 := a.2
    generalize (N : ℝ) / 2 / 2 ^ 149 = t at *
    norm_num at *; linarith
  have nr := Fmt.packRnd_near (F := binary32) false (N := N) (D := 2) (by decide) hb
  have n := near_le nr
  refine ⟨nr.1, ?_⟩
  rw [Fmt.u32, Fmt.eta32, show binary32.scale = 149 by decide] at n
  simp only [Bool.false_eq_true, if_false, one_mul] at n
  rw [Nat.cast_ofNat] at n
  have hp : 0 ≤ (N : ℝ) / 2 / 2 ^ 149 := by positivity
  rw [abs_of_nonneg hp] at n
  generalize (N : ℝ) / 2 / 2 ^ 149 = t at *
  generalize binary32.toReal (binary32.packRnd false N 2) = R at *
  have := abs_add_le (R - t) (t - v)
  rw [sub_add_sub_cancel] at this
  have a2 := a.2
  norm_num at a2 n h2 this hs0 ⊢
  linarith

theorem sgn_of_pos {x : ℝ} (h : 0 < x) : Spec.sgn x = 1 := if_pos h
theorem sgn_of_neg {x : ℝ} (h : x < 0) : Spec.sgn x = -1 := by
  unfold Spec.sgn; rw [if_neg (by linarith), if_neg (by linarith)]
theorem sgn_zero : Spec.sgn 0 = 0 := by unfold Spec.sgn; rw [if_neg (lt_irrefl _), if_pos rfl]
theorem sgn_eq_sign (x : ℝ) : Spec.sgn x = (SignType.sign x : ℝ) := by
  rcases lt_trichotomy x 0 with h | rfl | h
  · rw [sgn_of_neg h, sign_neg h]; simp
  · rw [sgn_zero, sign_zero]; simp
  · rw [sgn_of_pos h, sign_pos h]; simp

theorem signedSqrt_near {x r : BitVec 32} (hx : IsFin binary32 x) (hn : binary32.neg r = binary32.neg x)
    (hr : binary32.fabs r = binary32.sqrt (binary32.fabs x)) :
    IsFin binary32 r ∧
    |binary32.toReal r - Spec.sgn (binary32.toReal x) * Real.sqrt (|binary32.toReal x|)| ≤
      6e-8 * Real.sqrt (|binary32.toReal x|) := by
  have hfx : IsFin binary32 (binary32.fabs x) := by unfold IsFin at hx ⊢; rw [binary32.isFinite_fabs]; exact hx
  have key : IsFin binary32 (binary32.fabs r) ∧ |(|binary32.toReal r|) - Real.sqrt (|binary32.toReal x|)| ≤
      6e-8 * Real.sqrt (|binary32.toReal x|) := by
    rw [← binary32.toReal_fabs r, hr, ← binary32.toReal_fabs x]
    rcases (abs_nonneg (binary32.toReal x)).lt_or_eq with h | h
    · exact sqrt_near_all hfx (by rw [binary32.toReal_fabs]; exact h)
    · rw [← binary32.toReal_fabs] at h
      obtain ⟨f, e⟩ := sqrt_zero32 hfx h.symm
      exact ⟨f, by rw [e, ← h]; simp⟩
  have hfr : IsFin binary32 r := by have := key.1; unfold IsFin at this ⊢; rwa [binary32.isFinite_fabs] at this
  refine ⟨hfr, ?_⟩
  have h2 := key.2
  rcases lt_trichotomy (binary32.toReal x) 0 with h | h | h
  · have hnx : binary32.neg x = true := by
      by_contra hc
      have := toReal_nonneg (Bool.not_eq_true _ ▸ hc)
      linarith
    rw [sgn_of_neg h]
    rw [abs_of_nonpos (binary32.toReal_nonpos (hn.trans hnx))] at h2
    rw [show binary32.toReal r - -1 * Real.sqrt (|binary32.toReal x|) =
      -(-binary32.toReal r - Real.sqrt (|binary32.toReal x|)) by ring, abs_neg]
    exact h2
  · rw [h, abs_zero, Real.sqrt_zero, sub_zero, mul_zero, abs_abs] at h2
    rw [h, abs_zero, Real.sqrt_zero, mul_zero, sub_zero, mul_zero]; exact h2
  · have hnx : binary32.neg x = false := by
      by_contra hc
      rw [Bool.not_eq_false] at hc
      have := binary32.toReal_nonpos hc
      linarith
    rw [sgn_of_pos h, one_mul]
    rw [abs_of_nonneg (toReal_nonneg (hn.trans hnx))] at h2
    exact h2

/-! ## softclip -/

theorem soft_half : binary32.ofRat 0.5 = 0x3f000000#32 := by decide +kernel
theorem soft_quarter : binary32.ofRat 0.25 = 0x3e800000#32 := by decide +kernel

theorem softclip_near {x : BitVec 32} (hx : IsFin binary32 x) (hr : |binary32.toReal x| ≤ 2 ^ 127) :
    IsFin binary32 (Scalar.softclip binary32 x) ∧
    (|binary32.toReal x| < 1 / 2 → binary32.toReal (Scalar.softclip binary32 x) = binary32.toReal x) ∧
    (1 / 2 ≤ |binary32.toReal x| →
      |binary32.toReal (Scalar.softclip binary32 x) - Spec.sgn (binary32.toReal x) * (1 - 1 / (4 * |binary32.toReal x|))| ≤
        1.2e-7 * (1 - 1 / (4 * |binary32.toReal x|))) := by
  obtain ⟨h1, h2⟩ := val32 (x := 0x3f000000#32) (1 / 2) (by decide +kernel)
  obtain ⟨q1, q2⟩ := val32 (x := 0x3e800000#32) (1 / 4) (by decide +kernel)
  have hfx : IsFin binary32 (binary32.fabs x) := by unfold IsFin at hx ⊢; rw [binary32.isFinite_fabs]; exact hx
  have hlt : binary32.ltb (binary32.fabs x) (binary32.ofRat 0.5) = decide (|binary32.toReal x| < 1 / 2) := by
    rw [soft_half, toReal_lt_of_ltb hfx h1, binary32.toReal_fabs, h2]; norm_num
  unfold Scalar.softclip
  dsimp only
  rw [hlt]
  by_cases hc : |binary32.toReal x| < 1 / 2
  · rw [decide_eq_true hc, if_pos rfl]
    exact ⟨hx, fun _ => rfl, fun h => absurd hc (not_lt.mpr h)⟩
  · rw [decide_eq_false hc, if_neg (by decide)]
    rw [not_lt] at hc
    rw [soft_quarter]
    have h0 : binary32.toReal x ≠ 0 := by
      intro h; rw [h, abs_zero] at hc; norm_num at hc
    obtain ⟨s1, s2⟩ := sub_near32 hfx q1 (by
      rw [binary32.toReal_fabs, q2, abs_le]
      have := abs_nonneg (binary32.toReal x)
      constructor <;> norm_num at * <;> linarith)
    rw [binary32.toReal_fabs, q2, abs_of_nonneg (a := |binary32.toReal x| - _) (by norm_num at *; linarith)] at s2
    generalize binary32.sub (binary32.fabs x) 0x3e800000#32 = d at *
    have ha0 : 0 < |binary32.toReal x| := abs_pos.mpr h0
    -- the quotient of the rounded difference
    have hq : |binary32.toReal d / binary32.toReal x - Spec.sgn (binary32.toReal x) * (1 - 1 / (4 * |binary32.toReal x|))| ≤
        1 / 2 ^ 24 * (1 - 1 / (4 * |binary32.toReal x|)) := by
      have e : binary32.toReal d / binary32.toReal x - Spec.sgn (binary32.toReal x) * (1 - 1 / (4 * |binary32.toReal x|)) =
          (binary32.toReal d - (|binary32.toReal x| - 1 / 4)) / binary32.toReal x := by
        rcases lt_or_gt_of_ne h0 with h | h
        · rw [sgn_of_neg h, abs_of_neg h]; field_simp <;> ring
        · rw [sgn_of_pos h, abs_of_pos h]; field_simp <;> ring
      rw [e, abs_div, div_le_iff₀ ha0]
      have e2 : 1 / 2 ^ 24 * (1 - 1 / (4 * |binary32.toReal x|)) * |binary32.toReal x| =
          1 / 2 ^ 24 * (|binary32.toReal x| - 1 / 4) := by field_simp
      rw [e2]
      push_cast at s2
      exact s2
    have hlow : 1 / 2 ≤ 1 - 1 / (4 * |binary32.toReal x|) := by
      have : 1 / (4 * |binary32.toReal x|) ≤ 1 / 2 := by
        rw [div_le_div_iff₀ (by positivity) (by norm_num)]; linarith
      linarith
    have hup : 1 - 1 / (4 * |binary32.toReal x|) ≤ 1 := by
      have : 0 ≤ 1 / (4 * |binary32.toReal x|) := by positivity
      linarith
    have hs : |Spec.sgn (binary32.toReal x)| = 1 := by
      rcases lt_or_gt_of_ne h0 with h | h
      · rw [sgn_of_neg h]; norm_num
      · rw [sgn_of_pos h]; norm_num
    have hsv : |Spec.sgn (binary32.toReal x) * (1 - 1 / (4 * |binary32.toReal x|))| = 1 - 1 / (4 * |binary32.toReal x|) := by
      rw [abs_mul, hs, one_mul, abs_of_nonneg (by linarith)]
    generalize hS : Spec.sgn (binary32.toReal x) * (1 - 1 / (4 * |binary32.toReal x|)) = S at *
    generalize 1 - 1 / (4 * |binary32.toReal x|) = W at *
    have hqa := abs_add_le (binary32.toReal d / binary32.toReal x - S) S
    rw [sub_add_cancel] at hqa
    obtain ⟨f, e⟩ := div_near32 s1 hx h0 (by norm_num at *; linarith)
    refine ⟨f, fun h => absurd h (not_lt.mpr hc), fun _ => ?_⟩
    have := abs_add_le (binary32.toReal (binary32.div d x) - binary32.toReal d / binary32.toReal x)
      (binary32.toReal d / binary32.toReal x - S)
    rw [sub_add_sub_cancel] at this
    generalize binary32.toReal d / binary32.toReal x = Q at *
    norm_num at *
    linarith

/-! ## Sums of products -/

theorem madd_near {x y z : BitVec 32} (hx : IsFin binary32 x) (hy : IsFin binary32 y) (hz : IsFin binary32 z)
    (h1 : |binary32.toReal x * binary32.toReal y| ≤ 2 ^ 125) (h2 : |binary32.toReal z| ≤ 2 ^ 125) :
    (IsFin binary32 (binary32.fma x y z) ∧
      |binary32.toReal (binary32.fma x y z) - (binary32.toReal x * binary32.toReal y + binary32.toReal z)| ≤
        6e-8 * (|binary32.toReal x * binary32.toReal y| + |binary32.toReal x * binary32.toReal y + binary32.toReal z|) +
          1 / 2 ^ 149) ∧
    (IsFin binary32 (binary32.add (binary32.mul x y) z) ∧
      |binary32.toReal (binary32.add (binary32.mul x y) z) - (binary32.toReal x * binary32.toReal y + binary32.toReal z)| ≤
        6e-8 * (|binary32.toReal x * binary32.toReal y| + |binary32.toReal x * binary32.toReal y + binary32.toReal z|) +
          1 / 2 ^ 149) := by
  have hs := abs_add_le (binary32.toReal x * binary32.toReal y) (binary32.toReal z)
  have hs0 := abs_nonneg (binary32.toReal x * binary32.toReal y + binary32.toReal z)
  have hp0 := abs_nonneg (binary32.toReal x * binary32.toReal y)
  constructor
  · obtain ⟨f, e⟩ := fma_near32 hx hy hz (by norm_num [-abs_mul] at *; linarith)
    refine ⟨f, e.trans ?_⟩
    norm_num [-abs_mul] at h1 h2 e ⊢; linarith
  · obtain ⟨f1, e1⟩ := mul_near32 hx hy (h1.trans (by norm_num))
    generalize binary32.mul x y = p at *
    generalize binary32.toReal x * binary32.toReal y = v at *
    have t := abs_add_le (binary32.toReal p - v) (v + binary32.toReal z)
    rw [show binary32.toReal p - v + (v + binary32.toReal z) = binary32.toReal p + binary32.toReal z by ring] at t
    obtain ⟨f2, e2⟩ := add_near32 f1 hz (by norm_num at *; linarith)
    refine ⟨f2, ?_⟩
    have t2 := abs_add_le (binary32.toReal (binary32.add p z) - (binary32.toReal p + binary32.toReal z)) (binary32.toReal p - v)
    rw [show binary32.toReal (binary32.add p z) - (binary32.toReal p + binary32.toReal z) + (binary32.toReal p - v) =
      binary32.toReal (binary32.add p z) - (v + binary32.toReal z) by ring] at t2
    norm_num at h1 h2 e1 e2 ⊢; linarith

/-- The sum of two approximations. -/
theorem add_approx {p q : BitVec 32} {v w a c : ℝ} (hp : IsFin binary32 p) (hq : IsFin binary32 q)
    (ep : |binary32.toReal p - v| ≤ a) (eq : |binary32.toReal q - w| ≤ c) (hr : |v + w| + a + c ≤ 2 ^ 127) :
    IsFin binary32 (binary32.add p q) ∧
    |binary32.toReal (binary32.add p q) - (v + w)| ≤ a + c + 1 / 2 ^ 24 * (|v + w| + a + c) := by
  have t := abs_add_le (binary32.toReal p - v + (binary32.toReal q - w)) (v + w)
  have t1 := abs_add_le (binary32.toReal p - v) (binary32.toReal q - w)
  rw [show binary32.toReal p - v + (binary32.toReal q - w) + (v + w) = binary32.toReal p + binary32.toReal q by ring] at t
  obtain ⟨f, e⟩ := add_near32 hp hq (by linarith)
  refine ⟨f, ?_⟩
  have t2 := abs_add_le (binary32.toReal (binary32.add p q) - (binary32.toReal p + binary32.toReal q))
    (binary32.toReal p - v + (binary32.toReal q - w))
  rw [show binary32.toReal (binary32.add p q) - (binary32.toReal p + binary32.toReal q) +
    (binary32.toReal p - v + (binary32.toReal q - w)) = binary32.toReal (binary32.add p q) - (v + w) by ring] at t2
  have m := mul_le_mul_of_nonneg_left (show |binary32.toReal p + binary32.toReal q| ≤ |v + w| + a + c by linarith)
    (by positivity : (0 : ℝ) ≤ 1 / 2 ^ 24)
  linarith

/-- The product of a float with an approximation. -/
theorem mul_approx {s q : BitVec 32} {w c : ℝ} (hs : IsFin binary32 s) (hq : IsFin binary32 q)
    (eq : |binary32.toReal q - w| ≤ c) (hr : |binary32.toReal s| * (|w| + c) ≤ 2 ^ 127) :
    IsFin binary32 (binary32.mul s q) ∧
    |binary32.toReal (binary32.mul s q) - binary32.toReal s * w| ≤
      |binary32.toReal s| * c + 1 / 2 ^ 24 * (|binary32.toReal s| * (|w| + c)) + 1 / 2 ^ 150 := by
  have t := abs_add_le (binary32.toReal q - w) w
  rw [sub_add_cancel] at t
  have h1 : |binary32.toReal s * binary32.toReal q| ≤ |binary32.toReal s| * (|w| + c) := by
    rw [abs_mul]; exact mul_le_mul_of_nonneg_left (by linarith) (abs_nonneg _)
  obtain ⟨f, e⟩ := mul_near32 hs hq (h1.trans hr)
  refine ⟨f, ?_⟩
  have h2 : |binary32.toReal s * binary32.toReal q - binary32.toReal s * w| ≤ |binary32.toReal s| * c := by
    rw [← mul_sub, abs_mul]; exact mul_le_mul_of_nonneg_left eq (abs_nonneg _)
  have t2 := abs_add_le (binary32.toReal (binary32.mul s q) - binary32.toReal s * binary32.toReal q)
    (binary32.toReal s * binary32.toReal q - binary32.toReal s * w)
  rw [sub_add_sub_cancel] at t2
  have m := mul_le_mul_of_nonneg_left h1 (by positivity : (0 : ℝ) ≤ 1 / 2 ^ 24)
  linarith

/-- The last product of `ampmod`. -/
theorem ampmod_of {s q : BitVec 32} {v : ℝ} (hs : IsFin binary32 s) (f2 : IsFin binary32 q)
    (e2' : |binary32.toReal q - (1 + v)| ≤ 1.1922e-7 * (1 + |v|)) (h1 : |binary32.toReal s| ≤ 2 ^ 60) (h2 : |v| ≤ 2 ^ 60) :
    IsFin binary32 (binary32.mul s q) ∧
    |binary32.toReal (binary32.mul s q) - binary32.toReal s * (1 + v)| ≤
      1.8e-7 * (|binary32.toReal s| * (1 + |v|)) + 1 / 2 ^ 150 := by
  have v0 := abs_nonneg v
  have hv : |1 + v| ≤ 1 + |v| := by have := abs_add_le 1 v; rwa [abs_one] at this
  have s0 := abs_nonneg (binary32.toReal s)
  have k1 : |binary32.toReal s| * (|1 + v| + 1.1922e-7 * (1 + |v|)) ≤ |binary32.toReal s| * (1.0000002 * (1 + |v|)) :=
    mul_le_mul_of_nonneg_left (by norm_num; linarith) s0
  have k2 : |binary32.toReal s| * (1 + |v|) ≤ 2 ^ 60 * (1 + 2 ^ 60) :=
    mul_le_mul h1 (by linarith) (by linarith) (by positivity)
  obtain ⟨f3, e3⟩ := mul_approx hs f2 e2' (by norm_num at k1 k2 ⊢; linarith)
  refine ⟨f3, e3.trans ?_⟩
  have m := mul_le_mul_of_nonneg_left k1 (by positivity : (0 : ℝ) ≤ 1 / 2 ^ 24)
  have k3 : 0 ≤ |binary32.toReal s| * (1 + |v|) := by positivity
  rw [show |binary32.toReal s| * (1.1922e-7 * (1 + |v|)) = 1.1922e-7 * (|binary32.toReal s| * (1 + |v|)) by ring]
  rw [show |binary32.toReal s| * (1.0000002 * (1 + |v|)) = 1.0000002 * (|binary32.toReal s| * (1 + |v|)) by ring] at m
  generalize |binary32.toReal s| * (1 + |v|) = Z at *
  generalize |binary32.toReal s| * (|1 + v| + 1.1922e-7 * (1 + |v|)) = Y at *
  norm_num at m ⊢
  linarith

theorem ampmod_near {s m a : BitVec 32} (hs : IsFin binary32 s) (hm : IsFin binary32 m) (ha : IsFin binary32 a)
    (h1 : |binary32.toReal s| ≤ 2 ^ 60) (h2 : |binary32.toReal m * binary32.toReal a| ≤ 2 ^ 60) :
    IsFin binary32 (binary32.mul s (binary32.add 0x3f800000#32 (binary32.mul m a))) ∧
    |binary32.toReal (binary32.mul s (binary32.add 0x3f800000#32 (binary32.mul m a))) -
        binary32.toReal s * (1 + binary32.toReal m * binary32.toReal a)| ≤
      1.8e-7 * (|binary32.toReal s| * (1 + |binary32.toReal m * binary32.toReal a|)) + 1 / 2 ^ 150 := by
  obtain ⟨o1, o2⟩ := val32 (x := 0x3f800000#32) 1 (by decide +kernel)
  obtain ⟨f1, e1⟩ := mul_near32 hm ha (h2.trans (by norm_num))
  generalize binary32.mul m a = p at *
  generalize binary32.toReal m * binary32.toReal a = v at *
  have v0 := abs_nonneg v
  have hv : |1 + v| ≤ 1 + |v| := by have := abs_add_le 1 v; rwa [abs_one] at this
  have e1' : |binary32.toReal p - v| ≤ 5.9605e-8 * (1 + |v|) := e1.trans (by norm_num; linarith)
  obtain ⟨f2, e2⟩ := add_approx (v := 1) (a := 0) o1 f1 (by rw [o2]; simp) e1' (by norm_num at h2 ⊢; linarith)
  have e2' : |binary32.toReal (binary32.add 0x3f800000#32 p) - (1 + v)| ≤ 1.1922e-7 * (1 + |v|) :=
    e2.trans (by norm_num; linarith)
  exact ampmod_of hs f2 e2' h1 h2

theorem mix_near {s t u v : BitVec 32} (hs : IsFin binary32 s) (ht : IsFin binary32 t) (hu : IsFin binary32 u)
    (hv : IsFin binary32 v) (h1 : |binary32.toReal s * binary32.toReal t| ≤ 2 ^ 125)
    (h2 : |binary32.toReal u * binary32.toReal v| ≤ 2 ^ 125) :
    IsFin binary32 (binary32.add (binary32.mul s t) (binary32.mul u v)) ∧
    |binary32.toReal (binary32.add (binary32.mul s t) (binary32.mul u v)) -
        (binary32.toReal s * binary32.toReal t + binary32.toReal u * binary32.toReal v)| ≤
      1.2e-7 * (|binary32.toReal s * binary32.toReal t| + |binary32.toReal u * binary32.toReal v|) + 1 / 2 ^ 148 := by
  obtain ⟨f1, e1⟩ := mul_near32 hs ht (h1.trans (by norm_num))
  obtain ⟨f2, e2⟩ := mul_near32 hu hv (h2.trans (by norm_num))
  generalize binary32.mul s t = p at *
  generalize binary32.mul u v = q at *
  generalize binary32.toReal s * binary32.toReal t = a at *
  generalize binary32.toReal u * binary32.toReal v = c at *
  have t1 := abs_add_le a c
  have a0 := abs_nonneg a
  have c0 := abs_nonneg c
  obtain ⟨f3, e3⟩ := add_approx f1 f2 e1 e2 (by norm_num at *; linarith)
  refine ⟨f3, e3.trans ?_⟩
  norm_num at h1 h2 ⊢
  linarith

theorem sum3_near {x y z : BitVec 32} (hx : IsFin binary32 x) (hy : IsFin binary32 y) (hz : IsFin binary32 z)
    (h1 : |binary32.toReal x| ≤ 2 ^ 125) (h2 : |binary32.toReal y| ≤ 2 ^ 125) (h3 : |binary32.toReal z| ≤ 2 ^ 125) :
    IsFin binary32 (binary32.add (binary32.add x y) z) ∧
    |binary32.toReal (binary32.add (binary32.add x y) z) - (binary32.toReal x + binary32.toReal y + binary32.toReal z)| ≤
      6e-8 * (|binary32.toReal x + binary32.toReal y| + |binary32.toReal x + binary32.toReal y + binary32.toReal z|) := by
  have t1 := abs_add_le (binary32.toReal x) (binary32.toReal y)
  obtain ⟨f1, e1⟩ := add_near32 hx hy (by norm_num at h1 h2 ⊢; linarith)
  generalize binary32.add x y = p at *
  generalize binary32.toReal x + binary32.toReal y = v at *
  have t2 := abs_add_le v (binary32.toReal z)
  have v0 := abs_nonneg v
  have z0 := abs_nonneg (v + binary32.toReal z)
  obtain ⟨f2, e2⟩ := add_approx (w := binary32.toReal z) (c := 0) f1 hz e1 (by simp) (by norm_num at h1 h2 h3 ⊢; linarith)
  refine ⟨f2, e2.trans ?_⟩
  norm_num
  linarith

theorem sum4_near {x y z u : BitVec 32} (hx : IsFin binary32 x) (hy : IsFin binary32 y) (hz : IsFin binary32 z)
    (hu : IsFin binary32 u) (h1 : |binary32.toReal x| ≤ 2 ^ 124) (h2 : |binary32.toReal y| ≤ 2 ^ 124)
    (h3 : |binary32.toReal z| ≤ 2 ^ 124) (h4 : |binary32.toReal u| ≤ 2 ^ 124) :
    IsFin binary32 (binary32.add (binary32.add x y) (binary32.add z u)) ∧
    |binary32.toReal (binary32.add (binary32.add x y) (binary32.add z u)) -
        (binary32.toReal x + binary32.toReal y + binary32.toReal z + binary32.toReal u)| ≤
      1.2e-7 * (|binary32.toReal x| + |binary32.toReal y| + |binary32.toReal z| + |binary32.toReal u|) := by
  have t1 := abs_add_le (binary32.toReal x) (binary32.toReal y)
  have t2 := abs_add_le (binary32.toReal z) (binary32.toReal u)
  obtain ⟨f1, e1⟩ := add_near32 hx hy (by norm_num at h1 h2 ⊢; linarith)
  obtain ⟨f2, e2⟩ := add_near32 hz hu (by norm_num at h3 h4 ⊢; linarith)
  generalize binary32.add x y = p at *
  generalize binary32.add z u = q at *
  rw [add_assoc (binary32.toReal x + binary32.toReal y)]
  generalize binary32.toReal x + binary32.toReal y = v at *
  generalize binary32.toReal z + binary32.toReal u = w at *
  have t3 := abs_add_le v w
  have v0 := abs_nonneg v
  have w0 := abs_nonneg w
  obtain ⟨f3, e3⟩ := add_approx f1 f2 e1 e2 (by norm_num at *; linarith)
  refine ⟨f3, e3.trans ?_⟩
  norm_num
  linarith

end Nova
