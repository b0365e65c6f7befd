import Verif.Float.Near
import Verif.Lemmas.ContractOdd
import Verif.Lemmas.ContractTan
import Verif.Lemmas.ContractInv

/-!
# Small arguments

The sine, tangent, their inverses and the hyperbolic tangent add a correction of third order to their argument.  If the
argument is at most `2^-12` the correction is less than a quarter of a unit in the last place, and rounding removes it.
-/

namespace Nova
open FP VecMath

theorem mb32 : binary32.mb = 23 := rfl

/-- A product which is too small to change `x`. -/
structure Negligible (a b x : BitVec 32) : Prop where
  fa : IsFin binary32 a
  fb : IsFin binary32 b
  fx : IsFin binary32 x
  /-- `x` is not `-0` -/
  zero : binary32.toReal x = 0 → binary32.neg x = false
  one : |binary32.toReal x| ≤ 1
  small : |binary32.toReal a * binary32.toReal b| ≤ 0.9 / 2 ^ 25 * |binary32.toReal x|
  tiny : |binary32.toReal x| < 1 / 2 ^ 100 → binary32.toReal a * binary32.toReal b = 0

theorem val32_zero : binary32.toReal 0#32 = 0 := by
  unfold Fmt.toReal; rw [show binary32.units 0#32 = 0 by decide]; simp

theorem pos_zero {x : BitVec 32} (h : binary32.toReal x = 0) (hn : binary32.neg x = false) : binary32.pack false 0 = x := by
  have hu : binary32.units x = 0 := by
    unfold Fmt.toReal at h
    rcases div_eq_zero_iff.mp h with h | h
    · exact_mod_cast h
    · exact absurd h (by positivity)
  rw [← binary32.units_eq_zero.mp hu, ← hn, binary32.pack_self]

theorem units_of_zero {x : BitVec 32} (h : binary32.toReal x = 0) : binary32.units x = 0 := by
  unfold Fmt.toReal at h
  rcases div_eq_zero_iff.mp h with h | h
  · exact_mod_cast h
  · exact absurd h (by positivity)

namespace Negligible
variable {a b x r : BitVec 32}

theorem product (h : Negligible a b x) : IsFin binary32 (binary32.mul a b) ∧
    (binary32.toReal x = 0 → binary32.toReal (binary32.mul a b) = 0) ∧
    (binary32.toReal x ≠ 0 → 2 ^ 25 * |binary32.toReal (binary32.mul a b)| < |binary32.toReal x|) := by
  have hr : |binary32.toReal a * binary32.toReal b| ≤ 2 ^ 127 := by
    have := h.one
    refine h.small.trans ?_
    norm_num at this ⊢; linarith
  obtain ⟨f, e⟩ := mul_near32 h.fa h.fb hr
  have hz : |binary32.toReal x| < 1 / 2 ^ 100 → binary32.toReal (binary32.mul a b) = 0 := by
    intro ht
    rw [h.tiny ht, abs_zero, mul_zero, zero_add, sub_zero] at e
    have : binary32.toReal (binary32.mul a b) = binary32.toReal 0#32 := by
      refine toReal_close ?_
      rw [show binary32.toReal 0#32 = 0 from val32_zero, sub_zero]
      exact lt_of_le_of_lt e (by norm_num)
    rw [this]; exact val32_zero
  refine ⟨f, fun h0 => hz (by rw [h0, abs_zero]; positivity), fun h0 => ?_⟩
  by_cases ht : |binary32.toReal x| < 1 / 2 ^ 100
  · rw [hz ht, abs_zero, mul_zero]; exact abs_pos.mpr h0
  · have hs := h.small
    have := abs_add_le (binary32.toReal (binary32.mul a b) - binary32.toReal a * binary32.toReal b)
      (binary32.toReal a * binary32.toReal b)
    rw [sub_add_cancel] at this
    generalize |binary32.toReal (binary32.mul a b)| = m at *
    generalize |binary32.toReal a * binary32.toReal b| = p at *
    generalize |binary32.toReal x| = X at *
    norm_num at *; linarith

theorem sum (h : Negligible a b x) : binary32.add (binary32.mul a b) x = x := by
  obtain ⟨f, h0, h1⟩ := h.product
  by_cases hz : binary32.toReal x = 0
  · rw [binary32.add_zero_sum f h.fx (by rw [units_of_zero hz, units_of_zero (h0 hz)]; rfl), h.zero hz, Bool.and_false]
    exact pos_zero hz (h.zero hz)
  · refine (Fmt.add_rounds f h.fx).eq_of_near h.fx hz ?_
    rw [add_sub_cancel_right]; exact h1 hz

theorem sum' (h : Negligible a b x) : binary32.add x (binary32.mul a b) = x := by
  obtain ⟨f, h0, h1⟩ := h.product
  by_cases hz : binary32.toReal x = 0
  · rw [binary32.add_zero_sum h.fx f (by rw [units_of_zero hz, units_of_zero (h0 hz)]; rfl), h.zero hz, Bool.false_and]
    exact pos_zero hz (h.zero hz)
  · refine (Fmt.add_rounds h.fx f).eq_of_near h.fx hz ?_
    rw [add_sub_cancel_left]; exact h1 hz

theorem fused (h : Negligible a b x) : binary32.fma a b x = x := by
  by_cases hz : binary32.toReal x = 0
  · have hp := h.tiny (by rw [hz, abs_zero]; positivity)
    have hu : binary32.units a * binary32.units b = 0 := by
      rcases mul_eq_zero.mp hp with e | e
      · rw [units_of_zero e, zero_mul]
      · rw [units_of_zero e, mul_zero]
    unfold Fmt.fma
    simp only [binary32.isFinite_not_nan h.fa, binary32.isFinite_not_nan h.fb, binary32.isFinite_not_nan h.fx,
      binary32.isFinite_not_inf h.fa, binary32.isFinite_not_inf h.fb, binary32.isFinite_not_inf h.fx, Bool.or_false,
      Bool.false_eq_true, if_false]
    rw [hu, units_of_zero hz, zero_mul, add_zero, if_pos rfl, h.zero hz, Bool.and_false]
    exact pos_zero hz (h.zero hz)
  · refine (Fmt.fma_rounds h.fa h.fb h.fx).eq_of_near h.fx hz ?_
    rw [add_sub_cancel_right, mb32]
    have hs := h.small
    have := abs_pos.mpr hz
    generalize |binary32.toReal a * binary32.toReal b| = p at *
    generalize |binary32.toReal x| = X at *
    norm_num at *; linarith

theorem sums {c : Bool} (h : Negligible a b x) (hr : r ∈ binary32.sums c (.prod a b) (.reg x)) : r = x := by
  rcases mem_sums hr with e | ⟨-, _, _, e, e'⟩ | ⟨-, _, _, e, -⟩
  · rw [e]; exact h.sum
  · cases e; rw [e']; exact h.fused
  · cases e

theorem sums' {c : Bool} (h : Negligible a b x) (hr : r ∈ binary32.sums c (.reg x) (.prod a b)) : r = x := by
  rcases mem_sums hr with e | ⟨-, _, _, e, -⟩ | ⟨-, _, _, e, e'⟩
  · rw [e]; exact h.sum'
  · cases e
  · cases e; rw [e']; exact h.fused

end Negligible

/-- A zero product is negligible, also if it is subtracted. -/
theorem diffs_zero {c : Bool} {a b x r : BitVec 32} (ha : IsFin binary32 a) (hb : IsFin binary32 b)
    (hx : IsFin binary32 x) (hn : binary32.neg x = false) (h1 : |binary32.toReal x| ≤ 1)
    (ha0 : binary32.toReal a = 0) (hr : r ∈ binary32.diffs c (.reg x) (.prod a b)) : r = x := by
  have hN : Negligible (binary32.negate a) b x := by
    refine ⟨Op.fin_negate32 ha, hb, hx, fun _ => hn, h1, ?_, fun _ => ?_⟩ <;> rw [binary32.toReal_negate, ha0, neg_zero, zero_mul]
    rw [abs_zero]; positivity
  rcases mem_diffs hr with e | ⟨-, _, _, e, -⟩ | ⟨-, _, _, e, e'⟩
  · rw [e]
    have hm : IsFin binary32 (binary32.mul a b) := (mul_near32 ha hb (by rw [ha0, zero_mul, abs_zero]; positivity)).1
    have h2 : binary32.sub x (binary32.mul a b) = binary32.add x (binary32.mul (binary32.negate a) b) := by
      rw [binary32.sub_num (binary32.isFinite_not_nan hx) (binary32.isFinite_not_nan hm),
        ← binary32.mul_negate_left (binary32.isFinite_not_nan hm)]
    change binary32.sub x (binary32.mul a b) = x
    rw [h2]
    exact hN.sum'
  · cases e
  · cases e; rw [e']; exact hN.fused

/-! ## Corrections of third order -/

theorem mul_tiny {x y : BitVec 32} (hx : IsFin binary32 x) (hy : IsFin binary32 y)
    (h : |binary32.toReal x * binary32.toReal y| ≤ 1 / 2 ^ 151) : binary32.toReal (binary32.mul x y) = 0 := by
  obtain ⟨-, e⟩ := mul_near32 hx hy (h.trans (by norm_num))
  rw [← val32_zero]
  refine toReal_close ?_
  rw [val32_zero, sub_zero]
  have := abs_add_le (binary32.toReal (binary32.mul x y) - binary32.toReal x * binary32.toReal y)
    (binary32.toReal x * binary32.toReal y)
  rw [sub_add_cancel] at this
  generalize |binary32.toReal (binary32.mul x y)| = m at *
  generalize |binary32.toReal x * binary32.toReal y| = q at *
  norm_num at *; linarith

/-- The square of a small number. -/
theorem square_small {x : BitVec 32} (hx : IsFin binary32 x) (h : |binary32.toReal x| ≤ 1 / 2 ^ 12) :
    IsFin binary32 (binary32.mul x x) ∧ |binary32.toReal (binary32.mul x x)| ≤ 1.001 / 2 ^ 24 ∧
    (|binary32.toReal x| < 1 / 2 ^ 100 → binary32.toReal (binary32.mul x x) = 0) := by
  have h0 := abs_nonneg (binary32.toReal x)
  have h2 : |binary32.toReal x * binary32.toReal x| ≤ 1 / 2 ^ 24 := by
    rw [abs_mul]
    refine (mul_le_mul h h h0 (by positivity)).trans (by norm_num)
  obtain ⟨f, e⟩ := mul_near32 hx hx (h2.trans (by norm_num))
  refine ⟨f, ?_, fun ht => mul_tiny hx hx ?_⟩
  · have := abs_add_le (binary32.toReal (binary32.mul x x) - binary32.toReal x * binary32.toReal x)
      (binary32.toReal x * binary32.toReal x)
    rw [sub_add_cancel] at this
    generalize |binary32.toReal (binary32.mul x x)| = m at *
    generalize |binary32.toReal x * binary32.toReal x| = q at *
    norm_num at *; linarith
  · rw [abs_mul]
    exact (mul_le_mul ht.le ht.le h0 (by positivity)).trans (by norm_num)

/-- `x * x² * p` -/
theorem negligible_cubic {x p : BitVec 32} (hx : IsFin binary32 x) (hn : binary32.neg x = false)
    (h : |binary32.toReal x| ≤ 1 / 2 ^ 12) (hp : IsFin binary32 p) (hp1 : |binary32.toReal p| ≤ 0.44) :
    Negligible (binary32.mul x (binary32.mul x x)) p x := by
  obtain ⟨f, s, t⟩ := square_small hx h
  have h0 := abs_nonneg (binary32.toReal x)
  have hm : |binary32.toReal x * binary32.toReal (binary32.mul x x)| ≤ 1.001 / 2 ^ 24 * |binary32.toReal x| := by
    rw [abs_mul, mul_comm]; exact mul_le_mul_of_nonneg_right s h0
  obtain ⟨f2, e2⟩ := mul_near32 hx f (hm.trans (by norm_num at h ⊢; linarith))
  have tz : |binary32.toReal x| < 1 / 2 ^ 100 → binary32.toReal (binary32.mul x (binary32.mul x x)) = 0 := fun ht =>
    mul_tiny hx f (by rw [t ht, mul_zero, abs_zero]; positivity)
  refine ⟨f2, hp, hx, fun _ => hn, h.trans (by norm_num), ?_, fun ht => by rw [tz ht, zero_mul]⟩
  by_cases ht : |binary32.toReal x| < 1 / 2 ^ 100
  · rw [tz ht, zero_mul, abs_zero]; positivity
  · rw [abs_mul]
    have h3 : |binary32.toReal (binary32.mul x (binary32.mul x x))| ≤ 1.01 / 2 ^ 24 * |binary32.toReal x| := by
      have := abs_add_le (binary32.toReal (binary32.mul x (binary32.mul x x)) -
        binary32.toReal x * binary32.toReal (binary32.mul x x)) (binary32.toReal x * binary32.toReal (binary32.mul x x))
      rw [sub_add_cancel] at this
      generalize |binary32.toReal x * binary32.toReal (binary32.mul x x)| = q at *
      generalize |binary32.toReal (binary32.mul x (binary32.mul x x))| = q' at *
      norm_num at *; linarith
    refine (mul_le_mul h3 hp1 (abs_nonneg _) (by positivity)).trans ?_
    norm_num; linarith

/-- `p * a² * x` with `a = ± x` -/
theorem negligible_cubic' {x a p : BitVec 32} (hx : IsFin binary32 x) (ha : IsFin binary32 a)
    (hn : binary32.toReal x = 0 → binary32.neg x = false)
    (hxa : |binary32.toReal a| = |binary32.toReal x|)
    (h : |binary32.toReal x| ≤ 1 / 2 ^ 12) (hp : IsFin binary32 p) (hp1 : |binary32.toReal p| ≤ 0.44) :
    Negligible (binary32.mul p (binary32.mul a a)) x x := by
  rw [← hxa] at h
  obtain ⟨f, s, t⟩ := square_small ha h
  rw [hxa] at h t
  have h0 := abs_nonneg (binary32.toReal x)
  have hm : |binary32.toReal p * binary32.toReal (binary32.mul a a)| ≤ 0.44 * (1.001 / 2 ^ 24) := by
    rw [abs_mul]; exact mul_le_mul hp1 s (abs_nonneg _) (by norm_num)
  obtain ⟨f2, e2⟩ := mul_near32 hp f (hm.trans (by norm_num))
  refine ⟨f2, hx, hx, hn, h.trans (by norm_num), ?_, fun ht => ?_⟩
  · rw [abs_mul]
    refine mul_le_mul_of_nonneg_right ?_ h0
    have := abs_add_le (binary32.toReal (binary32.mul p (binary32.mul a a)) -
      binary32.toReal p * binary32.toReal (binary32.mul a a)) (binary32.toReal p * binary32.toReal (binary32.mul a a))
    rw [sub_add_cancel] at this
    generalize |binary32.toReal p * binary32.toReal (binary32.mul a a)| = q at *
    generalize |binary32.toReal (binary32.mul p (binary32.mul a a))| = q' at *
    norm_num at *; linarith
  · rw [mul_tiny hp f (by rw [t ht, mul_zero, abs_zero]; positivity), zero_mul]

/-! ## The functions -/
namespace Contract

theorem square_track {x : BitVec 32} (hx : IsFin binary32 x) (h : |binary32.toReal x| ≤ 1 / 2 ^ 12) :
    Op (.reg (binary32.mul x x)) 0 (1.001 / 2 ^ 24) 0 := by
  obtain ⟨f, s, -⟩ := square_small hx h
  exact (Tr.op ⟨f, by rw [sub_zero]; exact s, by rw [abs_zero]⟩)

theorem sinInner_small {c : Bool} {z p p' : BitVec 32} (hz : Op (.reg z) 0 (1.001 / 2 ^ 24) 0)
    (m1 : p ∈ add c (.prod (litD (-1.9515295891e-4)) z) (.reg (litD 8.3321608736e-3)))
    (m2 : p' ∈ sub c (.prod p z) (.reg (litD 1.6666654611e-1))) :
    IsFin binary32 p' ∧ |binary32.toReal p'| ≤ 0.44 := by
  have t2 := Op.const (x := litD (-1.9515295891e-4)) (-13410809/2^36) (3275/2^24) (by decide +kernel) (by norm_num)
  have t3 := Op.const (x := litD 8.3321608736e-3) (4473295/2^29) (2185/2^18) (by decide +kernel) (by norm_num)
  have t4 := Op.const (x := litD 1.6666654611e-1) (11184803/2^26) (2731/2^14) (by decide +kernel) (by norm_num)
  have t5 := Op.mul (D := 0) (E := 1/2^20) t2 hz (by norm_num) (by norm_num) (by norm_num)
  have t6 := Op.add (D := 2217/2^18) (E := 1/2^19) m1 t5 t3 (by norm_num) (by norm_num) (by norm_num)
  have t7 := Op.mul (D := 0) (E := 1/2^19) t6 hz (by norm_num) (by norm_num) (by norm_num)
  have t8 := Op.sub (D := 2817/2^14) (E := 1/2^18) m2 t7 t4 (by norm_num) (by norm_num) (by norm_num)
  refine ⟨t8.tr.fin, t8.tr.abs_le.trans (by norm_num)⟩

theorem sinPoly_small {c : Bool} {x : BitVec 32} (hx : IsFin binary32 x) (hn : binary32.neg x = false)
    (h : |binary32.toReal x| ≤ 1 / 2 ^ 12) : ∀ r ∈ sinPoly c (binary32.mul x x) x, r = x := by
  intro r hr
  unfold sinPoly at hr
  simp only [List.mem_flatMap] at hr
  obtain ⟨p, m1, p', m2, m3⟩ := hr
  obtain ⟨f, b⟩ := sinInner_small (square_track hx h) m1 m2
  exact (negligible_cubic' hx hx (fun _ => hn) rfl h f b).sums m3

theorem tanPoly_small {c : Bool} {x : BitVec 32} (hx : IsFin binary32 x) (hn : binary32.neg x = false)
    (h : |binary32.toReal x| ≤ 1 / 2 ^ 12) : ∀ r ∈ tanPoly c x, r = x := by
  intro r hr
  unfold tanPoly at hr
  try dsimp only at hr
  simp only [List.mem_flatMap] at hr
  obtain ⟨p1, m1, p2, m2, p3, m3, p4, m4, p5, m5, m6⟩ := hr
  have hz := square_track hx h
  have step : ∀ {k : BitVec 32} {p r : BitVec 32} {K : ℝ}, IsFin binary32 k → |binary32.toReal k| ≤ K → K ≤ 0.334 →
      IsFin binary32 p → |binary32.toReal p| ≤ 0.44 → r ∈ add c (.reg k) (.prod (binary32.mul x x) p) →
      IsFin binary32 r ∧ |binary32.toReal r| ≤ 0.44 := by
    intro k p r K hk hK hK1 hp hp1 hr
    have a1 : Op (.reg p) 0 0.44 0 := Tr.op ⟨hp, by rw [sub_zero]; exact hp1, by rw [abs_zero]⟩
    have a2 : Op (.reg k) (binary32.toReal k) 0 0.334 := Tr.op ⟨hk, by rw [sub_self, abs_zero], hK.trans hK1⟩
    have a3 := Op.mul (D := 0) (E := 1/2^20) hz a1 (by norm_num) (by norm_num) (by norm_num)
    have a4 := Op.add (D := 0.334) (E := 1/2^19) hr a2 a3 (by norm_num) (by norm_num) (by norm_num)
    exact ⟨a4.tr.fin, a4.tr.abs_le.trans (by norm_num)⟩
  have k0 := Tr.const (x := litD 9.3892104923725128173828125e-3) (2520397/2^28) 0.01 (by decide +kernel) (by norm_num)
  have k1 := Tr.const (x := litD 3.1127030961215496063232421875e-3) (6684479/2^31) 0.01 (by decide +kernel) (by norm_num)
  have k2 := Tr.const (x := litD 2.443529665470123291015625e-2) (1639825/2^26) 0.03 (by decide +kernel) (by norm_num)
  have k3 := Tr.const (x := litD 5.3409568965435028076171875e-2) (7168511/2^27) 0.06 (by decide +kernel) (by norm_num)
  have k4 := Tr.const (x := litD 0.1333882510662078857421875) (4475767/2^25) 0.14 (by decide +kernel) (by norm_num)
  have k5 := Tr.const (x := litD 0.3333315551280975341796875) (11184751/2^25) 0.334 (by decide +kernel) (by norm_num)
  obtain ⟨f1, b1⟩ := step k1.fin k1.abs_le (by norm_num) k0.fin (k0.abs_le.trans (by norm_num)) m1
  obtain ⟨f2, b2⟩ := step k2.fin k2.abs_le (by norm_num) f1 b1 m2
  obtain ⟨f3, b3⟩ := step k3.fin k3.abs_le (by norm_num) f2 b2 m3
  obtain ⟨f4, b4⟩ := step k4.fin k4.abs_le (by norm_num) f3 b3 m4
  obtain ⟨f5, b5⟩ := step k5.fin k5.abs_le (by norm_num) f4 b4 m5
  exact (negligible_cubic hx hn h f5 b5).sums' m6

theorem small_trig {V : LaneOps 32} (h : V.Ieee) {c : Bool} {x : BitVec 32} (hx : IsFin binary32 x)
    (hn : binary32.neg x = false) (hr : |binary32.toReal x| ≤ 1 / 2 ^ 12) :
    (quadrant V x).toNat = 0 ∧ ∀ r ∈ reduceArg c x (V.convertToFloat (quadrant V x)), r = x := by
  have hx1 : binary32.toReal x ≤ 1 / 2 ^ 12 := (le_abs_self _).trans hr
  obtain ⟨q, -, q2, -, q4, f1, f2⟩ := trig_octant h hx hn (hx1.trans (by norm_num))
  have q0 : q = 0 := by
    by_contra hq
    have := q4 (by omega)
    norm_num at this hx1; linarith
  subst q0
  refine ⟨by omega, fun r hm => ?_⟩
  unfold reduceArg at hm
  simp only [List.mem_flatMap] at hm
  obtain ⟨p1, m1, p2, m2, m3⟩ := hm
  have y0 : binary32.toReal (V.convertToFloat (quadrant V x)) = 0 := by rw [f2]; simp
  have h1 : |binary32.toReal x| ≤ 1 := hr.trans (by norm_num)
  have g1 : IsFin binary32 (litD 0.78515625) := isVal_fin (q := 201/2^8) (by decide +kernel)
  have g2 : IsFin binary32 (litD 2.4187564849853515625e-4) := isVal_fin (q := 2029/2^23) (by decide +kernel)
  have g3 : IsFin binary32 (litD 3.77489497744594108e-8) := isVal_fin (q := 10625385/2^48) (by decide +kernel)
  have e1 := diffs_zero f1 g1 hx hn h1 y0 m1
  subst e1
  have e2 := diffs_zero f1 g2 hx hn h1 y0 m2
  subst e2
  exact diffs_zero f1 g3 hx hn h1 y0 m3

theorem fabs_xor (x : BitVec 32) : binary32.fabs x ^^^ signBit (binary32.neg x) = x := by
  have ea : x ^^^ signBit (binary32.neg x) = binary32.fabs x := by rw [← sign_and]; exact binary32.xor_sign x
  rw [← ea, BitVec.xor_assoc, BitVec.xor_self, BitVec.xor_zero]

theorem fabs_quiet {x : BitVec 32} (hx : IsFin binary32 x) (h : |binary32.toReal x| ≤ 1 / 2 ^ 12) :
    IsFin binary32 (binary32.fabs x) ∧ binary32.neg (binary32.fabs x) = false ∧
    |binary32.toReal (binary32.fabs x)| ≤ 1 / 2 ^ 12 := by
  obtain ⟨a1, a2, -⟩ := fabs_facts hx (h.trans (by norm_num))
  exact ⟨a1, a2, by rw [binary32.toReal_fabs, abs_abs]; exact h⟩

variable {c : Bool} {V : LaneOps 32} {x : BitVec 32}

theorem vecSin_quiet (h : V.Ieee) (hx : IsFin binary32 x) (hr : |binary32.toReal x| ≤ 1 / 2 ^ 12) :
    ∀ y ∈ vecSin c V x, y = x := by
  intro y hy
  obtain ⟨a1, a2, a3⟩ := fabs_quiet hx hr
  obtain ⟨q1, q2⟩ := small_trig (c := c) h a1 a2 a3
  unfold vecSin at hy
  dsimp only at hy
  rw [abs_and h, h.sign, sign_and, swap_bit, poly_mask] at hy
  simp only [List.mem_flatMap, List.mem_map] at hy
  obtain ⟨r, hr, c1, h1, s1, h2, rfl⟩ := hy
  have e := q2 r hr
  subst e
  have e := sinPoly_small a1 a2 a3 _ h2
  subst e
  rw [h.sel, q1, if_pos (by decide), show signBit (decide (0 / 4 % 2 = 1)) = 0#32 by decide, BitVec.xor_zero]
  exact fabs_xor x

theorem vecTan_quiet (h : V.Ieee) (hx : IsFin binary32 x) (hr : |binary32.toReal x| ≤ 1 / 2 ^ 12) :
    ∀ y ∈ vecTan c V x, y = x := by
  intro y hy
  obtain ⟨a1, a2, a3⟩ := fabs_quiet hx hr
  obtain ⟨q1, q2⟩ := small_trig (c := c) h a1 a2 a3
  unfold vecTan at hy
  dsimp only at hy
  rw [abs_and h, h.sign, sign_and, poly_mask] at hy
  simp only [List.mem_flatMap, List.mem_map] at hy
  obtain ⟨r, hr, s1, h2, rfl⟩ := hy
  have e := q2 r hr
  subst e
  have e := tanPoly_small a1 a2 a3 _ h2
  subst e
  rw [h.sel, q1, if_pos (by decide)]
  exact fabs_xor x

theorem vecAsin_quiet (h : V.Ieee) (hx : IsFin binary32 x) (hr : |binary32.toReal x| ≤ 1 / 2 ^ 12) :
    ∀ y ∈ vecAsin c V x, y = x := by
  intro y hy
  obtain ⟨a1, a2, a3⟩ := fabs_quiet hx hr
  obtain ⟨p, hp, rfl⟩ := vecAsin_eq h hx (hr.trans (by norm_num)) hy rfl
  rw [if_neg (not_lt.mpr (hr.trans (by norm_num)))] at hp ⊢
  unfold asinPoly at hp
  dsimp only at hp
  simp only [List.mem_flatMap] at hp
  obtain ⟨q, hq, hp⟩ := hp
  have t := asinInner_track (Tr.exact a1 (a3.trans (by norm_num : (1 : ℝ) / 2 ^ 12 ≤ 1 / 2))) q hq
  rw [(negligible_cubic a1 a2 a3 t.fin (t.abs_le.trans (by norm_num))).sums' hp]
  exact fabs_xor x

theorem zero_add_quiet (hx : IsFin binary32 x) (hn : binary32.neg x = false) : binary32.add 0#32 x = x := by
  have fz : IsFin binary32 0#32 := by decide
  by_cases hz : binary32.toReal x = 0
  · rw [binary32.add_zero_sum fz hx (by rw [units_of_zero hz, units_of_zero val32_zero]; rfl), hn, Bool.and_false]
    exact pos_zero hz hn
  · refine (Fmt.add_rounds fz hx).eq_of_near hx hz ?_
    rw [add_sub_cancel_right, val32_zero, abs_zero, mul_zero]; exact abs_pos.mpr hz

theorem vecAtan_quiet (h : V.Ieee) (hx : IsFin binary32 x) (hr : |binary32.toReal x| ≤ 1 / 2 ^ 12) :
    ∀ y ∈ vecAtan c V x, y = x := by
  intro y hy
  obtain ⟨a1, a2, a3⟩ := fabs_quiet hx hr
  unfold vecAtan at hy
  dsimp only at hy
  simp only [List.mem_map] at hy
  obtain ⟨s, hs, rfl⟩ := hy
  rw [abs_and h] at hs
  rw [h.sign, sign_and]
  unfold atanAbs at hs
  dsimp only at hs
  rw [gtHalf h a1 (q := 13898701/2^25) (l := litD 0.41421356237309504880168872420969807856967187537695) (by decide +kernel),
    h.sel, h.sel,
    decide_eq_false (by
      rw [not_lt]; refine (le_abs_self _).trans (a3.trans ?_); push_cast; norm_num)] at hs
  simp only [Bool.false_eq_true, if_false, List.mem_flatMap] at hs
  rw [h.add, h.zero, zero_add_quiet a1 a2] at hs
  obtain ⟨q, hq, hp⟩ := hs
  have t := atanInner_track (Tr.exact a1 (a3.trans (by norm_num : (1 : ℝ) / 2 ^ 12 ≤ 0.4143))) q hq
  rw [(negligible_cubic a1 a2 a3 t.fin (t.abs_le.trans (by norm_num))).sums' hp]
  exact fabs_xor x

theorem vecTanh_quiet (h : V.Ieee) (hx : IsFin binary32 x) (hr : |binary32.toReal x| ≤ 1 / 2 ^ 12)
    (h0 : binary32.toReal x = 0 → binary32.neg x = false) :
    ∀ y ∈ vecTanh c V x, y = x := by
  intro y hy
  obtain ⟨hf, a2, a3⟩ := fabs_quiet hx hr
  have va : binary32.toReal (binary32.fabs x) = |binary32.toReal x| := by rw [binary32.toReal_fabs]
  have ea : x ^^^ signBit (binary32.neg x) = binary32.fabs x := by
    rw [← sign_and]; exact binary32.xor_sign x
  unfold vecTanh at hy
  dsimp only at hy
  simp only [List.mem_flatMap, List.mem_map] at hy
  obtain ⟨E, hE, s, hs, hy⟩ := hy
  rw [h.sign, sign_and, ea] at hs
  rw [h.sign, sign_and, ea, ltHalf h hf (q := 625 / 1000) (by decide +kernel),
    h.sel, va, decide_eq_true (by push_cast; exact lt_of_le_of_lt hr (by norm_num)), if_pos rfl] at hy
  subst hy
  unfold tanhSmall at hs
  dsimp only at hs
  simp only [List.mem_flatMap] at hs
  obtain ⟨q, hq, hs⟩ := hs
  have t := tanhInner_track (Tr.exact hf (B := 5/2^3) (a3.trans (by norm_num))) q hq
  exact (negligible_cubic' hx hf h0 (by rw [va, abs_abs]) hr t.fin (t.abs_le.trans (by norm_num))).sums hs

theorem cosPoly_quiet (hx : IsFin binary32 x) (h : |binary32.toReal x| ≤ 1 / 2 ^ 13) :
    ∀ r ∈ cosPoly c (binary32.mul x x), r = 0x3f800000#32 := by
  intro r hr
  unfold cosPoly at hr
  try dsimp only at hr
  simp only [List.mem_flatMap] at hr
  obtain ⟨p1, m1, p2, m2, p3, m3, m4⟩ := hr
  have hx0 : Op (.reg x) 0 (1 / 2 ^ 13) 0 := Tr.op ⟨hx, by rw [sub_zero]; exact h, by rw [abs_zero]⟩
  have hz : Op (.reg (binary32.mul x x)) 0 (1.001 / 2 ^ 26) 0 := by
    have := Op.mul (D := 0) (E := 1.001 / 2 ^ 26) hx0 hx0 (by norm_num) (by norm_num) (by norm_num)
    have t := this.tr
    rw [mul_zero] at t
    exact t.op
  have t1 := Op.const (x := litD 2.443315711809948e-5) (6716135/2^38) (205/2^23) (by decide +kernel) (by norm_num)
  have t2 := Op.const (x := litD 1.388731625493765e-3) (5964557/2^32) (2913/2^21) (by decide +kernel) (by norm_num)
  have t3 := Op.const (x := litD 4.166664568298827e-2) (11184805/2^28) (2731/2^16) (by decide +kernel) (by norm_num)
  have t4 := Op.const (x := litF 0.5) (1/2^1) (1/2^1) (by decide +kernel) (by norm_num)
  have t6 := Op.mul (D := 0) (E := 1/2^38) t1 hz (by norm_num) (by norm_num) (by norm_num)
  have t7 := Op.sub (D := 2945/2^21) (E := 1/2^32) m1 t6 t2 (by norm_num) (by norm_num) (by norm_num)
  have t8 := Op.mul (D := 0) (E := 1/2^34) t7 hz (by norm_num) (by norm_num) (by norm_num)
  have t9 := Op.add (D := 697/2^14) (E := 1/2^26) m2 t8 t3 (by norm_num) (by norm_num) (by norm_num)
  have t10 := Op.mul (D := 0) (E := 1/2^30) t9 hz (by norm_num) (by norm_num) (by norm_num)
  have t11 := Op.mul (D := 0) (E := 1/2^50) t10 hz (by norm_num) (by norm_num) (by norm_num)
  have t12 := Op.mul (D := 0) (E := 1.01/2^27) t4 hz (by norm_num) (by norm_num) (by norm_num)
  have t13 := Op.sub (D := 0) (E := 1/2^26) m3 t11 t12 (by norm_num) (by norm_num) (by norm_num)
  have t := t13.tr
  rw [show ∀ a b : ℝ, a * 0 * 0 - b * 0 = 0 from fun a b => by ring] at t
  have e1 : litD 1 = 0x3f800000#32 := by decide +kernel
  have f1 : IsFin binary32 0x3f800000#32 := by decide
  rcases mem_sums m4 with e | ⟨-, _, _, e, -⟩ | ⟨-, _, _, e, -⟩
  · rw [e]
    change binary32.add p3 (litD 1) = _
    rw [e1]
    refine (Fmt.add_rounds t.fin f1).eq_of_near f1 (by rw [toReal_one32']; norm_num) ?_
    rw [add_sub_cancel_right, toReal_one32', mb32]
    have := t.err
    rw [sub_zero] at this
    rw [abs_one]
    norm_num at this ⊢; linarith
  · cases e
  · cases e

theorem vecCos_quiet (h : V.Ieee) (hx : IsFin binary32 x) (hr : |binary32.toReal x| ≤ 1 / 2 ^ 13) :
    ∀ y ∈ vecCos c V x, y = 0x3f800000#32 := by
  intro y hy
  have hr' : |binary32.toReal x| ≤ 1 / 2 ^ 12 := hr.trans (by norm_num)
  obtain ⟨a1, a2, a3⟩ := fabs_quiet hx hr'
  obtain ⟨q1, q2⟩ := small_trig (c := c) h a1 a2 a3
  have hq : quadrant V (binary32.fabs x) = 0#32 := by
    apply BitVec.eq_of_toNat_eq; rw [q1]; rfl
  unfold vecCos at hy
  dsimp only at hy
  obtain ⟨c1, c2⟩ := cos_sign (q := 0) (by norm_num) (by rw [q1])
  rw [abs_and h, h.intAndnot, c1, c2] at hy
  simp only [List.mem_flatMap, List.mem_map] at hy
  obtain ⟨r, hr2, d1, h1, s1, h2, rfl⟩ := hy
  have e := q2 r hr2
  subst e
  have e := cosPoly_quiet a1 (by rw [binary32.toReal_fabs, abs_abs]; exact hr) _ h1
  subst e
  rw [h.sel, if_neg (by decide)]
  decide

theorem of_sums {a b k r s : BitVec 32} (hr : r ∈ binary32.sums c (.prod a b) (.reg k))
    (h1 : binary32.add (binary32.mul a b) k = s) (h2 : binary32.fma a b k = s) : r = s := by
  rcases mem_sums hr with e | ⟨-, _, _, e, e'⟩ | ⟨-, _, _, e, -⟩
  · exact e.trans h1
  · cases e; exact e'.trans h2
  · cases e

/-- The sign of zero is lost: `p * 0² * (-0) + (-0)` adds zeros of both signs. -/
theorem vecTanh_zero (h : V.Ieee) : ∀ y ∈ vecTanh c V 0x80000000#32, y = 0#32 := by
  intro y hy
  have hf : IsFin binary32 0#32 := by decide
  have ea : (0x80000000#32 : BitVec 32) ^^^ signBit (binary32.neg 0x80000000#32) = 0#32 := by decide
  unfold vecTanh at hy
  dsimp only at hy
  simp only [List.mem_flatMap, List.mem_map] at hy
  obtain ⟨E, hE, s, hs, hy⟩ := hy
  rw [h.sign, sign_and, ea] at hs
  rw [h.sign, sign_and, ea, ltHalf h hf (q := 625 / 1000) (by decide +kernel),
    h.sel, decide_eq_true (by rw [val32_zero]; push_cast; norm_num), if_pos rfl] at hy
  subst hy
  unfold tanhSmall tanhInner at hs
  dsimp only at hs
  simp only [List.mem_flatMap] at hs
  obtain ⟨q, ⟨p1, m1, p2, m2, p3, m3, m4⟩, hs⟩ := hs
  rw [show litD (-5.70498872745e-3) = 0xbbbaf0ea#32 by decide +kernel, show litD 2.06390887954e-2 = 0x3ca9134e#32 by decide +kernel] at m1
  rw [show litD (-5.37397155531e-2) = 0xbd5c1e2d#32 by decide +kernel] at m2
  rw [show litD 1.33314422036e-1 = 0x3e088393#32 by decide +kernel] at m3
  rw [show litD (-3.33332819422e-1) = 0xbeaaaa99#32 by decide +kernel] at m4
  rw [show binary32.mul 0#32 0#32 = 0#32 by decide +kernel] at m1 m2 m3 m4 hs
  have e1 := of_sums (s := 0x3ca9134e#32) m1 (by decide +kernel) (by decide +kernel)
  subst e1
  have e2 := of_sums (s := 0xbd5c1e2d#32) m2 (by decide +kernel) (by decide +kernel)
  subst e2
  have e3 := of_sums (s := 0x3e088393#32) m3 (by decide +kernel) (by decide +kernel)
  subst e3
  have e4 := of_sums (s := 0xbeaaaa99#32) m4 (by decide +kernel) (by decide +kernel)
  subst e4
  exact of_sums hs (by decide +kernel) (by decide +kernel)

end Contract
end Nova
