import Verif.Lemmas.AsinPoly
import Verif.Lemmas.AtanFinal
import Verif.Float.Sqrt

/-!
# `vec_asin_float` and `vec_acos_float`
-/

namespace Nova
open FP VecMath

theorem asinPoly_eq (V : LaneOps 32) (x : BitVec 32) :
    asinPoly V x = V.add x (V.mul (V.mul x (V.mul x x)) (asinHorner V (V.mul x x))) := rfl

/-- The polynomial below 1/2. -/
theorem asinPoly_error {V : LaneOps 32} (h : V.Ieee) {x : BitVec 32} (hx : IsFin binary32 x)
    (h0 : 0 ≤ binary32.toReal x) (h1 : binary32.toReal x ≤ 1 / 2) :
    IsFin binary32 (asinPoly V x) ∧
    |binary32.toReal (asinPoly V x) - Real.arcsin (binary32.toReal x)| ≤ 848 / 10 ^ 10 * binary32.toReal x := by
  have hX : |binary32.toReal x| ≤ 1 / 2 := by rw [abs_of_nonneg h0]; exact h1
  have t0 := asinHorner_track h (Tr.exact hx hX)
  rw [asinPoly_eq, h.mul, h.add]
  obtain ⟨f1, e1⟩ := odd_poly (d := 1.3 / 2 ^ 24) hx t0 hX (by norm_num) (by norm_num) (by norm_num) (by norm_num)
  refine ⟨f1, ?_⟩
  have P := asinP_error h0 h1
  rw [show ∀ z : ℝ, z + z ^ 3 * asinQ (z * z) = asinP z from fun z => rfl, abs_of_nonneg h0] at e1
  generalize binary32.toReal (binary32.add _ _) = R at *
  generalize binary32.toReal x = X at *
  have h4 := abs_add_le (R - asinP X) (asinP X - Real.arcsin X)
  rw [sub_add_sub_cancel] at h4
  norm_num at h4 P e1 ⊢
  linarith

/-- The reduced argument: `sqrt((1 - a) / 2)`. -/
theorem asin_reduced {V : LaneOps 32} (h : V.Ieee) {a : BitVec 32} (ha : IsFin binary32 a)
    (h0 : 1 / 2 < binary32.toReal a) (h1 : binary32.toReal a ≤ 1) {y : ℝ}
    (hy : y = √((1 - binary32.toReal a) / 2)) :
    IsFin binary32 (V.sqrt (V.mul (V.sub V.one a) V.half)) ∧
    0 ≤ binary32.toReal (V.sqrt (V.mul (V.sub V.one a) V.half)) ∧
    binary32.toReal (V.sqrt (V.mul (V.sub V.one a) V.half)) ≤ 1 / 2 ∧
    |binary32.toReal (V.sqrt (V.mul (V.sub V.one a) V.half)) - y| ≤ 1 / 2 ^ 26 + 1 / 2 ^ 150 ∧
    |binary32.toReal (V.sqrt (V.mul (V.sub V.one a) V.half)) - y| ≤ 1.0001 / 2 ^ 24 * y := by
  rw [h.sqrt, h.mul, h.sub]
  have ho : IsFin binary32 V.one ∧ binary32.toReal V.one = 1 := by
    rw [h.one, toReal_one32']; exact ⟨by decide, rfl⟩
  have hh : IsFin binary32 V.half ∧ binary32.toReal V.half = 1 / 2 := by
    rw [h.half, isVal_value (q := 1 / 2) (by decide +kernel)]; exact ⟨by decide, by norm_num⟩
  generalize V.one = one at *
  generalize V.half = half at *
  have ga : (2 ^ 125 : ℤ) ∣ binary32.units a := grid_of_large (by
    rw [abs_of_pos (by linarith)]; norm_num at *; linarith)
  have go : (2 ^ 125 : ℤ) ∣ binary32.units one := grid_of_value (k := 2 ^ 24) (by rw [ho.2]; push_cast; norm_num)
  obtain ⟨f1, e1⟩ := sub_grid32 ho.1 ha 125 go ga (by rw [ho.2, abs_le]; norm_num; constructor <;> linarith) (by decide)
  rw [ho.2] at e1
  -- the value is k * 2^125 units
  obtain ⟨k, hk⟩ := ga
  have hA : binary32.toReal a = (k : ℝ) / 2 ^ 24 := by
    unfold Fmt.toReal
    rw [hk, show binary32.scale = 149 by decide]; push_cast; norm_num; ring
  have hk1 : (2 ^ 23 : ℤ) < k := by
    have : ((2 ^ 23 : ℤ) : ℝ) < k := by rw [hA] at h0; push_cast; norm_num at h0 ⊢; linarith
    exact_mod_cast this
  have hk2 : k ≤ 2 ^ 24 := by
    have : (k : ℝ) ≤ ((2 ^ 24 : ℤ) : ℝ) := by rw [hA] at h1; push_cast; norm_num at h1 ⊢; linarith
    exact_mod_cast this
  obtain ⟨m, hm⟩ : ∃ m : ℕ, (m : ℤ) = 2 ^ 24 - k := ⟨(2 ^ 24 - k).toNat, by rw [Int.toNat_of_nonneg]; omega⟩
  have hmr : 1 - binary32.toReal a = (m : ℝ) / 2 ^ 24 := by
    have : (m : ℝ) = 2 ^ 24 - k := by exact_mod_cast hm
    rw [this, hA]; norm_num; ring
  have hml : m ≤ 2 ^ 24 := by omega
  rw [hmr] at e1 hy
  have hp : |binary32.toReal (binary32.sub one a) * binary32.toReal half| = (m : ℝ) * 2 ^ 124 / 2 ^ 149 := by
    rw [e1, hh.2, abs_of_nonneg (by positivity)]; norm_num; ring
  obtain ⟨f2, e2⟩ := mul_exact32 f1 hh.1 (m := m) (s := 124) hml (by
    have : (m : ℝ) ≤ 2 ^ 24 := by exact_mod_cast hml
    norm_num at this ⊢; linarith) hp
  rw [e1, hh.2] at e2
  generalize binary32.mul (binary32.sub one a) half = z at *
  have hz : binary32.toReal z = (m : ℝ) / 2 ^ 24 / 2 := by rw [e2]; ring
  have hmm : m < 2 ^ 23 := by omega
  by_cases h0m : m = 0
  · obtain ⟨g1, g2⟩ := sqrt_zero32 f2 (by rw [hz, h0m]; simp)
    have hy0 : y = 0 := by rw [hy, h0m]; simp
    refine ⟨g1, ?_, ?_, ?_, ?_⟩ <;> rw [g2] <;> norm_num [hy0]
  · have hm1 : (1 : ℝ) ≤ m := by exact_mod_cast Nat.one_le_iff_ne_zero.mpr h0m
    have hm2 : (m : ℝ) ≤ 2 ^ 23 := by exact_mod_cast hmm.le
    have hzp : 0 < binary32.toReal z := by rw [hz]; positivity
    obtain ⟨g1, g2⟩ := sqrt_near32 f2 hzp (by rw [hz]; norm_num at *; linarith)
    obtain ⟨g3, g4⟩ := sqrt_half32 f2 hzp (by rw [hz]; norm_num at *; linarith)
    rw [hz, ← hy] at g2 g3
    have hyl : 1 / 2 ^ 13 ≤ y := by
      rw [hy]; apply Real.le_sqrt_of_sq_le; norm_num; linarith
    have g5 := abs_le.mp g2
    refine ⟨g1, ?_, g4, g3, ?_⟩
    · norm_num at g5 hyl ⊢; linarith [g5.1]
    · norm_num at g2 hyl ⊢; linarith

theorem arcsin_reduce {a : ℝ} (h0 : -1 ≤ a) (h1 : a ≤ 1) :
    Real.arccos a = 2 * Real.arcsin √((1 - a) / 2) := by
  have hs0 := Real.sqrt_nonneg ((1 - a) / 2)
  have hs1 : √((1 - a) / 2) ≤ 1 := Real.sqrt_le_one.mpr (by linarith)
  have e : Real.cos (2 * Real.arcsin √((1 - a) / 2)) = a := by
    rw [Real.cos_two_mul, Real.cos_sq', Real.sin_arcsin (by linarith) hs1, Real.sq_sqrt (by linarith)]; ring
  conv_lhs => rw [← e]
  rw [Real.arccos_cos]
  · have := Real.arcsin_nonneg.mpr hs0; linarith
  · have := Real.arcsin_le_pi_div_two √((1 - a) / 2); linarith

theorem arcsin_half_le {y : ℝ} (h : y ≤ 1 / 2) : Real.arcsin y ≤ Real.pi / 6 := by
  have : Real.arcsin (1 / 2) = Real.pi / 6 := by
    rw [← Real.sin_pi_div_six, Real.arcsin_sin] <;> linarith [Real.pi_pos]
  rw [← this]; exact Real.monotone_arcsin h

/-- The polynomial of the reduced argument. -/
theorem asin_reduced_poly {R X y : ℝ} (h0 : 0 ≤ X) (h1 : X ≤ 1 / 2) (hy0 : 0 ≤ y) (hy : y ≤ 1 / 2) {e : ℝ}
    (he : |X - y| ≤ e) (g : |R - Real.arcsin X| ≤ 848 / 10 ^ 10 * X) :
    |R - Real.arcsin y| ≤ 848 / 10 ^ 10 * Real.arcsin y + 1.1549 * e := by
  have L := arcsin_lipschitz h0 h1 hy0 hy
  have q := (arcsin_le hy0 hy).1
  have t := abs_add_le (R - Real.arcsin X) (Real.arcsin X - Real.arcsin y)
  rw [sub_add_sub_cancel] at t
  have u := (abs_le.mp he).2
  have v := (abs_nonneg _).trans he
  norm_num at *
  linarith

/-- `asin` of a positive number, before the sign is put back, for any good approximation of the polynomial. -/
theorem asin_large_of {V : LaneOps 32} (h : V.Ieee) {a : BitVec 32} (ha : IsFin binary32 a)
    (h0 : 1 / 2 < binary32.toReal a) (h1 : binary32.toReal a ≤ 1) {p : BitVec 32}
    (hp : ∀ {x}, x = V.sqrt (V.mul (V.sub V.one a) V.half) → IsFin binary32 x → 0 ≤ binary32.toReal x →
      binary32.toReal x ≤ 1 / 2 → IsFin binary32 p ∧
      |binary32.toReal p - Real.arcsin (binary32.toReal x)| ≤ 848 / 10 ^ 10 * binary32.toReal x) :
    IsFin binary32 (V.sub (V.sub (litD 1.57079637050628662109375) p) p) ∧
    |binary32.toReal (V.sub (V.sub (litD 1.57079637050628662109375) p) p) - Real.arcsin (binary32.toReal a)| ≤
      5 / 10 ^ 7 * |Real.arcsin (binary32.toReal a)| := by
  obtain ⟨y, hy⟩ : ∃ y, y = √((1 - binary32.toReal a) / 2) := ⟨_, rfl⟩
  obtain ⟨r1, r2, r3, r4, -⟩ := asin_reduced h ha h0 h1 hy
  have hy0 : 0 ≤ y := by rw [hy]; exact Real.sqrt_nonneg _
  have hy1 : y ≤ 1 / 2 := by rw [hy, Real.sqrt_le_left (by norm_num)]; linarith
  obtain ⟨f1, e0⟩ := hp rfl r1 r2 r3
  have e1 := asin_reduced_poly r2 r3 hy0 hy1 r4 e0
  have hq : Real.arcsin (binary32.toReal a) = Real.pi / 2 - 2 * Real.arcsin y := by
    have e1 := arcsin_reduce (a := binary32.toReal a) (by linarith) h1
    have e2 : Real.arccos (binary32.toReal a) = Real.pi / 2 - Real.arcsin (binary32.toReal a) := rfl
    rw [e2, ← hy] at e1
    linarith
  have q0 : 0 ≤ Real.arcsin y := Real.arcsin_nonneg.mpr hy0
  have q1 := arcsin_half_le hy1
  have c := isVal_value (x := litD 1.57079637050628662109375) (q := 13176795 / 2 ^ 23) (by decide +kernel)
  have cf : IsFin binary32 (litD 1.57079637050628662109375) := isVal_fin (q := 13176795 / 2 ^ 23) (by decide +kernel)
  push_cast at c
  rw [h.sub]
  generalize litD 1.57079637050628662109375 = l at *
  rw [hq]
  generalize Real.arcsin y = q at *
  have pi1 := Real.pi_gt_d20
  have pi2 := Real.pi_lt_d20
  generalize Real.pi = π at *
  have b1 := abs_le.mp e1
  have s1 := sub_near32 cf f1 (by rw [c, abs_le]; norm_num at *; constructor <;> linarith)
  rw [c] at s1
  generalize hS : binary32.sub l p = s at *
  have hpos : 0 ≤ 13176795 / 2 ^ 23 - binary32.toReal p := by norm_num at *; linarith
  rw [abs_of_nonneg hpos] at s1
  have b2 := abs_le.mp s1.2
  have s2 := sub_near32 s1.1 f1 (by rw [abs_le]; norm_num at *; constructor <;> linarith)
  refine ⟨s2.1, ?_⟩
  have hpos2 : 0 ≤ binary32.toReal s - binary32.toReal p := by norm_num at *; linarith
  have s3 := s2.2
  rw [abs_of_nonneg hpos2] at s3
  have b3 := abs_le.mp s3
  generalize binary32.toReal (binary32.sub s p) = R at *
  generalize binary32.toReal s = S at *
  generalize binary32.toReal p = p at *
  have hpos3 : 0 ≤ π / 2 - 2 * q := by norm_num at *; linarith
  rw [abs_of_nonneg hpos3, abs_le]
  norm_num at b1 b2 b3 pi1 pi2 q0 q1 ⊢
  constructor <;> linarith [b1.1, b1.2, b2.1, b2.2, b3.1, b3.2]

theorem asin_large {V : LaneOps 32} (h : V.Ieee) {a : BitVec 32} (ha : IsFin binary32 a)
    (h0 : 1 / 2 < binary32.toReal a) (h1 : binary32.toReal a ≤ 1) {p : BitVec 32}
    (hp : p = asinPoly V (V.sqrt (V.mul (V.sub V.one a) V.half))) :
    IsFin binary32 (V.sub (V.sub (litD 1.57079637050628662109375) p) p) ∧
    |binary32.toReal (V.sub (V.sub (litD 1.57079637050628662109375) p) p) - Real.arcsin (binary32.toReal a)| ≤
      5 / 10 ^ 7 * |Real.arcsin (binary32.toReal a)| :=
  asin_large_of h ha h0 h1 fun hx f g1 g2 => by
    rw [hp, ← hx]; exact asinPoly_error h f g1 g2

theorem gtHalf {V : LaneOps 32} (h : V.Ieee) {a l : BitVec 32} {q : ℚ} (ha : IsFin binary32 a) (hl : isVal l q = true) :
    V.maskGt a l = maskOf (decide ((q : ℝ) < binary32.toReal a)) := by
  rw [h.gt _ _ (binary32.isFinite_not_nan ha) (binary32.isFinite_not_nan (isVal_fin hl)),
    toReal_lt_of_ltb (isVal_fin hl) ha, isVal_value hl]

/-- `vec_asin_float`, in its domain. -/
theorem vecAsin_eq {V : LaneOps 32} (h : V.Ieee) {x : BitVec 32} (hx : IsFin binary32 x)
    (h1 : |binary32.toReal x| ≤ 1) {a : BitVec 32} (ha : a = binary32.fabs x) :
    vecAsin V x = (if 1 / 2 < |binary32.toReal x| then
        V.sub (V.sub (litD 1.57079637050628662109375) (asinPoly V (V.sqrt (V.mul (V.sub V.one a) V.half))))
          (asinPoly V (V.sqrt (V.mul (V.sub V.one a) V.half)))
      else asinPoly V a) ^^^ signBit (binary32.neg x) := by
  have hf : IsFin binary32 a := by rw [ha]; unfold IsFin; rw [binary32.isFinite_fabs]; exact hx
  unfold vecAsin
  dsimp only
  rw [abs_and h, h.sign, sign_and, ← ha, gtHalf h hf (q := 1 / 2) (by decide +kernel),
    gtHalf h hf (q := 1) (by rw [h.one]; decide +kernel), h.sel, h.sel, h.sel, ha, binary32.toReal_fabs, ← ha]
  rw [decide_eq_false (by push_cast; linarith)]
  simp only [Bool.false_eq_true, if_false, decide_eq_true_eq]
  push_cast
  by_cases hc : 1 / 2 < |binary32.toReal x|
  · rw [if_pos hc, if_pos hc, if_pos hc]
  · rw [if_neg hc, if_neg hc, if_neg hc]

theorem signed_arcsin (x : BitVec 32) :
    (if binary32.neg x then -Real.arcsin |binary32.toReal x| else Real.arcsin |binary32.toReal x|) =
      Real.arcsin (binary32.toReal x) := by
  conv_rhs => rw [toReal_eq_signed x]
  cases binary32.neg x
  · rfl
  · rw [if_pos rfl, if_pos rfl, Real.arcsin_neg]

/-- Below 1/2 the error is that of the polynomial. -/
theorem vecAsin_small {V : LaneOps 32} (h : V.Ieee) {x : BitVec 32} (hx : IsFin binary32 x)
    (h1 : |binary32.toReal x| ≤ 1 / 2) :
    IsFin binary32 (vecAsin V x) ∧
    |binary32.toReal (vecAsin V x) - Real.arcsin (binary32.toReal x)| ≤ 848 / 10 ^ 10 * |binary32.toReal x| := by
  rw [vecAsin_eq h hx (by linarith) rfl, if_neg (not_lt.mpr h1)]
  have hf : IsFin binary32 (binary32.fabs x) := by unfold IsFin; rw [binary32.isFinite_fabs]; exact hx
  obtain ⟨f, e⟩ := asinPoly_error h hf (by rw [binary32.toReal_fabs]; exact abs_nonneg _)
    (by rw [binary32.toReal_fabs]; exact h1)
  rw [binary32.toReal_fabs] at e
  have t : Tr (asinPoly V (binary32.fabs x)) (Real.arcsin |binary32.toReal x|) _ _ := ⟨f, e, le_rfl⟩
  have s := t.signed (binary32.neg x)
  rw [signed_arcsin] at s
  exact ⟨s.fin, s.err⟩

theorem vecAsin_error {V : LaneOps 32} (h : V.Ieee) {x : BitVec 32} (hx : IsFin binary32 x)
    (h1 : |binary32.toReal x| ≤ 1) :
    IsFin binary32 (vecAsin V x) ∧
    |binary32.toReal (vecAsin V x) - Real.arcsin (binary32.toReal x)| ≤
      5 / 10 ^ 7 * |Real.arcsin (binary32.toReal x)| := by
  by_cases hc : 1 / 2 < |binary32.toReal x|
  · rw [vecAsin_eq h hx h1 rfl, if_pos hc]
    have hf : IsFin binary32 (binary32.fabs x) := by unfold IsFin; rw [binary32.isFinite_fabs]; exact hx
    obtain ⟨f, e⟩ := asin_large h hf (by rw [binary32.toReal_fabs]; exact hc)
      (by rw [binary32.toReal_fabs]; exact h1) rfl
    rw [binary32.toReal_fabs] at e
    have t : Tr _ (Real.arcsin |binary32.toReal x|) _ _ := ⟨f, e, le_rfl⟩
    have s := t.signed (binary32.neg x)
    rw [signed_arcsin] at s
    refine ⟨s.fin, s.err.trans (le_of_eq ?_)⟩
    rw [← signed_arcsin x]
    cases binary32.neg x
    · rfl
    · rw [if_pos rfl, abs_neg]
  · rw [not_lt] at hc
    obtain ⟨f, e⟩ := vecAsin_small h hx hc
    refine ⟨f, e.trans ?_⟩
    have : |binary32.toReal x| ≤ |Real.arcsin (binary32.toReal x)| := by
      have := (arcsin_le (abs_nonneg _) hc).1
      refine this.trans ?_
      rw [← signed_arcsin x]
      cases binary32.neg x
      · exact le_abs_self _
      · rw [if_pos rfl, abs_neg]; exact le_abs_self _
    have h3 := abs_nonneg (binary32.toReal x)
    norm_num at this ⊢
    linarith

end Nova
