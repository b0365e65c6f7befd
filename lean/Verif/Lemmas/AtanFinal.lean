import Verif.Lemmas.AtanPoly
import Verif.Lemmas.LogZero
import Mathlib.Analysis.Real.Pi.Bounds

/-!
# `vec_atan_float`: the three ranges
-/

namespace Nova
open FP VecMath

theorem zero_add32 {x y : BitVec 32} (hx : IsFin binary32 x) (hy : IsFin binary32 y)
    (h0 : binary32.toReal y = 0) :
    IsFin binary32 (binary32.add y x) ∧ binary32.toReal (binary32.add y x) = binary32.toReal x := by
  have hu : binary32.units y = 0 := by
    unfold Fmt.toReal at h0
    rw [div_eq_zero_iff] at h0
    rcases h0 with h0 | h0
    · exact_mod_cast h0
    · exact absurd h0 (by positivity)
  by_cases hc : binary32.code x = 0
  · have hux : binary32.units x = 0 := binary32.units_eq_zero.mpr hc
    rw [binary32.add_zero_sum hy hx (by rw [hu, hux]; rfl)]
    refine ⟨binary32.isFinite_pack _ binary32.infCode_pos, ?_⟩
    rw [binary32.toReal_pack _ binary32.infCode_pos, mag_zero]
    unfold Fmt.toReal
    rw [hux]; simp
  · rw [binary32.add_exact hy hx hx (by rw [hu]; omega) hc]
    exact ⟨hx, rfl⟩

/-- arctan does not increase distances. -/
theorem arctan_lipschitz (x y : ℝ) : |Real.arctan x - Real.arctan y| ≤ |x - y| := by
  have := Convex.norm_image_sub_le_of_norm_hasDerivWithin_le (𝕜 := ℝ) (f := Real.arctan)
    (f' := fun x => 1 / (1 + x ^ 2)) (C := 1) (s := Set.univ) (x := y) (y := x)
    (fun z _ => (Real.hasDerivAt_arctan z).hasDerivWithinAt)
    (fun z _ => by
      rw [Real.norm_eq_abs, abs_of_pos (by positivity), div_le_one (by positivity)]
      nlinarith [sq_nonneg z]) convex_univ (Set.mem_univ _) (Set.mem_univ _)
  simpa [Real.norm_eq_abs] using this

/-- The first sum of the last line. -/
theorem atan_base {x off : BitVec 32} {O : ℚ} (hx : IsFin binary32 x) (hX : |binary32.toReal x| ≤ 0.4143)
    (ho : isVal off O = true) (hO : (O : ℝ) ≤ 1.6) (hO0 : 0 ≤ (O : ℝ)) :
    IsFin binary32 (binary32.add off x) ∧ |binary32.toReal (binary32.add off x)| ≤ 4 := by
  have ov : binary32.toReal off = (O : ℝ) := isVal_value ho
  have sX : |(O : ℝ) + binary32.toReal x| ≤ 3 := by
    have := abs_add_le (O : ℝ) (binary32.toReal x)
    rw [abs_of_nonneg hO0] at this; norm_num at *; linarith
  obtain ⟨f1, e1⟩ := add_near32 (isVal_fin ho) hx (by rw [ov]; exact sX.trans (by norm_num))
  rw [ov] at e1
  refine ⟨f1, ?_⟩
  have := abs_add_le (binary32.toReal (binary32.add off x) - (O + binary32.toReal x)) (O + binary32.toReal x)
  rw [sub_add_cancel] at this; norm_num at *; linarith

/-- The last line of `vec_atan_float` for the ranges with an offset. -/
theorem atan_tail_of {x off r : BitVec 32} {v K δ T : ℝ} {O : ℚ} (hx : IsFin binary32 x)
    (hv : |v| ≤ 0.41422) (he : |binary32.toReal x - v| ≤ 1.26 / 2 ^ 24) (ho : isVal off O = true)
    (hO : (O : ℝ) ≤ 1.6) (hO0 : 0 ≤ (O : ℝ)) (hK : |(O : ℝ) - K| ≤ δ) (hδ : δ ≤ 1 / 10 ^ 7)
    (te : |T - binary32.toReal x * (binary32.toReal x * binary32.toReal x) *
      atanQ (binary32.toReal x * binary32.toReal x)| ≤ 0.12/2^24)
    (tq : |binary32.toReal x * (binary32.toReal x * binary32.toReal x) *
      atanQ (binary32.toReal x * binary32.toReal x)| ≤ 0.0266)
    (e2 : |binary32.toReal r - (binary32.toReal (binary32.add off x) + T)| ≤
      1 / 2 ^ 24 * |binary32.toReal (binary32.add off x) + T| + 1 / 2 ^ 150) :
    |binary32.toReal r - (K + Real.arctan v)| ≤ 2.01 / 2 ^ 24 * |K + Real.arctan v| + 0.18 / 2 ^ 24 + δ + 84 / 10 ^ 9 := by
  have hX : |binary32.toReal x| ≤ 0.4143 := by
    have := abs_add_le (binary32.toReal x - v) v
    rw [sub_add_cancel] at this
    norm_num at *; linarith
  have P := atanP_error hX
  have L := arctan_lipschitz (binary32.toReal x) v
  have ov : binary32.toReal off = (O : ℝ) := isVal_value ho
  generalize hX' : binary32.toReal x = X at *
  have hq : atanP X = X + X * (X * X) * atanQ (X * X) := by unfold atanP; ring
  have sX : |(O : ℝ) + X| ≤ 3 := by
    have := abs_add_le (O : ℝ) X
    rw [abs_of_nonneg hO0] at this; norm_num at *; linarith
  obtain ⟨f1, e1⟩ := add_near32 (isVal_fin ho) hx (by rw [ov, hX']; exact sX.trans (by norm_num))
  rw [ov, hX'] at e1
  generalize binary32.add off x = s at *
  have tb : |T| ≤ 0.0267 := by
    have := abs_add_le (T - X * (X * X) * atanQ (X * X)) (X * (X * X) * atanQ (X * X))
    rw [sub_add_cancel] at this
    norm_num at *; linarith
  generalize hS : binary32.toReal s = S at *
  have hS3 : |S| ≤ 4 := by
    have := abs_add_le (S - (O + X)) (O + X)
    rw [sub_add_cancel] at this; norm_num at *; linarith
  have hST : |S + T| ≤ 8 := by
    have := abs_add_le S T
    norm_num at *; linarith
  generalize binary32.toReal r = R at *
  generalize hc : X * (X * X) * atanQ (X * X) = c at *
  -- the errors
  have g1 : |O + X| ≤ |K + Real.arctan v| + 0.0267 := by
    have a1 : (O : ℝ) + X = (K + Real.arctan v) + (O - K) + (atanP X - Real.arctan X) + (Real.arctan X - Real.arctan v) - c := by
      rw [hq]; ring
    have := abs_sub ((K + Real.arctan v) + (O - K) + (atanP X - Real.arctan X) + (Real.arctan X - Real.arctan v)) c
    have := abs_add_le ((K + Real.arctan v) + (O - K) + (atanP X - Real.arctan X)) (Real.arctan X - Real.arctan v)
    have := abs_add_le ((K + Real.arctan v) + (O - K)) (atanP X - Real.arctan X)
    have := abs_add_le (K + Real.arctan v) ((O : ℝ) - K)
    rw [a1]
    norm_num at *
    linarith
  have g2 : |S + T| ≤ |K + Real.arctan v| + 1 / 10 ^ 5 := by
    have a1 : S + T = (K + Real.arctan v) + (O - K) + (atanP X - Real.arctan X) + (Real.arctan X - Real.arctan v) +
      (S - (O + X)) + (T - c) := by rw [hq]; ring
    have := abs_add_le ((K + Real.arctan v) + (O - K) + (atanP X - Real.arctan X) + (Real.arctan X - Real.arctan v) + (S - (O + X))) (T - c)
    have := abs_add_le ((K + Real.arctan v) + (O - K) + (atanP X - Real.arctan X) + (Real.arctan X - Real.arctan v)) (S - (O + X))
    have := abs_add_le ((K + Real.arctan v) + (O - K) + (atanP X - Real.arctan X)) (Real.arctan X - Real.arctan v)
    have := abs_add_le ((K + Real.arctan v) + (O - K)) (atanP X - Real.arctan X)
    have := abs_add_le (K + Real.arctan v) ((O : ℝ) - K)
    rw [a1]
    norm_num at *
    linarith
  have a1 : R - (K + Real.arctan v) = (R - (S + T)) + (S - (O + X)) + (T - c) + (O - K) + (atanP X - Real.arctan X) +
      (Real.arctan X - Real.arctan v) := by rw [hq]; ring
  have b1 := abs_add_le ((R - (S + T)) + (S - (O + X)) + (T - c) + (O - K) + (atanP X - Real.arctan X)) (Real.arctan X - Real.arctan v)
  have b2 := abs_add_le ((R - (S + T)) + (S - (O + X)) + (T - c) + (O - K)) (atanP X - Real.arctan X)
  have b3 := abs_add_le ((R - (S + T)) + (S - (O + X)) + (T - c)) ((O : ℝ) - K)
  have b4 := abs_add_le ((R - (S + T)) + (S - (O + X))) (T - c)
  have b5 := abs_add_le (R - (S + T)) (S - (O + X))
  have b6 := abs_nonneg (K + Real.arctan v)
  rw [a1]
  norm_num at b1 b2 b3 b4 b5 P L he te hX e1 e2 g1 g2 hK ⊢
  linarith

theorem atan_tail {V : LaneOps 32} (h : V.Ieee) {x off : BitVec 32} {v K δ : ℝ} {O : ℚ} (hx : IsFin binary32 x)
    (hv : |v| ≤ 0.41422) (he : |binary32.toReal x - v| ≤ 1.26 / 2 ^ 24) (ho : isVal off O = true)
    (hO : (O : ℝ) ≤ 1.6) (hO0 : 0 ≤ (O : ℝ)) (hK : |(O : ℝ) - K| ≤ δ) (hδ : δ ≤ 1 / 10 ^ 7) :
    IsFin binary32 (V.add (V.add off x) (V.mul (V.mul x (V.mul x x)) (atanHorner V (V.mul x x)))) ∧
    |binary32.toReal (V.add (V.add off x) (V.mul (V.mul x (V.mul x x)) (atanHorner V (V.mul x x)))) -
      (K + Real.arctan v)| ≤ 2.01 / 2 ^ 24 * |K + Real.arctan v| + 0.18 / 2 ^ 24 + δ + 84 / 10 ^ 9 := by
  have hX : |binary32.toReal x| ≤ 0.4143 := by
    have := abs_add_le (binary32.toReal x - v) v
    rw [sub_add_cancel] at this
    norm_num at *; linarith
  have hxt : Tr x (binary32.toReal x) 0 0.4143 := Tr.exact hx hX
  have t0 := atanHorner_track h hxt
  have t1 := Tr.mul (D := 2813/2^14) (E := 1407/2^37) hxt hxt (by norm_num) (by norm_num) (by norm_num)
  have t2 := Tr.mul (D := 0.0712) (E := 0.15/2^24) hxt t1 (by norm_num) (by norm_num) (by norm_num)
  have t3 := Tr.mul (D := 0.0266) (E := 0.12/2^24) t2 t0 (by norm_num) (by norm_num) (by norm_num)
  rw [h.mul, h.add]
  obtain ⟨fs, bs⟩ := atan_base hx hX ho hO hO0
  have hST : |binary32.toReal (binary32.add off x) + binary32.toReal (binary32.mul (binary32.mul x (binary32.mul x x))
      (atanHorner V (binary32.mul x x)))| ≤ 2 ^ 127 := by
    refine (abs_add_le _ _).trans ((add_le_add bs t3.abs_le).trans (by norm_num))
  obtain ⟨f2, e2⟩ := add_near32 fs t3.fin hST
  exact ⟨f2, atan_tail_of hx hv he ho hO hO0 hK hδ t3.err t3.bnd
    (e2.trans (le_add_of_nonneg_right (by positivity)))⟩

theorem atanAbs_eq (V : LaneOps 32) (a : BitVec 32) : atanAbs V a =
    (let m1 := V.maskGt a (litD 0.41421356237309504880168872420969807856967187537695)
     let m2 := V.maskGt a (litD 2.41421356237309504880168872420969807856967187537698)
     let x := V.select a (V.select (V.div (V.sub a V.one) (V.add a V.one)) (V.div (V.neg V.one) a) m2) m1
     let o := V.select V.zero (V.select (litD 0.78539816339744830961566084581987572104929234984377)
       (litD 1.57079632679489661923132169163975144209858469968754) m2) m1
     V.add (V.add o x) (V.mul (V.mul x (V.mul x x)) (atanHorner V (V.mul x x)))) := rfl

/-- Without an offset the error is that of the polynomial. -/
theorem atan_range0_of {R X : ℝ} (hX : |X| ≤ 0.4143) (hb : |atanQ (X * X)| ≤ 3049 / 2 ^ 13)
    (e1 : |R - (X + X ^ 3 * atanQ (X * X))| ≤ 1.5 / 2 ^ 24 * |X|) :
    |R - Real.arctan X| ≤ 45 / 10 ^ 8 * |Real.arctan X| := by
  have P := atanP_error hX
  rw [show ∀ z : ℝ, z + z ^ 3 * atanQ (z * z) = atanP z from fun z => rfl] at e1
  have hl : 0.93 * |X| ≤ |atanP X| := by
    rw [show atanP X = X * (1 - -(X * X * atanQ (X * X))) by unfold atanP; ring, abs_mul, mul_comm]
    refine mul_le_mul_of_nonneg_left ?_ (abs_nonneg _)
    have := abs_sub_abs_le_abs_sub 1 (-(X * X * atanQ (X * X)))
    rw [abs_neg, abs_mul, abs_mul, abs_one] at this
    have h2 : |X| * |X| * |atanQ (X * X)| ≤ 0.4143 * 0.4143 * (3049 / 2 ^ 13) :=
      mul_le_mul (mul_le_mul hX hX (abs_nonneg _) (by norm_num)) hb (abs_nonneg _) (by norm_num)
    norm_num at *
    linarith
  have h3 := abs_add_le (atanP X - Real.arctan X) (Real.arctan X)
  rw [sub_add_cancel] at h3
  have h4 := abs_add_le (R - atanP X) (atanP X - Real.arctan X)
  rw [sub_add_sub_cancel] at h4
  have h5 := abs_nonneg X
  norm_num at h3 h4 P e1 hl ⊢
  linarith

theorem atan_range0 {V : LaneOps 32} (h : V.Ieee) {x : BitVec 32} (hx : IsFin binary32 x)
    (hX : |binary32.toReal x| ≤ 0.4143) :
    IsFin binary32 (V.add (V.add V.zero x) (V.mul (V.mul x (V.mul x x)) (atanHorner V (V.mul x x)))) ∧
    |binary32.toReal (V.add (V.add V.zero x) (V.mul (V.mul x (V.mul x x)) (atanHorner V (V.mul x x)))) -
      Real.arctan (binary32.toReal x)| ≤ 45 / 10 ^ 8 * |Real.arctan (binary32.toReal x)| := by
  have t0 := atanHorner_track h (Tr.exact hx hX)
  rw [h.mul, h.add, h.zero]
  obtain ⟨f0, e0⟩ := zero_add32 hx (y := 0#32) (by decide) (by unfold Fmt.toReal; rw [show binary32.units 0#32 = 0 by decide]; simp)
  obtain ⟨f1, e1⟩ := odd_poly' (d := 1.5 / 2 ^ 24) hx f0 e0 t0 hX (by norm_num) (by norm_num) (by norm_num) (by norm_num)
  exact ⟨f1, atan_range0_of hX t0.bnd e1⟩

theorem atan_pi4 {a : ℝ} (ha : 0 < a) : Real.arctan a = Real.pi / 4 + Real.arctan ((a - 1) / (a + 1)) := by
  rw [← Real.arctan_one, Real.arctan_add]
  · congr 1
    field_simp
    ring
  · rw [one_mul, div_lt_one (by linarith)]; linarith

theorem atan_pi2 {a : ℝ} (ha : 0 < a) : Real.arctan a = Real.pi / 2 + Real.arctan (-1 / a) := by
  have := Real.arctan_inv_of_pos ha
  rw [show -1 / a = -a⁻¹ by rw [neg_div, one_div], Real.arctan_neg, this]
  ring

/-- The three ranges: what `x` and the offset of the last line are. -/
theorem atan_split {V : LaneOps 32} (h : V.Ieee) {a x off : BitVec 32} (ha : IsFin binary32 a)
    (h0 : 0 ≤ binary32.toReal a)
    (hx : x = V.select a (V.select (V.div (V.sub a V.one) (V.add a V.one)) (V.div (V.neg V.one) a)
        (V.maskGt a (litD 2.41421356237309504880168872420969807856967187537698)))
      (V.maskGt a (litD 0.41421356237309504880168872420969807856967187537695)))
    (hoff : off = V.select V.zero (V.select (litD 0.78539816339744830961566084581987572104929234984377)
        (litD 1.57079632679489661923132169163975144209858469968754)
        (V.maskGt a (litD 2.41421356237309504880168872420969807856967187537698)))
      (V.maskGt a (litD 0.41421356237309504880168872420969807856967187537695))) :
    (x = a ∧ off = V.zero ∧ |binary32.toReal a| ≤ 0.4143) ∨
    ∃ (v K δ : ℝ) (O : ℚ), IsFin binary32 x ∧ |v| ≤ 0.41422 ∧ |binary32.toReal x - v| ≤ 1.26 / 2 ^ 24 ∧
      isVal off O = true ∧ (O : ℝ) ≤ 1.6 ∧ 0 ≤ (O : ℝ) ∧ |(O : ℝ) - K| ≤ δ ∧ δ ≤ 1 / 10 ^ 7 ∧
      Real.arctan (binary32.toReal a) = K + Real.arctan v ∧
      2.01 / 2 ^ 24 * |K + Real.arctan v| + 0.18 / 2 ^ 24 + δ + 84 / 10 ^ 9 ≤ 45 / 10 ^ 8 * |K + Real.arctan v| := by
  have c1 : isVal (litD 0.41421356237309504880168872420969807856967187537695) (13898701/2^25) = true := by decide +kernel
  have c2 : isVal (litD 2.41421356237309504880168872420969807856967187537698) (5062973/2^21) = true := by decide +kernel
  have c3 : isVal (litD 0.78539816339744830961566084581987572104929234984377) (13176795/2^24) = true := by decide +kernel
  have c4 : isVal (litD 1.57079632679489661923132169163975144209858469968754) (13176795/2^23) = true := by decide +kernel
  have v1 := isVal_value c1
  have v2 := isVal_value c2
  generalize litD 0.41421356237309504880168872420969807856967187537695 = l1 at *
  generalize litD 2.41421356237309504880168872420969807856967187537698 = l2 at *
  generalize litD 0.78539816339744830961566084581987572104929234984377 = l3 at *
  generalize litD 1.57079632679489661923132169163975144209858469968754 = l4 at *
  rw [h.gt _ _ (binary32.isFinite_not_nan ha) (binary32.isFinite_not_nan (isVal_fin c1)),
    h.gt _ _ (binary32.isFinite_not_nan ha) (binary32.isFinite_not_nan (isVal_fin c2)),
    h.sel, h.sel, toReal_lt_of_ltb (isVal_fin c1) ha, toReal_lt_of_ltb (isVal_fin c2) ha, v1, v2] at hx hoff
  simp only [decide_eq_true_eq] at hx hoff
  have pi1 := Real.pi_gt_d20
  have pi2 := Real.pi_lt_d20
  by_cases r1 : ((13898701/2^25 : ℚ) : ℝ) < binary32.toReal a
  · rw [if_pos r1] at hx hoff
    push_cast at r1
    by_cases r2 : ((5062973/2^21 : ℚ) : ℝ) < binary32.toReal a
    · rw [if_pos r2] at hx hoff
      push_cast at r2
      have hx0 : 2.41421 < binary32.toReal a := by norm_num at r2 ⊢; linarith
      have hm1 : IsFin binary32 (V.neg V.one) ∧ binary32.toReal (V.neg V.one) = -1 := by
        rw [h.neg, h.one, binary32.toReal_negate, toReal_one32']; exact ⟨by decide, rfl⟩
      have hv : |-1 / binary32.toReal a| ≤ 0.41422 := by
        rw [abs_div, abs_neg, abs_one, abs_of_pos (by linarith), div_le_iff₀ (by linarith)]
        norm_num at *; linarith
      obtain ⟨f, e⟩ := div_near32 hm1.1 ha (by linarith) (by rw [hm1.2]; exact hv.trans (by norm_num))
      rw [hm1.2] at e
      rw [← h.div] at f e
      refine .inr ⟨_, Real.pi / 2, 44 / 10 ^ 9, _, hx ▸ f, hv, ?_, hoff ▸ c4, by norm_num, by norm_num,
        by push_cast; rw [abs_le]; norm_num at *; constructor <;> linarith, by norm_num, atan_pi2 (by linarith), ?_⟩
      · rw [hx]; norm_num at *; linarith
      have hθ : 1.15 ≤ |Real.pi / 2 + Real.arctan (-1 / binary32.toReal a)| := by
        have h5 := arctan_lipschitz (-1 / binary32.toReal a) 0
        rw [Real.arctan_zero, sub_zero, sub_zero] at h5
        have := neg_abs_le (Real.arctan (-1 / binary32.toReal a))
        refine le_trans ?_ (le_abs_self _)
        norm_num at *; linarith
      norm_num at *
      linarith
    · rw [if_neg r2] at hx hoff
      rw [not_lt] at r2
      push_cast at r2
      have ho : IsFin binary32 V.one ∧ binary32.toReal V.one = 1 := by
        rw [h.one, toReal_one32']; exact ⟨by decide, rfl⟩
      have ap : 0 < binary32.toReal a + 1 := by linarith
      have hv : |(binary32.toReal a - 1) / (binary32.toReal a + 1)| ≤ 0.41422 := by
        rw [abs_div, abs_of_pos ap, div_le_iff₀ ap, abs_le]
        norm_num at *; constructor <;> linarith
      have s1 := sub_near32 ha ho.1 (by rw [ho.2, abs_le]; norm_num at *; constructor <;> linarith)
      have s2 := add_near32 ha ho.1 (by rw [ho.2, abs_le]; norm_num at *; constructor <;> linarith)
      rw [ho.2, ← h.sub] at s1
      rw [ho.2, abs_of_pos ap, ← h.add] at s2
      have S1 : Tr (V.sub a V.one) (binary32.toReal a - 1) _ _ := ⟨s1.1, s1.2, le_rfl⟩
      have S2 : Tr (V.add a V.one) (binary32.toReal a + 1) _ _ := ⟨s2.1, s2.2, (abs_of_pos ap).le⟩
      have hd : (1 / 2 ^ 24 * |binary32.toReal a - 1| + 0.41422 * (1 / 2 ^ 24 * (binary32.toReal a + 1))) /
          ((binary32.toReal a + 1) - 1 / 2 ^ 24 * (binary32.toReal a + 1)) ≤ 0.8285 / 2 ^ 24 := by
        rw [abs_div, abs_of_pos ap, div_le_iff₀ ap] at hv
        rw [div_le_iff₀ (by norm_num; linarith)]
        norm_num at *
        linarith
      have D := Tr.div_of (Q := 0.41422) (E := 1.2428 / 2 ^ 24) S1 S2 (L := binary32.toReal a + 1)
        (abs_of_pos ap).ge (by norm_num; linarith) hv (by norm_num at *; linarith) (by norm_num at *; linarith)
      rw [← h.div] at D
      refine .inr ⟨_, Real.pi / 4, 22 / 10 ^ 9, _, hx ▸ D.fin, hv, ?_, hoff ▸ c3, by norm_num, by norm_num,
        by push_cast; rw [abs_le]; norm_num at *; constructor <;> linarith, by norm_num,
        atan_pi4 (by norm_num at *; linarith), ?_⟩
      · rw [hx]; exact D.err.trans (by norm_num)
      have hθ : 0.371 ≤ |Real.pi / 4 + Real.arctan ((binary32.toReal a - 1) / (binary32.toReal a + 1))| := by
        have h5 := arctan_lipschitz ((binary32.toReal a - 1) / (binary32.toReal a + 1)) 0
        rw [Real.arctan_zero, sub_zero, sub_zero] at h5
        have := neg_abs_le (Real.arctan ((binary32.toReal a - 1) / (binary32.toReal a + 1)))
        refine le_trans ?_ (le_abs_self _)
        norm_num at *; linarith
      norm_num at *
      linarith
  · rw [if_neg r1] at hx hoff
    refine .inl ⟨hx, hoff, ?_⟩
    rw [abs_of_nonneg h0]
    push_cast at r1
    norm_num at *
    linarith

/-- `L x off r`: `r` is a result of the last line for `x` and `off`. -/
theorem atan_ranges {V : LaneOps 32} (h : V.Ieee) {a : BitVec 32} (ha : IsFin binary32 a)
    (h0 : 0 ≤ binary32.toReal a) (L : BitVec 32 → BitVec 32 → BitVec 32 → Prop)
    (tail : ∀ {x off r : BitVec 32} {v K δ : ℝ} {O : ℚ}, IsFin binary32 x → |v| ≤ 0.41422 →
      |binary32.toReal x - v| ≤ 1.26 / 2 ^ 24 → isVal off O = true → (O : ℝ) ≤ 1.6 → 0 ≤ (O : ℝ) →
      |(O : ℝ) - K| ≤ δ → δ ≤ 1 / 10 ^ 7 → L x off r → IsFin binary32 r ∧
      |binary32.toReal r - (K + Real.arctan v)| ≤
        2.01 / 2 ^ 24 * |K + Real.arctan v| + 0.18 / 2 ^ 24 + δ + 84 / 10 ^ 9)
    (range0 : ∀ {x r : BitVec 32}, IsFin binary32 x → |binary32.toReal x| ≤ 0.4143 → L x V.zero r →
      IsFin binary32 r ∧
      |binary32.toReal r - Real.arctan (binary32.toReal x)| ≤ 45 / 10 ^ 8 * |Real.arctan (binary32.toReal x)|)
    {r : BitVec 32} (hr :
      let m1 := V.maskGt a (litD 0.41421356237309504880168872420969807856967187537695)
      let m2 := V.maskGt a (litD 2.41421356237309504880168872420969807856967187537698)
      L (V.select a (V.select (V.div (V.sub a V.one) (V.add a V.one)) (V.div (V.neg V.one) a) m2) m1)
        (V.select V.zero (V.select (litD 0.78539816339744830961566084581987572104929234984377)
          (litD 1.57079632679489661923132169163975144209858469968754) m2) m1) r) :
    IsFin binary32 r ∧
    |binary32.toReal r - Real.arctan (binary32.toReal a)| ≤
      45 / 10 ^ 8 * |Real.arctan (binary32.toReal a)| := by
  rcases atan_split h ha h0 rfl rfl with ⟨e1, e2, e3⟩ | ⟨v, K, δ, O, f, h1, h2, h3, h4, h5, h6, h7, h8, h9⟩
  · dsimp only at hr
    rw [e1, e2] at hr
    exact range0 ha e3 hr
  · obtain ⟨g1, g2⟩ := tail f h1 h2 h3 h4 h5 h6 h7 hr
    rw [h8]
    exact ⟨g1, g2.trans h9⟩

theorem atanAbs_error {V : LaneOps 32} (h : V.Ieee) {a : BitVec 32} (ha : IsFin binary32 a)
    (h0 : 0 ≤ binary32.toReal a) :
    IsFin binary32 (atanAbs V a) ∧
    |binary32.toReal (atanAbs V a) - Real.arctan (binary32.toReal a)| ≤
      45 / 10 ^ 8 * |Real.arctan (binary32.toReal a)| :=
  atan_ranges h ha h0 (fun x off r => r = V.add (V.add off x) (V.mul (V.mul x (V.mul x x)) (atanHorner V (V.mul x x))))
    (fun hx hv he ho hO hO0 hK hδ hr => by rw [hr]; exact atan_tail h hx hv he ho hO hO0 hK hδ)
    (fun hx hX hr => by rw [hr]; exact atan_range0 h hx hX) (atanAbs_eq V a)

/-- The result has the sign of the argument, and the relative error does not depend on the sign. -/
theorem vecAtan_error {V : LaneOps 32} (h : V.Ieee) {x : BitVec 32} (hx : IsFin binary32 x) :
    IsFin binary32 (vecAtan V x) ∧
    |binary32.toReal (vecAtan V x) - Real.arctan (binary32.toReal x)| ≤
      45 / 10 ^ 8 * |Real.arctan (binary32.toReal x)| := by
  have hf : IsFin binary32 (binary32.fabs x) := by unfold IsFin; rw [binary32.isFinite_fabs]; exact hx
  obtain ⟨f, e⟩ := atanAbs_error h hf (by rw [binary32.toReal_fabs]; exact abs_nonneg _)
  rw [binary32.toReal_fabs] at e
  unfold vecAtan
  dsimp only
  rw [abs_and h, h.sign, sign_and]
  have t : Tr (atanAbs V (binary32.fabs x)) (Real.arctan |binary32.toReal x|) _ _ := ⟨f, e, le_rfl⟩
  have s := t.signed (binary32.neg x)
  have e2 : (if binary32.neg x then -Real.arctan |binary32.toReal x| else Real.arctan |binary32.toReal x|) =
      Real.arctan (binary32.toReal x) := by
    conv_rhs => rw [toReal_eq_signed x]
    cases binary32.neg x
    · rfl
    · rw [if_pos rfl, if_pos rfl, Real.arctan_neg]
  have e3 : abs (Real.arctan |binary32.toReal x|) = abs (Real.arctan (binary32.toReal x)) := by
    rw [← e2]; cases binary32.neg x
    · rfl
    · rw [if_pos rfl, abs_neg]
  rw [e2, e3] at s
  exact ⟨s.fin, s.err⟩

end Nova
