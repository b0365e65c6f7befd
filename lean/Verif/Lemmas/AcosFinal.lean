import Verif.Lemmas.AsinFinal

/-!
# `vec_acos_float`
-/

namespace Nova
open FP VecMath

theorem vecAcos_eq {V : LaneOps 32} (h : V.Ieee) {x : BitVec 32} (hx : IsFin binary32 x)
    (h1 : |binary32.toReal x| ≤ 1) {s : BitVec 32}
    (hs : s = vecAsin V (if 1 / 2 < |binary32.toReal x| then V.sqrt (V.mul (V.sub V.one (binary32.fabs x)) V.half)
      else x)) :
    vecAcos V x = if -1 / 2 < binary32.toReal x then
        (if 1 / 2 < binary32.toReal x then V.add s s else V.sub (litD 1.57079637050628662109375) s)
      else V.sub (litD 3.1415927410125732421875) (V.add s s) := by
  have hf : IsFin binary32 (binary32.fabs x) := by unfold IsFin; rw [binary32.isFinite_fabs]; exact hx
  unfold vecAcos
  dsimp only
  rw [abs_and h, gtHalf h hf (q := 1 / 2) (by rw [h.half]; decide +kernel),
    gtHalf h hf (q := 1) (by rw [h.one]; decide +kernel), gtHalf h hx (q := 1 / 2) (by rw [h.half]; decide +kernel),
    gtHalf h hx (q := -1 / 2) (by decide +kernel), h.sel, h.sel, h.sel, h.sel, binary32.toReal_fabs]
  rw [decide_eq_false (p := ((1 : ℚ) : ℝ) < |binary32.toReal x|) (by push_cast; linarith)]
  simp only [Bool.false_eq_true, if_false, decide_eq_true_eq]
  push_cast
  rw [← hs]

/-- Twice the arcsine of the reduced argument. -/
theorem acos_twice_of {V : LaneOps 32} (h : V.Ieee) {a : BitVec 32} (ha : IsFin binary32 a)
    (h0 : 1 / 2 < binary32.toReal a) (h1 : binary32.toReal a ≤ 1) {s : BitVec 32}
    (hs : ∀ {x}, x = V.sqrt (V.mul (V.sub V.one a) V.half) → IsFin binary32 x → |binary32.toReal x| ≤ 1 / 2 →
      IsFin binary32 s ∧
      |binary32.toReal s - Real.arcsin (binary32.toReal x)| ≤ 848 / 10 ^ 10 * |binary32.toReal x|) :
    IsFin binary32 (V.add s s) ∧
    |binary32.toReal (V.add s s) - Real.arccos (binary32.toReal a)| ≤
      22 / 10 ^ 8 * Real.arccos (binary32.toReal a) := by
  obtain ⟨y, hy⟩ : ∃ y, y = √((1 - binary32.toReal a) / 2) := ⟨_, rfl⟩
  obtain ⟨r1, r2, r3, -, r5⟩ := asin_reduced h ha h0 h1 hy
  have hy0 : 0 ≤ y := by rw [hy]; exact Real.sqrt_nonneg _
  have hy1 : y ≤ 1 / 2 := by rw [hy, Real.sqrt_le_left (by norm_num)]; linarith
  rw [arcsin_reduce (by linarith) h1, ← hy]
  obtain ⟨f, e⟩ := hs rfl r1 (by rw [abs_of_nonneg r2]; exact r3)
  have L := arcsin_lipschitz r2 r3 hy0 hy1
  have qy := (arcsin_le hy0 hy1).1
  rw [abs_of_nonneg r2] at e
  generalize binary32.toReal (V.sqrt (V.mul (V.sub V.one a) V.half)) = X at *
  have qb := arcsin_half_le hy1
  have pi2 := Real.pi_lt_d20
  generalize Real.arcsin y = q at *
  have t : |binary32.toReal s - q| ≤ 1.55 / 10 ^ 7 * q := by
    have := abs_add_le (binary32.toReal s - Real.arcsin X) (Real.arcsin X - q)
    rw [sub_add_sub_cancel] at this
    have u := (abs_le.mp r5).2
    norm_num at *
    linarith
  have b := abs_le.mp t
  rw [h.add]
  obtain ⟨g1, g2⟩ := add_near32 f f (by rw [abs_le]; norm_num at *; constructor <;> linarith [b.1, b.2])
  refine ⟨g1, ?_⟩
  have hp : 0 ≤ binary32.toReal s + binary32.toReal s := by norm_num at *; linarith
  rw [abs_of_nonneg hp] at g2
  have b2 := abs_le.mp g2
  rw [abs_le]
  have q0 := hy0.trans qy
  norm_num at b b2 ⊢
  constructor <;> linarith [b.1, b.2, b2.1, b2.2]

/-- The last selections of `vec_acos_float`, for any good approximation of the arcsine. -/
theorem acos_error_of {V : LaneOps 32} (h : V.Ieee) {x s : BitVec 32} (hx : IsFin binary32 x)
    (h1 : |binary32.toReal x| ≤ 1) (hn : binary32.toReal x ≠ -1 / 2)
    (hs : ∀ {y}, y = (if 1 / 2 < |binary32.toReal x| then V.sqrt (V.mul (V.sub V.one (binary32.fabs x)) V.half)
        else x) → IsFin binary32 y → |binary32.toReal y| ≤ 1 / 2 → IsFin binary32 s ∧
      |binary32.toReal s - Real.arcsin (binary32.toReal y)| ≤ 848 / 10 ^ 10 * |binary32.toReal y|)
    {r : BitVec 32} (hr : r = if -1 / 2 < binary32.toReal x then
        (if 1 / 2 < binary32.toReal x then V.add s s else V.sub (litD 1.57079637050628662109375) s)
      else V.sub (litD 3.1415927410125732421875) (V.add s s)) :
    IsFin binary32 r ∧
    |binary32.toReal r - Real.arccos (binary32.toReal x)| ≤
      25 / 10 ^ 8 * Real.arccos (binary32.toReal x) := by
  rw [hr]
  have hf : IsFin binary32 (binary32.fabs x) := by unfold IsFin; rw [binary32.isFinite_fabs]; exact hx
  have pi1 := Real.pi_gt_d20
  have pi2 := Real.pi_lt_d20
  by_cases hc : 1 / 2 < |binary32.toReal x|
  · rw [if_pos hc] at hs
    obtain ⟨f, e⟩ := acos_twice_of h hf (by rw [binary32.toReal_fabs]; exact hc)
      (by rw [binary32.toReal_fabs]; exact h1) hs
    rw [binary32.toReal_fabs] at e
    by_cases hp : -1 / 2 < binary32.toReal x
    · have hX : 1 / 2 < binary32.toReal x := by
        rcases lt_abs.mp hc with h2 | h2
        · exact h2
        · linarith
      rw [if_pos hp, if_pos hX]
      rw [abs_of_pos (a := binary32.toReal x) (by linarith)] at e
      refine ⟨f, e.trans ?_⟩
      have := Real.arccos_nonneg (binary32.toReal x)
      norm_num
      linarith
    · rw [if_neg hp]
      rw [not_lt] at hp
      have hX : binary32.toReal x < -1 / 2 := lt_of_le_of_ne hp hn
      have e2 : Real.arccos |binary32.toReal x| = Real.pi - Real.arccos (binary32.toReal x) := by
        rw [abs_of_neg (by linarith), Real.arccos_neg]
      rw [e2] at e
      have hl : Real.arccos |binary32.toReal x| ≤ Real.pi / 3 := by
        have hd := arcsin_reduce (a := |binary32.toReal x|) (by linarith) h1
        rw [hd]
        have := arcsin_half_le (y := √((1 - |binary32.toReal x|) / 2)) (by
          rw [Real.sqrt_le_left (by norm_num)]; linarith)
        linarith
      rw [e2] at hl
      have hm := Real.arccos_le_pi (binary32.toReal x)
      generalize Real.arccos (binary32.toReal x) = A at *
      have c := isVal_value (x := litD 3.1415927410125732421875) (q := 13176795 / 2 ^ 22) (by decide +kernel)
      have cf : IsFin binary32 (litD 3.1415927410125732421875) := isVal_fin (q := 13176795 / 2 ^ 22) (by decide +kernel)
      push_cast at c
      generalize litD 3.1415927410125732421875 = l at *
      generalize V.add _ _ = t at *
      rw [h.sub]
      have b := abs_le.mp e
      generalize Real.pi = π at *
      obtain ⟨g1, g2⟩ := sub_near32 cf f (by rw [c, abs_le]; norm_num at *; constructor <;> linarith [b.1, b.2])
      rw [c] at g2
      refine ⟨g1, ?_⟩
      have hp : 0 ≤ 13176795 / 2 ^ 22 - binary32.toReal t := by norm_num at *; linarith [b.1, b.2]
      rw [abs_of_nonneg hp] at g2
      have b2 := abs_le.mp g2
      rw [abs_le]
      norm_num at b b2 pi1 pi2 hl hm ⊢
      constructor <;> linarith [b.1, b.2, b2.1, b2.2]
  · rw [if_neg hc] at hs
    rw [not_lt] at hc
    have hX := abs_le.mp hc
    rw [if_pos (lt_of_le_of_ne (by linarith [hX.1]) (Ne.symm hn)), if_neg (by linarith [hX.2])]
    obtain ⟨f, e⟩ := hs rfl hx hc
    clear hs hr
    have e2 : Real.arccos (binary32.toReal x) = Real.pi / 2 - Real.arcsin (binary32.toReal x) := rfl
    rw [e2]
    have a1 := arcsin_half_le hX.2
    have a2 := arcsin_half_le (y := -binary32.toReal x) (by linarith [hX.1])
    rw [Real.arcsin_neg] at a2
    have c := isVal_value (x := litD 1.57079637050628662109375) (q := 13176795 / 2 ^ 23) (by decide +kernel)
    have cf : IsFin binary32 (litD 1.57079637050628662109375) := isVal_fin (q := 13176795 / 2 ^ 23) (by decide +kernel)
    push_cast at c
    generalize litD 1.57079637050628662109375 = l at *
    generalize s = t at *
    generalize Real.arcsin (binary32.toReal x) = q at *
    rw [h.sub]
    have b := abs_le.mp (e.trans (mul_le_mul_of_nonneg_left hc (by norm_num)))
    generalize Real.pi = π at *
    obtain ⟨g1, g2⟩ := sub_near32 cf f (by rw [c, abs_le]; norm_num at *; constructor <;> linarith [b.1, b.2])
    rw [c] at g2
    refine ⟨g1, ?_⟩
    have hp : 0 ≤ 13176795 / 2 ^ 23 - binary32.toReal t := by norm_num at *; linarith [b.1, b.2]
    rw [abs_of_nonneg hp] at g2
    have b2 := abs_le.mp g2
    rw [abs_le]
    norm_num at b b2 pi1 pi2 a1 a2 ⊢
    constructor <;> linarith [b.1, b.2, b2.1, b2.2]

theorem vecAcos_error {V : LaneOps 32} (h : V.Ieee) {x : BitVec 32} (hx : IsFin binary32 x)
    (h1 : |binary32.toReal x| ≤ 1) (hn : binary32.toReal x ≠ -1 / 2) :
    IsFin binary32 (vecAcos V x) ∧
    |binary32.toReal (vecAcos V x) - Real.arccos (binary32.toReal x)| ≤
      25 / 10 ^ 8 * Real.arccos (binary32.toReal x) :=
  acos_error_of h hx h1 hn (fun hy f b => by rw [← hy]; exact vecAsin_small h f b) (vecAcos_eq h hx h1 rfl)

/-- The value at -1/2. -/
theorem vecAcos_half {V : LaneOps 32} (h : V.Ieee) {x : BitVec 32} (hx : IsFin binary32 x)
    (hv : binary32.toReal x = -1 / 2) :
    |binary32.toReal (vecAcos V x) - 4 * Real.pi / 3| ≤ 1 / 10 ^ 6 := by
  have ha : |binary32.toReal x| = 1 / 2 := by rw [hv]; norm_num [abs_div]
  rw [vecAcos_eq h hx (by rw [ha]; norm_num) rfl, if_neg (by rw [hv]; norm_num), if_neg (by rw [ha]; norm_num)]
  obtain ⟨f, e⟩ := vecAsin_small h hx ha.le
  have hq : Real.arcsin (binary32.toReal x) = -(Real.pi / 6) := by
    rw [hv, show (-1 / 2 : ℝ) = -(1 / 2) by norm_num, Real.arcsin_neg, ← Real.sin_pi_div_six,
      Real.arcsin_sin] <;> linarith [Real.pi_pos]
  rw [hq, ha] at e
  have pi1 := Real.pi_gt_d20
  have pi2 := Real.pi_lt_d20
  have c := isVal_value (x := litD 3.1415927410125732421875) (q := 13176795 / 2 ^ 22) (by decide +kernel)
  have cf : IsFin binary32 (litD 3.1415927410125732421875) := isVal_fin (q := 13176795 / 2 ^ 22) (by decide +kernel)
  push_cast at c
  generalize litD 3.1415927410125732421875 = l at *
  generalize vecAsin V x = s at *
  rw [h.sub, h.add]
  have b := abs_le.mp e
  generalize Real.pi = π at *
  obtain ⟨g1, g2⟩ := add_near32 f f (by rw [abs_le]; norm_num at *; constructor <;> linarith [b.1, b.2])
  have hp : binary32.toReal s + binary32.toReal s ≤ 0 := by norm_num at *; linarith
  rw [abs_of_nonpos hp] at g2
  have b2 := abs_le.mp g2
  obtain ⟨g3, g4⟩ := sub_near32 cf g1 (by rw [c, abs_le]; norm_num at *; constructor <;> linarith [b.1, b.2])
  rw [c] at g4
  have hp2 : 0 ≤ 13176795 / 2 ^ 22 - binary32.toReal (binary32.add s s) := by norm_num at *; linarith [b.1, b.2]
  rw [abs_of_nonneg hp2] at g4
  have b3 := abs_le.mp g4
  rw [abs_le]
  norm_num at b b2 b3 pi1 pi2 ⊢
  constructor <;> linarith [b.1, b.2, b2.1, b2.2, b3.1, b3.2]

end Nova
