import Verif.Lemmas.TanFinal

/-!
# Relative errors of odd polynomials

`x + x * x² * p`, as evaluated by the polynomials of detail/vec_math.hpp, has a small error relative to `x` for
all `x`, also for subnormal ones.
-/

namespace Nova
open FP VecMath

theorem toReal_tiny {r : BitVec 32} (h : |binary32.toReal r| < 1 / 2 ^ 149) : binary32.toReal r = 0 := by
  unfold Fmt.toReal at h ⊢
  rw [show binary32.scale = 149 by decide] at h ⊢
  rw [abs_div, abs_of_pos (by positivity : (0 : ℝ) < 2 ^ 149), div_lt_div_iff_of_pos_right (by positivity)] at h
  have : |binary32.units r| < 1 := by exact_mod_cast h
  rw [Int.abs_lt_one_iff.mp this]
  simp

/-- A product is at most four times the exact product, also when it underflows. -/
theorem mul_size32 {x y : BitVec 32} (hx : IsFin binary32 x) (hy : IsFin binary32 y)
    (h : |binary32.toReal x * binary32.toReal y| ≤ 2 ^ 127) :
    |binary32.toReal (binary32.mul x y)| ≤ 4 * |binary32.toReal x * binary32.toReal y| := by
  obtain ⟨-, e⟩ := mul_near32 hx hy h
  have he : |binary32.toReal (binary32.mul x y)| ≤
      1 / 2 ^ 24 * |binary32.toReal x * binary32.toReal y| + 1 / 2 ^ 150 + |binary32.toReal x * binary32.toReal y| := by
    have := abs_add_le (binary32.toReal (binary32.mul x y) - binary32.toReal x * binary32.toReal y)
      (binary32.toReal x * binary32.toReal y)
    rw [sub_add_cancel] at this
    linarith
  generalize hv : |binary32.toReal x * binary32.toReal y| = v at *
  have hv0 : 0 ≤ v := by rw [← hv]; exact abs_nonneg _
  by_cases hs : v < 1 / 2 ^ 151
  · rw [toReal_tiny (lt_of_le_of_lt he (by norm_num at *; linarith)), abs_zero]
    linarith
  · rw [not_lt] at hs
    refine he.trans ?_
    norm_num at *
    linarith

/-- Division. -/
theorem Tr.div_of {x y : BitVec 32} {v w e f B C Q L E : ℝ} (hx : Tr x v e B) (hy : Tr y w f C)
    (hL : L ≤ |w|) (hf : f < L) (hQ : |v / w| ≤ Q)
    (hE : (e + Q * f) / (L - f) + 1 / 2 ^ 24 * (Q + (e + Q * f) / (L - f)) + 1 / 2 ^ 150 ≤ E)
    (hr : Q + (e + Q * f) / (L - f) ≤ 2 ^ 127) :
    Tr (binary32.div x y) (v / w) E Q := by
  have a1 := hx.err
  have a2 := hy.err
  have hf0 := hy.e_nonneg
  have hw0 : 0 < |w| := by linarith
  have hwne := abs_pos.mp hw0
  have hY : L - f ≤ |binary32.toReal y| := by
    have := abs_sub_abs_le_abs_sub w (binary32.toReal y)
    rw [abs_sub_comm] at this
    linarith
  have hY0 : 0 < |binary32.toReal y| := by linarith
  have hYne := abs_pos.mp hY0
  have hQ0 : 0 ≤ Q := (abs_nonneg _).trans hQ
  have h1 : |binary32.toReal x / binary32.toReal y - v / w| ≤ (e + Q * f) / (L - f) := by
    rw [show binary32.toReal x / binary32.toReal y - v / w =
      ((binary32.toReal x - v) - v / w * (binary32.toReal y - w)) / binary32.toReal y by field_simp; ring, abs_div]
    refine div_le_div₀ (by have := hx.e_nonneg; positivity) ?_ (by linarith) hY
    refine (abs_sub _ _).trans (add_le_add a1 ?_)
    rw [abs_mul]
    exact mul_le_mul hQ a2 (abs_nonneg _) hQ0
  have h2 : |binary32.toReal x / binary32.toReal y| ≤ Q + (e + Q * f) / (L - f) := by
    have := abs_add_le (binary32.toReal x / binary32.toReal y - v / w) (v / w)
    rw [sub_add_cancel] at this
    linarith
  obtain ⟨f1, e1⟩ := div_near32 hx.fin hy.fin hYne (h2.trans hr)
  refine ⟨f1, ?_, hQ⟩
  have h3 := abs_add_le (binary32.toReal (binary32.div x y) - binary32.toReal x / binary32.toReal y)
    (binary32.toReal x / binary32.toReal y - v / w)
  rw [sub_add_sub_cancel] at h3
  have h4 := mul_le_mul_of_nonneg_left h2 (by norm_num : (0 : ℝ) ≤ 1 / 2 ^ 24)
  linarith

/-- The term of third order, relative to its size. -/
theorem cubic_term {x p : BitVec 32} {P E C : ℝ} (hx : IsFin binary32 x) (hp : Tr p P E C)
    (hb : |binary32.toReal x| ≤ 1) (hl : 1 / 2 ^ 16 ≤ |binary32.toReal x|) (hC : C + E ≤ 1) :
    IsFin binary32 (binary32.mul (binary32.mul x (binary32.mul x x)) p) ∧
    |binary32.toReal (binary32.mul (binary32.mul x (binary32.mul x x)) p) - binary32.toReal x ^ 3 * P| ≤
      |binary32.toReal x| ^ 3 * (3.1 / 2 ^ 24 * (C + E) + E + 1 / 2 ^ 100) := by
  have hX0 := abs_nonneg (binary32.toReal x)
  have hx3 : 1 / 2 ^ 48 ≤ |binary32.toReal x| ^ 3 := by
    have := pow_le_pow_left₀ (by norm_num : (0 : ℝ) ≤ 1 / 2 ^ 16) hl 3
    norm_num at this ⊢; exact this
  have hx2 : 1 / 2 ^ 32 ≤ |binary32.toReal x| ^ 2 := by
    have := pow_le_pow_left₀ (by norm_num : (0 : ℝ) ≤ 1 / 2 ^ 16) hl 2
    norm_num at this ⊢; linarith
  have hx21 : |binary32.toReal x| ^ 2 ≤ 1 := pow_le_one₀ hX0 hb
  have hx31 : |binary32.toReal x| ^ 3 ≤ 1 := pow_le_one₀ hX0 hb
  -- x * x
  have n1 : |binary32.toReal x * binary32.toReal x| = |binary32.toReal x| ^ 2 := by rw [abs_mul, sq]
  obtain ⟨f1, e1⟩ := mul_near32 hx hx (by rw [n1]; exact hx21.trans (by norm_num))
  rw [n1] at e1
  have hz : |binary32.toReal (binary32.mul x x)| ≤ |binary32.toReal x| ^ 2 * (1 + 1.01 / 2 ^ 24) := by
    have := abs_add_le (binary32.toReal (binary32.mul x x) - binary32.toReal x * binary32.toReal x)
      (binary32.toReal x * binary32.toReal x)
    rw [sub_add_cancel, n1] at this
    norm_num at *; linarith
  have e1' : |binary32.toReal (binary32.mul x x) - binary32.toReal x * binary32.toReal x| ≤
      |binary32.toReal x| ^ 2 * (1.01 / 2 ^ 24) := by norm_num at *; linarith
  generalize binary32.mul x x = z at *
  -- x * z
  have n2 : |binary32.toReal x * binary32.toReal z| ≤ |binary32.toReal x| ^ 3 * (1 + 1.01 / 2 ^ 24) := by
    rw [abs_mul]
    calc |binary32.toReal x| * |binary32.toReal z| ≤ |binary32.toReal x| * (|binary32.toReal x| ^ 2 * (1 + 1.01 / 2 ^ 24)) :=
          mul_le_mul_of_nonneg_left hz hX0
      _ = _ := by ring
  obtain ⟨f2, e2⟩ := mul_near32 hx f1 (n2.trans (by norm_num at *; linarith))
  have e2' : |binary32.toReal (binary32.mul x z) - binary32.toReal x ^ 3| ≤ |binary32.toReal x| ^ 3 * (2.03 / 2 ^ 24) := by
    have h1 : |binary32.toReal x * binary32.toReal z - binary32.toReal x ^ 3| ≤
        |binary32.toReal x| ^ 3 * (1.01 / 2 ^ 24) := by
      rw [show binary32.toReal x * binary32.toReal z - binary32.toReal x ^ 3 =
        binary32.toReal x * (binary32.toReal z - binary32.toReal x * binary32.toReal x) by ring, abs_mul]
      calc _ ≤ |binary32.toReal x| * (|binary32.toReal x| ^ 2 * (1.01 / 2 ^ 24)) :=
            mul_le_mul_of_nonneg_left e1' hX0
        _ = _ := by ring
    have h2 := abs_add_le (binary32.toReal (binary32.mul x z) - binary32.toReal x * binary32.toReal z)
      (binary32.toReal x * binary32.toReal z - binary32.toReal x ^ 3)
    rw [sub_add_sub_cancel] at h2
    norm_num at *
    linarith
  have n3 : |binary32.toReal (binary32.mul x z)| ≤ |binary32.toReal x| ^ 3 * (1 + 2.03 / 2 ^ 24) := by
    have := abs_add_le (binary32.toReal (binary32.mul x z) - binary32.toReal x ^ 3) (binary32.toReal x ^ 3)
    rw [sub_add_cancel, abs_pow] at this
    linarith
  generalize binary32.mul x z = y at *
  have hp1 := hp.abs_le
  have hC0 : 0 ≤ C + E := (abs_nonneg _).trans hp1
  have hE0 := hp.e_nonneg
  have n4 : |binary32.toReal y * binary32.toReal p| ≤ |binary32.toReal x| ^ 3 * (1 + 2.03 / 2 ^ 24) * (C + E) := by
    rw [abs_mul]; exact mul_le_mul n3 hp1 (abs_nonneg _) (by positivity)
  have n5 : |binary32.toReal x| ^ 3 * (1 + 2.03 / 2 ^ 24) * (C + E) ≤ 2 := by
    calc _ ≤ 1 * (1 + 2.03 / 2 ^ 24) * (1 : ℝ) := by gcongr
      _ ≤ 2 := by norm_num
  obtain ⟨f3, e3⟩ := mul_near32 f2 hp.fin (n4.trans (n5.trans (by norm_num)))
  refine ⟨f3, ?_⟩
  have h1 : |binary32.toReal y * binary32.toReal p - binary32.toReal x ^ 3 * P| ≤
      |binary32.toReal x| ^ 3 * (2.03 / 2 ^ 24) * (C + E) + |binary32.toReal x| ^ 3 * E := by
    rw [show binary32.toReal y * binary32.toReal p - binary32.toReal x ^ 3 * P =
      (binary32.toReal y - binary32.toReal x ^ 3) * binary32.toReal p +
      binary32.toReal x ^ 3 * (binary32.toReal p - P) by ring]
    refine (abs_add_le _ _).trans (add_le_add ?_ ?_)
    · rw [abs_mul]; exact mul_le_mul e2' hp1 (abs_nonneg _) (by positivity)
    · rw [abs_mul, abs_pow]; exact mul_le_mul_of_nonneg_left hp.err (by positivity)
  have h2 := abs_add_le (binary32.toReal (binary32.mul y p) - binary32.toReal y * binary32.toReal p)
    (binary32.toReal y * binary32.toReal p - binary32.toReal x ^ 3 * P)
  rw [sub_add_sub_cancel] at h2
  generalize |binary32.toReal x| ^ 3 = q at *
  have hqc : 0 ≤ q * (C + E) := mul_nonneg (by norm_num at hx3; linarith) hC0
  have e4 : q * (3.1 / 2 ^ 24 * (C + E) + E + 1 / 2 ^ 100) = 3.1 / 2 ^ 24 * (q * (C + E)) + q * E + 1 / 2 ^ 100 * q := by ring
  have e5 : q * (2.03 / 2 ^ 24) * (C + E) = 2.03 / 2 ^ 24 * (q * (C + E)) := by ring
  have e6 : q * (1 + 2.03 / 2 ^ 24) * (C + E) = (1 + 2.03 / 2 ^ 24) * (q * (C + E)) := by ring
  rw [e4]
  rw [e5] at h1
  rw [e6] at n4
  generalize q * (C + E) = s at *
  generalize q * E = t at *
  norm_num at *
  linarith

/-- The whole polynomial; `s` is `x`, or `x` after the addition of zero. -/
theorem odd_poly' {s x p : BitVec 32} {P E C b d : ℝ} (hx : IsFin binary32 x) (hs : IsFin binary32 s)
    (hsx : binary32.toReal s = binary32.toReal x) (hp : Tr p P E C)
    (hb : |binary32.toReal x| ≤ b) (hb1 : b ≤ 1) (hC : C + E ≤ 1)
    (hd : b ^ 2 * (3.1 / 2 ^ 24 * (C + E) + E + 1 / 2 ^ 100) + 1 / 2 ^ 24 *
      (1 + b ^ 2 * C + b ^ 2 * (3.1 / 2 ^ 24 * (C + E) + E + 1 / 2 ^ 100)) ≤ d) (hd1 : 1.3 / 2 ^ 24 ≤ d) :
    IsFin binary32 (binary32.add s (binary32.mul (binary32.mul x (binary32.mul x x)) p)) ∧
    |binary32.toReal (binary32.add s (binary32.mul (binary32.mul x (binary32.mul x x)) p)) -
      (binary32.toReal x + binary32.toReal x ^ 3 * P)| ≤ d * |binary32.toReal x| := by
  have hX0 := abs_nonneg (binary32.toReal x)
  have hp1 := hp.abs_le
  have hE0 := hp.e_nonneg
  have hC0 := hp.b_nonneg
  by_cases hl : 1 / 2 ^ 16 ≤ |binary32.toReal x|
  · obtain ⟨f1, e1⟩ := cubic_term hx hp (hb.trans hb1) hl hC
    generalize hK : 3.1 / 2 ^ 24 * (C + E) + E + 1 / 2 ^ 100 = K at *
    have hK0 : 0 ≤ K := by rw [← hK]; positivity
    have hK1 : K ≤ 2 := by rw [← hK]; norm_num at *; linarith
    generalize binary32.mul (binary32.mul x (binary32.mul x x)) p = t at *
    have h3 : |binary32.toReal x| ^ 3 ≤ |binary32.toReal x| * b ^ 2 := by
      rw [pow_succ' _ 2]; exact mul_le_mul_of_nonneg_left (pow_le_pow_left₀ hX0 hb 2) hX0
    have e1' : |binary32.toReal t - binary32.toReal x ^ 3 * P| ≤ |binary32.toReal x| * (b ^ 2 * K) := by
      refine e1.trans ?_
      rw [← mul_assoc]; exact mul_le_mul_of_nonneg_right h3 hK0
    have h4 : |binary32.toReal x ^ 3 * P| ≤ |binary32.toReal x| * (b ^ 2 * C) := by
      rw [abs_mul, abs_pow, ← mul_assoc]
      exact mul_le_mul h3 hp.bnd (abs_nonneg _) (by positivity)
    have h5 : |binary32.toReal x + binary32.toReal t| ≤ |binary32.toReal x| * (1 + b ^ 2 * C + b ^ 2 * K) := by
      rw [show binary32.toReal x + binary32.toReal t = binary32.toReal x + binary32.toReal x ^ 3 * P +
        (binary32.toReal t - binary32.toReal x ^ 3 * P) by ring]
      refine (abs_add_le _ _).trans ?_
      have := abs_add_le (binary32.toReal x) (binary32.toReal x ^ 3 * P)
      linarith
    have h6 : |binary32.toReal x| * (1 + b ^ 2 * C + b ^ 2 * K) ≤ 1 * (1 + 1 * 1 + 1 * 2) := by
      have hb0 : 0 ≤ b := hX0.trans hb
      have hb2 : b ^ 2 ≤ 1 := pow_le_one₀ hb0 hb1
      have : C ≤ 1 := by linarith
      gcongr
      exact hb.trans hb1
    obtain ⟨f2, e2⟩ := add_near32 hs f1 (by rw [hsx]; exact h5.trans (h6.trans (by norm_num)))
    rw [hsx] at e2
    refine ⟨f2, ?_⟩
    have h7 := abs_add_le (binary32.toReal (binary32.add s t) - (binary32.toReal x + binary32.toReal t))
      (binary32.toReal t - binary32.toReal x ^ 3 * P)
    rw [show binary32.toReal (binary32.add s t) - (binary32.toReal x + binary32.toReal t) +
      (binary32.toReal t - binary32.toReal x ^ 3 * P) = binary32.toReal (binary32.add s t) -
      (binary32.toReal x + binary32.toReal x ^ 3 * P) by ring] at h7
    refine h7.trans ?_
    have h8 := mul_le_mul_of_nonneg_right hd hX0
    have h9 := mul_le_mul_of_nonneg_left h5 (by norm_num : (0 : ℝ) ≤ 1 / 2 ^ 24)
    refine le_trans ?_ h8
    rw [show (b ^ 2 * K + 1 / 2 ^ 24 * (1 + b ^ 2 * C + b ^ 2 * K)) * |binary32.toReal x| =
      1 / 2 ^ 24 * (|binary32.toReal x| * (1 + b ^ 2 * C + b ^ 2 * K)) + |binary32.toReal x| * (b ^ 2 * K) by ring]
    linarith
  · rw [not_le] at hl
    have hx1 : |binary32.toReal x| ≤ 1 := hb.trans hb1
    have hx2 : |binary32.toReal x| ^ 2 ≤ 1 / 2 ^ 32 := by
      have := pow_le_pow_left₀ hX0 hl.le 2
      norm_num at this ⊢; linarith
    have n1 : |binary32.toReal x * binary32.toReal x| = |binary32.toReal x| ^ 2 := by rw [abs_mul, sq]
    have r1 : |binary32.toReal x * binary32.toReal x| ≤ 2 ^ 127 := by rw [n1]; exact hx2.trans (by norm_num)
    have s1 := mul_size32 hx hx r1
    have f1 := (mul_near32 hx hx r1).1
    rw [n1] at s1
    generalize binary32.mul x x = z at *
    have n2 : |binary32.toReal x * binary32.toReal z| ≤ |binary32.toReal x| * (4 * |binary32.toReal x| ^ 2) := by
      rw [abs_mul]; exact mul_le_mul_of_nonneg_left s1 hX0
    have n2' : |binary32.toReal x| * (4 * |binary32.toReal x| ^ 2) ≤ |binary32.toReal x| * (4 * (1 / 2 ^ 32)) := by
      gcongr
    have r2 : |binary32.toReal x * binary32.toReal z| ≤ 2 ^ 127 := by norm_num at *; linarith
    have s2 := mul_size32 hx f1 r2
    have f2 := (mul_near32 hx f1 r2).1
    generalize binary32.mul x z = y at *
    have s2' : |binary32.toReal y| ≤ |binary32.toReal x| * (16 / 2 ^ 32) := by norm_num at *; linarith
    have n3 : |binary32.toReal y * binary32.toReal p| ≤ |binary32.toReal x| * (16 / 2 ^ 32) := by
      rw [abs_mul]
      calc _ ≤ |binary32.toReal x| * (16 / 2 ^ 32) * 1 :=
            mul_le_mul s2' (hp1.trans hC) (abs_nonneg _) (by positivity)
        _ = _ := mul_one _
    have r3 : |binary32.toReal y * binary32.toReal p| ≤ 2 ^ 127 := by norm_num at *; linarith
    have s3 := mul_size32 f2 hp.fin r3
    have f3 := (mul_near32 f2 hp.fin r3).1
    generalize binary32.mul y p = t at *
    have s3' : |binary32.toReal t| ≤ |binary32.toReal x| * (64 / 2 ^ 32) := by norm_num at *; linarith
    have h4 : |binary32.toReal x ^ 3 * P| ≤ |binary32.toReal x| * (1 / 2 ^ 32) := by
      rw [abs_mul, abs_pow, pow_succ' _ 2]
      calc _ ≤ |binary32.toReal x| * (1 / 2 ^ 32) * 1 := by
            refine mul_le_mul (mul_le_mul_of_nonneg_left hx2 hX0) (hp.bnd.trans (by linarith)) (abs_nonneg _) (by positivity)
        _ = _ := mul_one _
    have h5 := abs_add_le (binary32.toReal x) (binary32.toReal t)
    obtain ⟨f4, e4⟩ := add_near32 hs f3 (by rw [hsx]; exact h5.trans (by norm_num at *; linarith))
    rw [hsx] at e4
    refine ⟨f4, ?_⟩
    have h7 := abs_add_le (binary32.toReal (binary32.add s t) - (binary32.toReal x + binary32.toReal t))
      (binary32.toReal t - binary32.toReal x ^ 3 * P)
    rw [show binary32.toReal (binary32.add s t) - (binary32.toReal x + binary32.toReal t) +
      (binary32.toReal t - binary32.toReal x ^ 3 * P) = binary32.toReal (binary32.add s t) -
      (binary32.toReal x + binary32.toReal x ^ 3 * P) by ring] at h7
    have h8 := abs_sub (binary32.toReal t) (binary32.toReal x ^ 3 * P)
    have h9 := mul_le_mul_of_nonneg_right hd1 hX0
    refine le_trans ?_ h9
    generalize |binary32.toReal x ^ 3 * P| = a1 at *
    generalize |binary32.toReal t - binary32.toReal x ^ 3 * P| = a2 at *
    norm_num at h4 s3' h8 h7 e4 h5 ⊢
    linarith

theorem odd_poly {x p : BitVec 32} {P E C b d : ℝ} (hx : IsFin binary32 x) (hp : Tr p P E C)
    (hb : |binary32.toReal x| ≤ b) (hb1 : b ≤ 1) (hC : C + E ≤ 1)
    (hd : b ^ 2 * (3.1 / 2 ^ 24 * (C + E) + E + 1 / 2 ^ 100) + 1 / 2 ^ 24 *
      (1 + b ^ 2 * C + b ^ 2 * (3.1 / 2 ^ 24 * (C + E) + E + 1 / 2 ^ 100)) ≤ d) (hd1 : 1.3 / 2 ^ 24 ≤ d) :
    IsFin binary32 (binary32.add x (binary32.mul (binary32.mul x (binary32.mul x x)) p)) ∧
    |binary32.toReal (binary32.add x (binary32.mul (binary32.mul x (binary32.mul x x)) p)) -
      (binary32.toReal x + binary32.toReal x ^ 3 * P)| ≤ d * |binary32.toReal x| :=
  odd_poly' hx hx rfl hp hb hb1 hC hd hd1

end Nova
