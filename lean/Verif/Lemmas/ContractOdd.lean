import Verif.Lemmas.ContractLog
import Verif.Lemmas.AsinFinal
import Verif.Lemmas.TanhPoly

/-!
# Odd polynomials with contraction

`x + x * x² * p` keeps its error relative to `x` when the last product is not rounded.
-/

namespace Nova
open FP VecMath

/-- Numbers closer than the distance of subnormal numbers. -/
theorem toReal_close {r s : BitVec 32} (h : |binary32.toReal r - binary32.toReal s| < 1 / 2 ^ 149) :
    binary32.toReal r = binary32.toReal s := by
  unfold Fmt.toReal at h ⊢
  rw [show binary32.scale = 149 by decide] at h ⊢
  rw [← sub_div, abs_div, abs_of_pos (by positivity : (0 : ℝ) < 2 ^ 149), div_lt_div_iff_of_pos_right (by positivity)] at h
  have : |binary32.units r - binary32.units s| < 1 := by exact_mod_cast h
  rw [sub_eq_zero.mp (Int.abs_lt_one_iff.mp this)]

theorem fma_max32 {x y z : BitVec 32} (hx : IsFin binary32 x) (hy : IsFin binary32 y) (hz : IsFin binary32 z)
    (h : |binary32.toReal x * binary32.toReal y + binary32.toReal z| ≤ 2 ^ 127) :
    IsFin binary32 (binary32.fma x y z) ∧
    |binary32.toReal (binary32.fma x y z) - (binary32.toReal x * binary32.toReal y + binary32.toReal z)| ≤
      max (1 / 2 ^ 24 * |binary32.toReal x * binary32.toReal y + binary32.toReal z|) (1 / 2 ^ 150) := by
  have := Fmt.fma_near (F := binary32) hx hy hz (by rw [bias32]; exact h)
  refine ⟨this.1, ?_⟩
  have e := this.2
  rwa [Fmt.u32, Fmt.eta32] at e

/-- A sum of `s`, which has the value `X`, and a small product, rounded once. -/
theorem odd_fused {y q s : BitVec 32} {X P C K b d : ℝ} (hy : IsFin binary32 y) (hq : IsFin binary32 q)
    (hs : IsFin binary32 s) (hsx : binary32.toReal s = X)
    (hbig : 1 / 2 ^ 16 ≤ |X| → |binary32.toReal y * binary32.toReal q - X ^ 3 * P| ≤ |X| ^ 3 * (K - 1 / 2 ^ 101))
    (hsmall : |X| < 1 / 2 ^ 16 → |binary32.toReal y * binary32.toReal q| ≤ |X| * (16 / 2 ^ 32))
    (hP : |P| ≤ C) (hC : C ≤ 1) (hK : 1 / 2 ^ 101 ≤ K) (hK1 : K ≤ 2) (hb : |X| ≤ b) (hb1 : b ≤ 1)
    (hd : b ^ 2 * K + 1 / 2 ^ 24 * (1 + b ^ 2 * C + b ^ 2 * K) ≤ d) (hd1 : 1.3 / 2 ^ 24 ≤ d) :
    IsFin binary32 (binary32.fma y q s) ∧
    |binary32.toReal (binary32.fma y q s) - (X + X ^ 3 * P)| ≤ d * |X| := by
  have hX0 := abs_nonneg X
  have hC0 := (abs_nonneg _).trans hP
  have hK0 : 0 ≤ K := le_trans (by norm_num) hK
  have fm := fun h => fma_max32 hy hq hs h
  rw [hsx] at fm
  generalize binary32.toReal y * binary32.toReal q = T at *
  generalize binary32.fma y q s = r at *
  by_cases hl : 1 / 2 ^ 16 ≤ |X|
  · have e1 := hbig hl
    have hx3 : 1 / 2 ^ 48 ≤ |X| ^ 3 := by
      have := pow_le_pow_left₀ (by norm_num : (0 : ℝ) ≤ 1 / 2 ^ 16) hl 3
      norm_num at this ⊢; exact this
    have h3 : |X| ^ 3 ≤ |X| * b ^ 2 := by
      rw [pow_succ' _ 2]; exact mul_le_mul_of_nonneg_left (pow_le_pow_left₀ hX0 hb 2) hX0
    have e1' : |T - X ^ 3 * P| + 1 / 2 ^ 150 ≤ |X| * (b ^ 2 * K) := by
      have : |X| ^ 3 * K ≤ |X| * (b ^ 2 * K) := by rw [← mul_assoc]; exact mul_le_mul_of_nonneg_right h3 hK0
      have e2 : |X| ^ 3 * (K - 1 / 2 ^ 101) = |X| ^ 3 * K - |X| ^ 3 / 2 ^ 101 := by ring
      rw [e2] at e1
      norm_num at *; linarith
    have h4 : |X ^ 3 * P| ≤ |X| * (b ^ 2 * C) := by
      rw [abs_mul, abs_pow, ← mul_assoc]
      exact mul_le_mul h3 hP (abs_nonneg _) (by positivity)
    have h5 : |T + X| ≤ |X| * (1 + b ^ 2 * C + b ^ 2 * K) := by
      rw [show T + X = X + X ^ 3 * P + (T - X ^ 3 * P) by ring]
      refine (abs_add_le _ _).trans ?_
      have := abs_add_le X (X ^ 3 * P)
      have : (0 : ℝ) ≤ 1 / 2 ^ 150 := by positivity
      linarith
    have h6 : |X| * (1 + b ^ 2 * C + b ^ 2 * K) ≤ 1 * (1 + 1 * 1 + 1 * 2) := by
      have hb0 : 0 ≤ b := hX0.trans hb
      have hb2 : b ^ 2 ≤ 1 := pow_le_one₀ hb0 hb1
      gcongr
      exact hb.trans hb1
    obtain ⟨f2, e2⟩ := fm (h5.trans (h6.trans (by norm_num)))
    refine ⟨f2, ?_⟩
    have e3 : |binary32.toReal r - (T + X)| ≤ 1 / 2 ^ 24 * |T + X| + 1 / 2 ^ 150 :=
      e2.trans (max_le (le_add_of_nonneg_right (by positivity)) (le_add_of_nonneg_left (by positivity)))
    have h7 := abs_add_le (binary32.toReal r - (T + X)) (T - X ^ 3 * P)
    rw [show binary32.toReal r - (T + X) + (T - X ^ 3 * P) = binary32.toReal r - (X + X ^ 3 * P) by ring] at h7
    refine h7.trans ?_
    have h8 := mul_le_mul_of_nonneg_right hd hX0
    have h9 := mul_le_mul_of_nonneg_left h5 (by norm_num : (0 : ℝ) ≤ 1 / 2 ^ 24)
    refine le_trans ?_ h8
    rw [show (b ^ 2 * K + 1 / 2 ^ 24 * (1 + b ^ 2 * C + b ^ 2 * K)) * |X| =
      1 / 2 ^ 24 * (|X| * (1 + b ^ 2 * C + b ^ 2 * K)) + |X| * (b ^ 2 * K) by ring]
    linarith
  · rw [not_le] at hl
    have s3 := hsmall hl
    have hx2 : |X| ^ 2 ≤ 1 / 2 ^ 32 := by
      have := pow_le_pow_left₀ hX0 hl.le 2
      norm_num at this ⊢; linarith
    have h4 : |X ^ 3 * P| ≤ |X| * (1 / 2 ^ 32) := by
      rw [abs_mul, abs_pow, pow_succ' _ 2]
      calc _ ≤ |X| * (1 / 2 ^ 32) * 1 := by
            refine mul_le_mul (mul_le_mul_of_nonneg_left hx2 hX0) (hP.trans hC) (abs_nonneg _) (by positivity)
        _ = _ := mul_one _
    have h5 := abs_add_le T X
    obtain ⟨f4, e4⟩ := fm (h5.trans (by norm_num at s3 hl ⊢; linarith))
    refine ⟨f4, ?_⟩
    have h9 := mul_le_mul_of_nonneg_right hd1 hX0
    refine le_trans ?_ h9
    by_cases hn : |X| < 1 / 2 ^ 126
    · have e5 : binary32.toReal r = X := by
        rw [← hsx]
        refine toReal_close ?_
        rw [hsx]
        have h7 := abs_add_le (binary32.toReal r - (T + X)) T
        rw [show binary32.toReal r - (T + X) + T = binary32.toReal r - X by ring] at h7
        refine lt_of_le_of_lt (h7.trans (add_le_add e4 le_rfl)) ?_
        have : max (1 / 2 ^ 24 * |T + X|) (1 / 2 ^ 150) ≤ 1.1 / 2 ^ 150 := by
          refine max_le ?_ (by norm_num)
          norm_num at s3 hn h5 ⊢; linarith
        refine lt_of_le_of_lt (add_le_add this le_rfl) ?_
        norm_num at s3 hn ⊢; linarith
      rw [e5, show X - (X + X ^ 3 * P) = -(X ^ 3 * P) by ring, abs_neg]
      norm_num at h4 ⊢; linarith
    · rw [not_lt] at hn
      have e5 : |binary32.toReal r - (T + X)| ≤ 1 / 2 ^ 24 * (|X| + |X| * (16 / 2 ^ 32)) := by
        refine e4.trans (max_le ?_ ?_)
        · exact mul_le_mul_of_nonneg_left (by linarith) (by norm_num)
        · norm_num at hn ⊢; linarith
      have h7 := abs_add_le (binary32.toReal r - (T + X)) (T - X ^ 3 * P)
      rw [show binary32.toReal r - (T + X) + (T - X ^ 3 * P) = binary32.toReal r - (X + X ^ 3 * P) by ring] at h7
      have h8 := abs_sub T (X ^ 3 * P)
      refine h7.trans ?_
      generalize |X ^ 3 * P| = a1 at *
      generalize |T - X ^ 3 * P| = a2 at *
      norm_num at h4 s3 h8 e5 ⊢
      linarith

/-- The product of third order before its last rounding. -/
theorem cubic_exact {x p : BitVec 32} {P E C : ℝ} (hx : IsFin binary32 x) (hp : Tr p P E C)
    (hb : |binary32.toReal x| ≤ 1) (hl : 1 / 2 ^ 16 ≤ |binary32.toReal x|) (hC : C + E ≤ 1) :
    |binary32.toReal (binary32.mul x (binary32.mul x x)) * binary32.toReal p - binary32.toReal x ^ 3 * P| ≤
      |binary32.toReal x| ^ 3 * (3.1 / 2 ^ 24 * (C + E) + E + 1 / 2 ^ 100 - 1 / 2 ^ 101) := by
  have hX0 := abs_nonneg (binary32.toReal x)
  have hx3 : 1 / 2 ^ 48 ≤ |binary32.toReal x| ^ 3 := by
    have := pow_le_pow_left₀ (by norm_num : (0 : ℝ) ≤ 1 / 2 ^ 16) hl 3
    norm_num at this ⊢; exact this
  have hx2 : 1 / 2 ^ 32 ≤ |binary32.toReal x| ^ 2 := by
    have := pow_le_pow_left₀ (by norm_num : (0 : ℝ) ≤ 1 / 2 ^ 16) hl 2
    norm_num at this ⊢; linarith
  have hx21 : |binary32.toReal x| ^ 2 ≤ 1 := pow_le_one₀ hX0 hb
  have hx31 : |binary32.toReal x| ^ 3 ≤ 1 := pow_le_one₀ hX0 hb
  -- x * x
  have n1 : |binary32.toReal x * binary32.toReal x| = |binary32.toReal x| ^ 2 := by rw [abs_mul, sq]
  obtain ⟨f1, e1⟩ := mul_near32 hx hx (by rw [n1]; exact hx21.trans (by norm_num))
  rw [n1] at e1
  have hz : |binary32.toReal (binary32.mul x x)| ≤ |binary32.toReal x| ^ 2 * (1 + 1.01 / 2 ^ 24) := by
    have := abs_add_le (binary32.toReal (binary32.mul x x) - binary32.toReal x * binary32.toReal x)
      (binary32.toReal x * binary32.toReal x)
    rw [sub_add_cancel, n1] at this
    norm_num at *; linarith
  have e1' : |binary32.toReal (binary32.mul x x) - binary32.toReal x * binary32.toReal x| ≤
      |binary32.toReal x| ^ 2 * (1.01 / 2 ^ 24) := by norm_num at *; linarith
  generalize binary32.mul x x = z at *
  -- x * z
  have n2 : |binary32.toReal x * binary32.toReal z| ≤ |binary32.toReal x| ^ 3 * (1 + 1.01 / 2 ^ 24) := by
    rw [abs_mul]
    calc |binary32.toReal x| * |binary32.toReal z| ≤ |binary32.toReal x| * (|binary32.toReal x| ^ 2 * (1 + 1.01 / 2 ^ 24)) :=
          mul_le_mul_of_nonneg_left hz hX0
      _ = _ := by ring
  obtain ⟨f2, e2⟩ := mul_near32 hx f1 (n2.trans (by norm_num at *; linarith))
  have e2' : |binary32.toReal (binary32.mul x z) - binary32.toReal x ^ 3| ≤ |binary32.toReal x| ^ 3 * (2.03 / 2 ^ 24) := by
    have h1 : |binary32.toReal x * binary32.toReal z - binary32.toReal x ^ 3| ≤
        |binary32.toReal x| ^ 3 * (1.01 / 2 ^ 24) := by
      rw [show binary32.toReal x * binary32.toReal z - binary32.toReal x ^ 3 =
        binary32.toReal x * (binary32.toReal z - binary32.toReal x * binary32.toReal x) by ring, abs_mul]
      calc _ ≤ |binary32.toReal x| * (|binary32.toReal x| ^ 2 * (1.01 / 2 ^ 24)) :=
            mul_le_mul_of_nonneg_left e1' hX0
        _ = _ := by ring
    have h2 := abs_add_le (binary32.toReal (binary32.mul x z) - binary32.toReal x * binary32.toReal z)
      (binary32.toReal x * binary32.toReal z - binary32.toReal x ^ 3)
    rw [sub_add_sub_cancel] at h2
    norm_num at *
    linarith
  have n3 : |binary32.toReal (binary32.mul x z)| ≤ |binary32.toReal x| ^ 3 * (1 + 2.03 / 2 ^ 24) := by
    have := abs_add_le (binary32.toReal (binary32.mul x z) - binary32.toReal x ^ 3) (binary32.toReal x ^ 3)
    rw [sub_add_cancel, abs_pow] at this
    linarith
  generalize binary32.mul x z = y at *
  have hp1 := hp.abs_le
  have hC0 : 0 ≤ C + E := (abs_nonneg _).trans hp1
  have hE0 := hp.e_nonneg
  have n4 : |binary32.toReal y * binary32.toReal p| ≤ |binary32.toReal x| ^ 3 * (1 + 2.03 / 2 ^ 24) * (C + E) := by
    rw [abs_mul]; exact mul_le_mul n3 hp1 (abs_nonneg _) (by positivity)
  have n5 : |binary32.toReal x| ^ 3 * (1 + 2.03 / 2 ^ 24) * (C + E) ≤ 2 := by
    calc _ ≤ 1 * (1 + 2.03 / 2 ^ 24) * (1 : ℝ) := by gcongr
      _ ≤ 2 := by norm_num
  have h1 : |binary32.toReal y * binary32.toReal p - binary32.toReal x ^ 3 * P| ≤
      |binary32.toReal x| ^ 3 * (2.03 / 2 ^ 24) * (C + E) + |binary32.toReal x| ^ 3 * E := by
    rw [show binary32.toReal y * binary32.toReal p - binary32.toReal x ^ 3 * P =
      (binary32.toReal y - binary32.toReal x ^ 3) * binary32.toReal p +
      binary32.toReal x ^ 3 * (binary32.toReal p - P) by ring]
    refine (abs_add_le _ _).trans (add_le_add ?_ ?_)
    · rw [abs_mul]; exact mul_le_mul e2' hp1 (abs_nonneg _) (by positivity)
    · rw [abs_mul, abs_pow]; exact mul_le_mul_of_nonneg_left hp.err (by positivity)
  refine h1.trans ?_
  have hq : 0 ≤ |binary32.toReal x| ^ 3 := by positivity
  generalize |binary32.toReal x| ^ 3 = q at *
  have hqc : 0 ≤ q * (C + E) := mul_nonneg hq hC0
  rw [show q * (3.1 / 2 ^ 24 * (C + E) + E + 1 / 2 ^ 100 - 1 / 2 ^ 101) =
      3.1 / 2 ^ 24 * (q * (C + E)) + q * E + q / 2 ^ 101 by ring,
    show q * (2.03 / 2 ^ 24) * (C + E) = 2.03 / 2 ^ 24 * (q * (C + E)) by ring]
  have : 0 ≤ q / 2 ^ 101 := by positivity
  norm_num at *
  linarith

/-- … for small arguments. -/
theorem cubic_small {x p : BitVec 32} {P E C : ℝ} (hx : IsFin binary32 x) (hp : Tr p P E C)
    (hC : C + E ≤ 1) (hl : |binary32.toReal x| < 1 / 2 ^ 16) :
    |binary32.toReal (binary32.mul x (binary32.mul x x)) * binary32.toReal p| ≤ |binary32.toReal x| * (16 / 2 ^ 32) := by
  have hX0 := abs_nonneg (binary32.toReal x)
  have hp1 := hp.abs_le
  have hx2 : |binary32.toReal x| ^ 2 ≤ 1 / 2 ^ 32 := by
    have := pow_le_pow_left₀ hX0 hl.le 2
    norm_num at this ⊢; linarith
  have n1 : |binary32.toReal x * binary32.toReal x| = |binary32.toReal x| ^ 2 := by rw [abs_mul, sq]
  have r1 : |binary32.toReal x * binary32.toReal x| ≤ 2 ^ 127 := by rw [n1]; exact hx2.trans (by norm_num)
  have s1 := mul_size32 hx hx r1
  have f1 := (mul_near32 hx hx r1).1
  rw [n1] at s1
  generalize binary32.mul x x = z at *
  have n2 : |binary32.toReal x * binary32.toReal z| ≤ |binary32.toReal x| * (4 * |binary32.toReal x| ^ 2) := by
    rw [abs_mul]; exact mul_le_mul_of_nonneg_left s1 hX0
  have n2' : |binary32.toReal x| * (4 * |binary32.toReal x| ^ 2) ≤ |binary32.toReal x| * (4 * (1 / 2 ^ 32)) := by
    gcongr
  have r2 : |binary32.toReal x * binary32.toReal z| ≤ 2 ^ 127 := by norm_num at *; linarith
  have s2 := mul_size32 hx f1 r2
  have f2 := (mul_near32 hx f1 r2).1
  generalize binary32.mul x z = y at *
  have s2' : |binary32.toReal y| ≤ |binary32.toReal x| * (16 / 2 ^ 32) := by norm_num at *; linarith
  have n3 : |binary32.toReal y * binary32.toReal p| ≤ |binary32.toReal x| * (16 / 2 ^ 32) := by
    rw [abs_mul]
    calc _ ≤ |binary32.toReal x| * (16 / 2 ^ 32) * 1 :=
          mul_le_mul s2' (hp1.trans hC) (abs_nonneg _) (by positivity)
      _ = _ := mul_one _
  exact n3

/-- The factors of the product of third order are finite. -/
theorem cube_fin {x : BitVec 32} (hx : IsFin binary32 x) (hb : |binary32.toReal x| ≤ 1) :
    IsFin binary32 (binary32.mul x x) ∧ |binary32.toReal (binary32.mul x x)| ≤ 4 ∧
    IsFin binary32 (binary32.mul x (binary32.mul x x)) := by
  have hX0 := abs_nonneg (binary32.toReal x)
  have n1 : |binary32.toReal x * binary32.toReal x| ≤ 1 := by
    rw [abs_mul]; exact mul_le_one₀ hb hX0 hb
  have f1 := (mul_near32 hx hx (n1.trans (by norm_num))).1
  have s1 := mul_size32 hx hx (n1.trans (by norm_num))
  have s2 : |binary32.toReal (binary32.mul x x)| ≤ 4 := by linarith
  refine ⟨f1, s2, (mul_near32 hx f1 ?_).1⟩
  rw [abs_mul]
  have := mul_le_mul hb s2 (abs_nonneg _) (by norm_num)
  norm_num at this ⊢; linarith

namespace Contract

/-- The whole polynomial; `s` is `x`, or `x` after the addition of zero. -/
theorem odd_poly {c : Bool} {s x p : BitVec 32} {P E C b d : ℝ} (hx : IsFin binary32 x) (hs : IsFin binary32 s)
    (hsx : binary32.toReal s = binary32.toReal x) (hp : Tr p P E C)
    (hb : |binary32.toReal x| ≤ b) (hb1 : b ≤ 1) (hC : C + E ≤ 1)
    (hd : b ^ 2 * (3.1 / 2 ^ 24 * (C + E) + E + 1 / 2 ^ 100) + 1 / 2 ^ 24 *
      (1 + b ^ 2 * C + b ^ 2 * (3.1 / 2 ^ 24 * (C + E) + E + 1 / 2 ^ 100)) ≤ d) (hd1 : 1.3 / 2 ^ 24 ≤ d) :
    ∀ r ∈ add c (.reg s) (.prod (binary32.mul x (binary32.mul x x)) p), IsFin binary32 r ∧
    |binary32.toReal r - (binary32.toReal x + binary32.toReal x ^ 3 * P)| ≤ d * |binary32.toReal x| := by
  intro r hr
  have hE0 := hp.e_nonneg
  have hC0 := hp.b_nonneg
  rcases mem_sums hr with rfl | ⟨-, _, _, h, -⟩ | ⟨-, y, q, h, rfl⟩
  · exact odd_poly' hx hs hsx hp hb hb1 hC hd hd1
  · exact absurd h (by simp)
  · injection h with h1 h2
    subst h1 h2
    refine odd_fused (C := C) (b := b) (K := 3.1 / 2 ^ 24 * (C + E) + E + 1 / 2 ^ 100) (cube_fin hx (hb.trans hb1)).2.2
      hp.fin hs hsx (fun hl => cubic_exact hx hp (hb.trans hb1) hl hC)
      (fun hl => cubic_small hx hp hC hl) hp.bnd (by linarith) ?_ ?_ hb hb1 hd hd1
    · have : 0 ≤ 3.1 / 2 ^ 24 * (C + E) := by positivity
      norm_num at *; linarith
    · norm_num at *; linarith

end Contract

/-- The product of third order of `vec_tanh_float` before its last rounding. -/
theorem cubic_exact' {x a p : BitVec 32} {P E C : ℝ} (hx : IsFin binary32 x) (ha : IsFin binary32 a)
    (hxa : |binary32.toReal a| = |binary32.toReal x|) (hp : Tr p P E C)
    (hb : |binary32.toReal x| ≤ 1) (hl : 1 / 2 ^ 16 ≤ |binary32.toReal x|) (hC : C + E ≤ 1) :
    |binary32.toReal (binary32.mul p (binary32.mul a a)) * binary32.toReal x - binary32.toReal x ^ 3 * P| ≤
      |binary32.toReal x| ^ 3 * (3.1 / 2 ^ 24 * (C + E) + E + 1 / 2 ^ 100 - 1 / 2 ^ 101) := by
  have hX0 := abs_nonneg (binary32.toReal x)
  have hx2 : 1 / 2 ^ 32 ≤ |binary32.toReal x| ^ 2 := by
    have := pow_le_pow_left₀ (by norm_num : (0 : ℝ) ≤ 1 / 2 ^ 16) hl 2
    norm_num at this ⊢; linarith
  have hx3 : 1 / 2 ^ 48 ≤ |binary32.toReal x| ^ 3 := by
    have := pow_le_pow_left₀ (by norm_num : (0 : ℝ) ≤ 1 / 2 ^ 16) hl 3
    norm_num at this ⊢; exact this
  have hx21 : |binary32.toReal x| ^ 2 ≤ 1 := pow_le_one₀ hX0 hb
  have hx31 : |binary32.toReal x| ^ 3 ≤ 1 := pow_le_one₀ hX0 hb
  have hp1 := hp.abs_le
  have hC0 : 0 ≤ C + E := (abs_nonneg _).trans hp1
  have hE0 := hp.e_nonneg
  -- a * a
  have aa : binary32.toReal a * binary32.toReal a = binary32.toReal x ^ 2 := by
    rw [← abs_mul_abs_self, hxa, abs_mul_abs_self, sq]
  have n1 : |binary32.toReal a * binary32.toReal a| = |binary32.toReal x| ^ 2 := by rw [aa, abs_pow]
  obtain ⟨f1, e1⟩ := mul_near32 ha ha (by rw [n1]; exact hx21.trans (by norm_num))
  rw [n1, aa] at e1
  generalize binary32.mul a a = z at *
  have e1' : |binary32.toReal z - binary32.toReal x ^ 2| ≤ |binary32.toReal x| ^ 2 * (1.01 / 2 ^ 24) := by
    generalize |binary32.toReal z - binary32.toReal x ^ 2| = g at *
    generalize |binary32.toReal x| ^ 2 = w at *
    norm_num at e1 hx2 ⊢; linarith
  have hz : |binary32.toReal z| ≤ |binary32.toReal x| ^ 2 * (1 + 1.01 / 2 ^ 24) := by
    have := abs_add_le (binary32.toReal z - binary32.toReal x ^ 2) (binary32.toReal x ^ 2)
    rw [sub_add_cancel, abs_pow] at this
    linarith
  -- p * z
  have n2 : |binary32.toReal p * binary32.toReal z| ≤ (C + E) * (|binary32.toReal x| ^ 2 * (1 + 1.01 / 2 ^ 24)) := by
    rw [abs_mul]; exact mul_le_mul hp1 hz (abs_nonneg _) hC0
  have n2' : (C + E) * (|binary32.toReal x| ^ 2 * (1 + 1.01 / 2 ^ 24)) ≤ 2 := by
    calc _ ≤ (1 : ℝ) * (1 * (1 + 1.01 / 2 ^ 24)) := by gcongr
      _ ≤ 2 := by norm_num
  obtain ⟨f2, e2⟩ := mul_near32 hp.fin f1 (n2.trans (n2'.trans (by norm_num)))
  have h1 : |binary32.toReal p * binary32.toReal z - P * binary32.toReal x ^ 2| ≤
      (C + E) * (|binary32.toReal x| ^ 2 * (1.01 / 2 ^ 24)) + E * |binary32.toReal x| ^ 2 := by
    rw [show binary32.toReal p * binary32.toReal z - P * binary32.toReal x ^ 2 =
      binary32.toReal p * (binary32.toReal z - binary32.toReal x ^ 2) +
      (binary32.toReal p - P) * binary32.toReal x ^ 2 by ring]
    refine (abs_add_le _ _).trans (add_le_add ?_ ?_)
    · rw [abs_mul]; exact mul_le_mul hp1 e1' (abs_nonneg _) hC0
    · rw [abs_mul, abs_pow]; exact mul_le_mul_of_nonneg_right hp.err (by positivity)
  have e2' : |binary32.toReal (binary32.mul p z) - P * binary32.toReal x ^ 2| ≤
      |binary32.toReal x| ^ 2 * (2.03 / 2 ^ 24 * (C + E) + E + 1 / 2 ^ 110) := by
    have h2 := abs_add_le (binary32.toReal (binary32.mul p z) - binary32.toReal p * binary32.toReal z)
      (binary32.toReal p * binary32.toReal z - P * binary32.toReal x ^ 2)
    rw [sub_add_sub_cancel] at h2
    refine h2.trans ((add_le_add e2 h1).trans ?_)
    have h3 := mul_le_mul_of_nonneg_left n2 (by norm_num : (0 : ℝ) ≤ 1 / 2 ^ 24)
    generalize |binary32.toReal p * binary32.toReal z| = g at *
    generalize |binary32.toReal x| ^ 2 = w at *
    have hw : 0 ≤ w := le_trans (by norm_num) hx2
    have hs : 0 ≤ w * (C + E) := mul_nonneg hw hC0
    rw [show (C + E) * (w * (1 + 1.01 / 2 ^ 24)) = (1 + 1.01 / 2 ^ 24) * (w * (C + E)) by ring] at h3
    rw [show (C + E) * (w * (1.01 / 2 ^ 24)) + E * w = 1.01 / 2 ^ 24 * (w * (C + E)) + E * w by ring,
      show w * (2.03 / 2 ^ 24 * (C + E) + E + 1 / 2 ^ 110) = 2.03 / 2 ^ 24 * (w * (C + E)) + E * w + w / 2 ^ 110 by ring]
    generalize w * (C + E) = s at *
    norm_num at h3 hx2 hs ⊢
    linarith
  generalize binary32.mul p z = y at *
  generalize hK : 2.03 / 2 ^ 24 * (C + E) + E + 1 / 2 ^ 110 = K at *
  have hK0 : 0 ≤ K := by rw [← hK]; positivity
  -- y * x
  have h4 : |binary32.toReal y * binary32.toReal x - binary32.toReal x ^ 3 * P| ≤ |binary32.toReal x| ^ 3 * K := by
    rw [show binary32.toReal y * binary32.toReal x - binary32.toReal x ^ 3 * P =
      (binary32.toReal y - P * binary32.toReal x ^ 2) * binary32.toReal x by ring, abs_mul]
    calc _ ≤ |binary32.toReal x| ^ 2 * K * |binary32.toReal x| := mul_le_mul_of_nonneg_right e2' hX0
      _ = _ := by ring
  refine h4.trans (mul_le_mul_of_nonneg_left ?_ (by positivity))
  rw [← hK]
  norm_num at *; linarith

/-- … for small arguments. -/
theorem cubic_small' {x a p : BitVec 32} {P E C : ℝ} (ha : IsFin binary32 a)
    (hxa : |binary32.toReal a| = |binary32.toReal x|) (hp : Tr p P E C)
    (hC : C + E ≤ 1) (hl : |binary32.toReal x| < 1 / 2 ^ 16) :
    |binary32.toReal (binary32.mul p (binary32.mul a a)) * binary32.toReal x| ≤ |binary32.toReal x| * (16 / 2 ^ 32) := by
  have hX0 := abs_nonneg (binary32.toReal x)
  have hp1 := hp.abs_le
  have hx2 : |binary32.toReal x| ^ 2 ≤ 1 / 2 ^ 32 := by
    have := pow_le_pow_left₀ hX0 hl.le 2
    norm_num at this ⊢; linarith
  have n1 : |binary32.toReal a * binary32.toReal a| = |binary32.toReal x| ^ 2 := by rw [abs_mul, hxa, sq]
  have r1 : |binary32.toReal a * binary32.toReal a| ≤ 2 ^ 127 := by rw [n1]; exact hx2.trans (by norm_num)
  have s1 := mul_size32 ha ha r1
  have f1 := (mul_near32 ha ha r1).1
  rw [n1] at s1
  generalize binary32.mul a a = z at *
  have s1' : |binary32.toReal z| ≤ 4 / 2 ^ 32 := by
    refine s1.trans ?_
    norm_num at hx2 ⊢; linarith
  have n2 : |binary32.toReal p * binary32.toReal z| ≤ 4 / 2 ^ 32 := by
    rw [abs_mul]
    calc _ ≤ 1 * (4 / 2 ^ 32 : ℝ) := mul_le_mul (hp1.trans hC) s1' (abs_nonneg _) (by norm_num)
      _ = _ := one_mul _
  have r2 : |binary32.toReal p * binary32.toReal z| ≤ 2 ^ 127 := n2.trans (by norm_num)
  have s2 := mul_size32 hp.fin f1 r2
  have f2 := (mul_near32 hp.fin f1 r2).1
  generalize binary32.mul p z = y at *
  have s2' : |binary32.toReal y| ≤ 16 / 2 ^ 32 := by
    refine s2.trans ?_
    norm_num at n2 ⊢; linarith
  have n3 : |binary32.toReal y * binary32.toReal x| ≤ |binary32.toReal x| * (16 / 2 ^ 32) := by
    rw [abs_mul, mul_comm]; exact mul_le_mul_of_nonneg_left s2' hX0
  exact n3

namespace Contract

/-- The whole polynomial of `vec_tanh_float`. -/
theorem odd_poly_tanh {c : Bool} {x a p : BitVec 32} {P E C b d : ℝ} (hx : IsFin binary32 x) (ha : IsFin binary32 a)
    (hxa : |binary32.toReal a| = |binary32.toReal x|) (hp : Tr p P E C)
    (hb : |binary32.toReal x| ≤ b) (hb1 : b ≤ 1) (hC : C + E ≤ 1)
    (hd : b ^ 2 * (3.1 / 2 ^ 24 * (C + E) + E + 1 / 2 ^ 100) + 1 / 2 ^ 24 *
      (1 + b ^ 2 * C + b ^ 2 * (3.1 / 2 ^ 24 * (C + E) + E + 1 / 2 ^ 100)) ≤ d) (hd1 : 1.3 / 2 ^ 24 ≤ d) :
    ∀ r ∈ add c (.prod (binary32.mul p (binary32.mul a a)) x) (.reg x), IsFin binary32 r ∧
    |binary32.toReal r - (binary32.toReal x + binary32.toReal x ^ 3 * P)| ≤ d * |binary32.toReal x| := by
  intro r hr
  have hE0 := hp.e_nonneg
  have hC0 := hp.b_nonneg
  rcases mem_sums hr with rfl | ⟨-, y, q, h, rfl⟩ | ⟨-, _, _, h, -⟩
  · exact Nova.odd_poly_tanh hx ha hxa hp hb hb1 hC hd hd1
  · injection h with h1 h2
    subst h1 h2
    have fy : IsFin binary32 (binary32.mul p (binary32.mul a a)) := by
      obtain ⟨f1, s1, -⟩ := cube_fin ha (hxa.le.trans (hb.trans hb1))
      refine (mul_near32 hp.fin f1 ?_).1
      rw [abs_mul]
      have := mul_le_mul (hp.abs_le.trans hC) s1 (abs_nonneg _) (by norm_num)
      norm_num at this ⊢; linarith
    refine odd_fused (C := C) (b := b) (K := 3.1 / 2 ^ 24 * (C + E) + E + 1 / 2 ^ 100) fy
      hx hx rfl (fun hl => cubic_exact' hx ha hxa hp (hb.trans hb1) hl hC)
      (fun hl => cubic_small' ha hxa hp hC hl) hp.bnd (by linarith) ?_ ?_ hb hb1 hd hd1
    · have : 0 ≤ 3.1 / 2 ^ 24 * (C + E) := by positivity
      norm_num at *; linarith
    · norm_num at *; linarith
  · exact absurd h (by simp)

theorem asinInner_track {c : Bool} {x : BitVec 32} {v : ℝ} (hx : Tr x v 0 (1/2)) :
    ∀ r ∈ asinInner c (binary32.mul x x), Tr r (asinQ (v * v)) (2191/2^37) (1547/2^13) := by
  intro r hr
  unfold asinInner at hr
  try dsimp only at hr
  simp only [List.mem_flatMap] at hr
  obtain ⟨p1, m1, p2, m2, p3, m3, m4⟩ := hr
  have t1 := Op.mul (D := 1/2^2) (E := 2049/2^37) hx.op hx.op (by norm_num) (by norm_num) (by norm_num)
  have t2 := Op.const (x := litD 0.166667520999908447265625) (2796217/2^24) (2731/2^14) (by decide +kernel) (by norm_num)
  have t3 := Op.const (x := litD 7.4953101575374603271484375e-2) (10060035/2^27) (2457/2^15) (by decide +kernel) (by norm_num)
  have t4 := Op.const (x := litD 4.54690195620059967041015625e-2) (12205497/2^28) (745/2^14) (by decide +kernel) (by norm_num)
  have t5 := Op.const (x := litD 2.418550290167331695556640625e-2) (12984493/2^29) (3171/2^17) (by decide +kernel) (by norm_num)
  have t6 := Op.const (x := litD 4.21570129692554473876953125e-2) (11316437/2^28) (2763/2^16) (by decide +kernel) (by norm_num)
  have t7 := Op.mul (D := 2763/2^18) (E := 691/2^39) t1 t6 (by norm_num) (by norm_num) (by norm_num)
  have t8 := Op.add (D := 2277/2^16) (E := 915/2^38) m1 t5 t7 (by norm_num) (by norm_num) (by norm_num)
  have t9 := Op.mul (D := 2277/2^18) (E := 1027/2^39) t1 t8 (by norm_num) (by norm_num) (by norm_num)
  have t10 := Op.add (D := 1775/2^15) (E := 2803/2^39) m2 t4 t9 (by norm_num) (by norm_num) (by norm_num)
  have t11 := Op.mul (D := 1775/2^17) (E := 3177/2^40) t1 t10 (by norm_num) (by norm_num) (by norm_num)
  have t12 := Op.add (D := 2901/2^15) (E := 2245/2^38) m3 t3 t11 (by norm_num) (by norm_num) (by norm_num)
  have t13 := Op.mul (D := 2901/2^17) (E := 1287/2^38) t1 t12 (by norm_num) (by norm_num) (by norm_num)
  have t14 := Op.add (D := 1547/2^13) (E := 2191/2^37) m4 t2 t13 (by norm_num) (by norm_num) (by norm_num)
  refine t14.tr.congr ?_
  unfold asinQ
  push_cast
  ring

theorem atanInner_track {c : Bool} {x : BitVec 32} {v : ℝ} (hx : Tr x v 0 0.4143) :
    ∀ r ∈ atanInner c (binary32.mul x x), Tr r (atanQ (v * v)) (2061/2^36) (3049/2^13) := by
  intro r hr
  unfold atanInner at hr
  try dsimp only at hr
  simp only [List.mem_flatMap] at hr
  obtain ⟨p1, m1, p2, m2, m3⟩ := hr
  have t1 := Op.mul (D := 2813/2^14) (E := 1407/2^37) hx.op hx.op (by norm_num) (by norm_num) (by norm_num)
  have t2 := Op.const (x := litD (-0.333329498767852783203125)) (-5592341/2^24) (2731/2^13) (by decide +kernel) (by norm_num)
  have t3 := Op.const (x := litD 0.19977732002735137939453125) (13406829/2^26) (1637/2^13) (by decide +kernel) (by norm_num)
  have t4 := Op.const (x := litD (-0.1387787759304046630859375)) (-4656643/2^25) (1137/2^13) (by decide +kernel) (by norm_num)
  have t5 := Op.const (x := litD 8.054284751415252685546875e-2) (5405139/2^26) (165/2^11) (by decide +kernel) (by norm_num)
  have t6 := Op.mul (D := 3627/2^18) (E := 907/2^39) t1 t5 (by norm_num) (by norm_num) (by norm_num)
  have t7 := Op.add (D := 2501/2^14) (E := 2955/2^38) m1 t4 t6 (by norm_num) (by norm_num) (by norm_num)
  have t8 := Op.mul (D := 859/2^15) (E := 2733/2^39) t1 t7 (by norm_num) (by norm_num) (by norm_num)
  have t9 := Op.add (D := 463/2^11) (E := 317/2^34) m2 t3 t8 (by norm_num) (by norm_num) (by norm_num)
  have t10 := Op.mul (D := 159/2^12) (E := 2143/2^38) t1 t9 (by norm_num) (by norm_num) (by norm_num)
  have t11 := Op.add (D := 3049/2^13) (E := 2061/2^36) m3 t2 t10 (by norm_num) (by norm_num) (by norm_num)
  refine t11.tr.congr ?_
  unfold atanQ
  push_cast
  ring

theorem tanhInner_track {c : Bool} {a : BitVec 32} {v : ℝ} (ha : Tr a v 0 (5/2^3)) :
    ∀ r ∈ tanhInner c (binary32.mul a a), Tr r (tanhQ (v * v)) (2513/2^36) (3237/2^13) := by
  intro r hr
  unfold tanhInner at hr
  try dsimp only at hr
  simp only [List.mem_flatMap] at hr
  obtain ⟨p1, m1, p2, m2, p3, m3, m4⟩ := hr
  have t1 := Op.mul (D := 25/2^6) (E := 3201/2^37) ha.op ha.op (by norm_num) (by norm_num) (by norm_num)
  have t2 := Op.const (x := litD (-5.70498872745e-3)) (-6125685/2^30) (187/2^15) (by decide +kernel) (by norm_num)
  have t3 := Op.const (x := litD 2.06390887954e-2) (5540263/2^28) (1353/2^16) (by decide +kernel) (by norm_num)
  have t4 := Op.const (x := litD (-5.37397155531e-2)) (-14425645/2^28) (1761/2^15) (by decide +kernel) (by norm_num)
  have t5 := Op.const (x := litD 1.33314422036e-1) (8946579/2^26) (2185/2^14) (by decide +kernel) (by norm_num)
  have t6 := Op.const (x := litD (-3.33332819422e-1)) (-11184793/2^25) (2731/2^13) (by decide +kernel) (by norm_num)
  have t7 := Op.mul (D := 1169/2^19) (E := 2339/2^43) t2 t1 (by norm_num) (by norm_num) (by norm_num)
  have t8 := Op.add (D := 2999/2^17) (E := 7/2^32) m1 t7 t3 (by norm_num) (by norm_num) (by norm_num)
  have t9 := Op.mul (D := 2343/2^18) (E := 117/2^36) t8 t1 (by norm_num) (by norm_num) (by norm_num)
  have t10 := Op.add (D := 1027/2^14) (E := 2991/2^39) m2 t9 t4 (by norm_num) (by norm_num) (by norm_num)
  have t11 := Op.mul (D := 1605/2^16) (E := 1387/2^38) t10 t1 (by norm_num) (by norm_num) (by norm_num)
  have t12 := Op.add (D := 2587/2^14) (E := 3975/2^38) m3 t11 t5 (by norm_num) (by norm_num) (by norm_num)
  have t13 := Op.mul (D := 4043/2^16) (E := 3575/2^38) t12 t1 (by norm_num) (by norm_num) (by norm_num)
  have t14 := Op.add (D := 3237/2^13) (E := 2513/2^36) m4 t13 t6 (by norm_num) (by norm_num) (by norm_num)
  refine t14.tr.congr ?_
  unfold tanhQ
  push_cast
  ring

end Contract
end Nova
