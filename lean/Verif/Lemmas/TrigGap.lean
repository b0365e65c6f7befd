import Verif.Lemmas.TrigRelFinal

/-!
# The floats closest to the first zeros of `sin` and `cos`
-/

namespace Nova
open FP VecMath

/-- A float of magnitude at least `2 ^ (s - 126)` is a multiple of `2 ^ (s - 149)`. -/
theorem value_grid {x : BitVec 32} {s : ℕ} (h : (2 ^ (s + 23) : ℝ) / 2 ^ 149 ≤ |binary32.toReal x|) :
    ∃ k : ℤ, binary32.toReal x = k * 2 ^ s / 2 ^ 149 := by
  obtain ⟨k, hk⟩ := grid_of_large h
  refine ⟨k, ?_⟩
  unfold Fmt.toReal
  rw [hk, show binary32.scale = 149 by decide]
  push_cast
  ring

/-- No multiple of the grid is closer to a number than its two neighbours. -/
theorem grid_gap {k n : ℤ} {g p d : ℝ} (hg : 0 ≤ g) (h1 : (n : ℝ) * g + d ≤ p) (h2 : p ≤ (n + 1 : ℤ) * g - d) :
    d ≤ |k * g - p| := by
  rcases le_or_gt k n with h | h
  · have : (k : ℝ) * g ≤ n * g := mul_le_mul_of_nonneg_right (by exact_mod_cast h) hg
    rw [abs_sub_comm]
    exact le_trans (by linarith) (le_abs_self _)
  · have : ((n + 1 : ℤ) : ℝ) * g ≤ k * g := mul_le_mul_of_nonneg_right (by exact_mod_cast h) hg
    exact le_trans (by linarith) (le_abs_self _)

theorem gap_half_pi {x : BitVec 32} (h : 1 ≤ |binary32.toReal x|) :
    4.3 / 10 ^ 8 ≤ |binary32.toReal x - Real.pi / 2| := by
  obtain ⟨k, hk⟩ := value_grid (s := 126) (x := x) (by norm_num; exact h)
  have P1 := Real.pi_gt_d20
  have P2 := Real.pi_lt_d20
  have := grid_gap (k := k) (n := 13176794) (g := 1 / 2 ^ 23) (p := Real.pi / 2) (d := 4.3 / 10 ^ 8) (by norm_num)
    (by norm_num at *; linarith) (by norm_num at *; linarith)
  rw [hk, show (k : ℝ) * 2 ^ 126 / 2 ^ 149 = k * (1 / 2 ^ 23) by norm_num; ring]
  exact this

theorem gap_pi {x : BitVec 32} (h : 2 ≤ |binary32.toReal x|) : 8.7 / 10 ^ 8 ≤ |binary32.toReal x - Real.pi| := by
  obtain ⟨k, hk⟩ := value_grid (s := 127) (x := x) (by norm_num; exact h)
  have P1 := Real.pi_gt_d20
  have P2 := Real.pi_lt_d20
  have := grid_gap (k := k) (n := 13176794) (g := 1 / 2 ^ 22) (p := Real.pi) (d := 8.7 / 10 ^ 8) (by norm_num)
    (by norm_num at *; linarith) (by norm_num at *; linarith)
  rw [hk, show (k : ℝ) * 2 ^ 127 / 2 ^ 149 = k * (1 / 2 ^ 22) by norm_num; ring]
  exact this

theorem gap_two_pi {x : BitVec 32} (h : 4 ≤ |binary32.toReal x|) :
    17.4 / 10 ^ 8 ≤ |binary32.toReal x - 2 * Real.pi| := by
  obtain ⟨k, hk⟩ := value_grid (s := 128) (x := x) (by norm_num; exact h)
  have P1 := Real.pi_gt_d20
  have P2 := Real.pi_lt_d20
  have := grid_gap (k := k) (n := 13176794) (g := 1 / 2 ^ 21) (p := 2 * Real.pi) (d := 17.4 / 10 ^ 8) (by norm_num)
    (by norm_num at *; linarith) (by norm_num at *; linarith)
  rw [hk, show (k : ℝ) * 2 ^ 128 / 2 ^ 149 = k * (1 / 2 ^ 21) by norm_num; ring]
  exact this

theorem near_multiple {X : ℝ} (h : 0 ≤ X) : ∃ q : ℕ, |X - q * (Real.pi / 2)| ≤ 0.7864 := by
  have P1 := Real.pi_gt_d6
  have P2 := Real.pi_lt_d6
  have hp : 0 < Real.pi / 2 := by linarith
  refine ⟨⌊X / (Real.pi / 2) + 1 / 2⌋₊, ?_⟩
  have a1 := Nat.floor_le (show 0 ≤ X / (Real.pi / 2) + 1 / 2 by positivity)
  have a2 := Nat.lt_floor_add_one (X / (Real.pi / 2) + 1 / 2)
  generalize (⌊X / (Real.pi / 2) + 1 / 2⌋₊ : ℝ) = q at *
  have e : X = X / (Real.pi / 2) * (Real.pi / 2) := by field_simp
  generalize X / (Real.pi / 2) = t at *
  rw [e, ← sub_mul, abs_mul, abs_of_pos hp]
  have : |t - q| ≤ 1 / 2 := by rw [abs_le]; constructor <;> linarith
  calc |t - q| * (Real.pi / 2) ≤ 1 / 2 * (Real.pi / 2) := mul_le_mul_of_nonneg_right this hp.le
    _ ≤ 0.7864 := by norm_num at *; linarith

/-- Up to the third positive zero the sine of a float is not small compared to the float. -/
theorem sin_not_small {x : BitVec 32} (h0 : binary32.neg x = false) (h : binary32.toReal x ≤ 9.42) :
    1 / 2 ^ 26 * binary32.toReal x ≤ |Real.sin (binary32.toReal x)| := by
  have P1 := Real.pi_gt_d6
  have P2 := Real.pi_lt_d6
  have hX := toReal_nonneg h0
  have hXa := abs_of_nonneg hX
  obtain ⟨q, hq⟩ := near_multiple hX
  have hsq := sin_quadrant (binary32.toReal x - q * (Real.pi / 2)) q
  rw [sub_add_cancel] at hsq
  have g1 := gap_pi (x := x)
  have g2 := gap_two_pi (x := x)
  rw [hXa] at g1 g2
  generalize binary32.toReal x = X at *
  have hq6 : q < 7 := by
    by_contra hn
    have : (7 : ℝ) ≤ q := by exact_mod_cast (show 7 ≤ q by omega)
    have := mul_le_mul_of_nonneg_right this (show 0 ≤ Real.pi / 2 by linarith)
    have := (abs_le.mp hq).1
    norm_num at *
    linarith
  have hc := cos_large' (hq.trans (by norm_num))
  have hs := sin_lower1 hq
  have hodd : q % 2 = 1 → 1 / 2 ^ 26 * X ≤ |Real.sin X| := by
    intro ho
    have : |Real.sin X| = |Real.cos (X - q * (Real.pi / 2))| := by
      rw [hsq, if_neg (show ¬ q % 2 = 0 by omega)]; split <;> simp [abs_neg]
    rw [this]
    refine le_trans ?_ (hc.trans (le_abs_self _))
    norm_num at h ⊢
    linarith
  have heven : q % 2 = 0 → 0.89 * |X - q * (Real.pi / 2)| ≤ |Real.sin X| := by
    intro ho
    have : |Real.sin X| = |Real.sin (X - q * (Real.pi / 2))| := by
      rw [hsq, if_pos ho]; split <;> simp [abs_neg]
    rw [this]
    exact hs
  clear hsq hc hs
  interval_cases q
  · have := heven rfl
    simp only [Nat.cast_zero, zero_mul, sub_zero] at this
    rw [hXa] at this
    norm_num at *
    linarith
  · exact hodd rfl
  · have := heven rfl
    rw [show ((2 : ℕ) : ℝ) * (Real.pi / 2) = Real.pi by push_cast; ring] at this hq
    obtain ⟨k1, k2⟩ := abs_le.mp hq
    have := g1 (by norm_num at *; linarith)
    generalize |X - Real.pi| = d at *
    norm_num at *
    linarith
  · exact hodd rfl
  · have := heven rfl
    rw [show ((4 : ℕ) : ℝ) * (Real.pi / 2) = 2 * Real.pi by push_cast; ring] at this hq
    obtain ⟨k1, k2⟩ := abs_le.mp hq
    have := g2 (by norm_num at *; linarith)
    generalize |X - 2 * Real.pi| = d at *
    norm_num at *
    linarith
  · exact hodd rfl
  · have := heven rfl
    rw [show ((6 : ℕ) : ℝ) * (Real.pi / 2) = 3 * Real.pi by push_cast; ring] at this hq
    have h3 : 0.004 ≤ |X - 3 * Real.pi| := by
      rw [abs_sub_comm]
      refine le_trans ?_ (le_abs_self _)
      norm_num at *
      linarith
    generalize |X - 3 * Real.pi| = d at *
    norm_num at *
    linarith

/-- Up to the second positive zero the cosine of a float is not small compared to the float. -/
theorem cos_not_small {x : BitVec 32} (h0 : binary32.neg x = false) (h : binary32.toReal x ≤ 4.71) :
    1 / 2 ^ 26 * binary32.toReal x ≤ |Real.cos (binary32.toReal x)| := by
  have P1 := Real.pi_gt_d6
  have P2 := Real.pi_lt_d6
  have hX := toReal_nonneg h0
  have hXa := abs_of_nonneg hX
  obtain ⟨q, hq⟩ := near_multiple hX
  have hsq := cos_quadrant (binary32.toReal x - q * (Real.pi / 2)) q
  rw [sub_add_cancel] at hsq
  have hg : 0.7843 ≤ binary32.toReal x → 1 ≤ |binary32.toReal x| → 4.3 / 10 ^ 8 ≤ |binary32.toReal x - Real.pi / 2| :=
    fun _ h => gap_half_pi h
  rw [hXa] at hg
  generalize binary32.toReal x = X at *
  have hq6 : q < 4 := by
    by_contra hn
    have : (4 : ℝ) ≤ q := by exact_mod_cast (show 4 ≤ q by omega)
    have := mul_le_mul_of_nonneg_right this (show 0 ≤ Real.pi / 2 by linarith)
    have := (abs_le.mp hq).1
    norm_num at *
    linarith
  have hc := cos_large' (hq.trans (by norm_num))
  have hs := sin_lower1 hq
  have hodd : q % 2 = 0 → 1 / 2 ^ 26 * X ≤ |Real.cos X| := by
    intro ho
    have : |Real.cos X| = |Real.cos (X - q * (Real.pi / 2))| := by
      rw [hsq, if_pos ho]; split <;> simp [abs_neg]
    rw [this]
    refine le_trans ?_ (hc.trans (le_abs_self _))
    norm_num at h ⊢
    linarith
  have heven : q % 2 = 1 → 0.89 * |X - q * (Real.pi / 2)| ≤ |Real.cos X| := by
    intro ho
    have : |Real.cos X| = |Real.sin (X - q * (Real.pi / 2))| := by
      rw [hsq, if_neg (show ¬ q % 2 = 0 by omega)]; split <;> simp [abs_neg]
    rw [this]
    exact hs
  clear hsq hc hs
  interval_cases q
  · exact hodd rfl
  · have := heven rfl
    rw [show ((1 : ℕ) : ℝ) * (Real.pi / 2) = Real.pi / 2 by push_cast; ring] at this hq
    obtain ⟨k1, k2⟩ := abs_le.mp hq
    rcases le_total 1 X with h1 | h1
    · have := hg (by norm_num; linarith) h1
      generalize |X - Real.pi / 2| = d at *
      norm_num at *
      linarith
    · have h3 : 0.5 ≤ |X - Real.pi / 2| := by
        rw [abs_sub_comm]
        refine le_trans ?_ (le_abs_self _)
        norm_num at *
        linarith
      generalize |X - Real.pi / 2| = d at *
      norm_num at *
      linarith
  · exact hodd rfl
  · have := heven rfl
    rw [show ((3 : ℕ) : ℝ) * (Real.pi / 2) = 3 * Real.pi / 2 by push_cast; ring] at this hq
    have h3 : 0.002 ≤ |X - 3 * Real.pi / 2| := by
      rw [abs_sub_comm]
      refine le_trans ?_ (le_abs_self _)
      norm_num at *
      linarith
    generalize |X - 3 * Real.pi / 2| = d at *
    norm_num at *
    linarith

theorem sin_not_small' {x : BitVec 32} (h : |binary32.toReal x| ≤ 9.42) :
    1 / 2 ^ 26 * |binary32.toReal x| ≤ |Real.sin (binary32.toReal x)| := by
  have hn : binary32.neg (binary32.fabs x) = false := binary32.neg_fabs x
  have := sin_not_small hn (by rw [binary32.toReal_fabs]; exact h)
  rw [binary32.toReal_fabs] at this
  refine this.trans (le_of_eq ?_)
  rcases abs_cases (binary32.toReal x) with ⟨e, -⟩ | ⟨e, -⟩ <;> rw [e]
  rw [Real.sin_neg, abs_neg]

theorem cos_not_small' {x : BitVec 32} (h : |binary32.toReal x| ≤ 4.71) :
    1 / 2 ^ 26 * |binary32.toReal x| ≤ |Real.cos (binary32.toReal x)| := by
  have hn : binary32.neg (binary32.fabs x) = false := binary32.neg_fabs x
  have := cos_not_small hn (by rw [binary32.toReal_fabs]; exact h)
  rw [binary32.toReal_fabs, Real.cos_abs] at this
  exact this

end Nova
