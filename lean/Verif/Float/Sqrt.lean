import Verif.Float.Grid
import Mathlib.Analysis.Real.Sqrt
import Mathlib.Tactic.NormNum.NatSqrt

/-!
# The square root

The integer square root is exact; the error of `sqrt`.  Also the rounding error as half a unit in the last place.
-/

namespace Nova
open FP

namespace FP

theorem isqrtFrom_spec (n : ℕ) : ∀ k r, r * r ≤ n → n < (r + 2 ^ k) * (r + 2 ^ k) →
    isqrtFrom n k r * isqrtFrom n k r ≤ n ∧ n < (isqrtFrom n k r + 1) * (isqrtFrom n k r + 1)
  | 0, r, h1, h2 => ⟨h1, by simpa [isqrtFrom] using h2⟩
  | k + 1, r, h1, h2 => by
    unfold isqrtFrom
    by_cases h : (r + 2 ^ k) * (r + 2 ^ k) ≤ n
    · rw [if_pos h]
      exact isqrtFrom_spec n k _ h (by rw [Nat.add_assoc, ← two_mul, ← pow_succ']; exact h2)
    · rw [if_neg h]
      exact isqrtFrom_spec n k _ h1 (Nat.lt_of_not_le h)

theorem isqrt_spec (n : ℕ) : isqrt n * isqrt n ≤ n ∧ n < (isqrt n + 1) * (isqrt n + 1) := by
  unfold isqrt
  refine isqrtFrom_spec n _ 0 (by simp) ?_
  rw [Nat.zero_add, ← pow_add]
  exact lt_of_lt_of_le Nat.lt_log2_self (Nat.pow_le_pow_right (by decide) (by omega))

/-- The rounding error is at most half a unit in the last place of the binade. -/
theorem rne_half (mb : ℕ) {N D s0 : ℕ} (hD : 0 < D) (h : N ≤ 2 ^ (mb + 1 + s0) * D) :
    2 * (mag mb (rne mb N D) * D) ≤ 2 * N + D * 2 ^ s0 ∧
    2 * N ≤ 2 * (mag mb (rne mb N D) * D) + D * 2 ^ s0 := by
  rcases Nat.lt_or_eq_of_le h with h | h
  · obtain ⟨s, m, p⟩ := rne_parts mb N hD
    obtain ⟨e1, e2⟩ := p.error
    have hs : s ≤ s0 := by
      rcases p.norm with h0 | h0
      · omega
      · have h1 : 2 ^ mb * (D * 2 ^ s) < 2 ^ (mb + 1 + s0) * D :=
          lt_of_le_of_lt ((Nat.mul_le_mul_right _ h0).trans p.lo) h
        rw [show 2 ^ mb * (D * 2 ^ s) = 2 ^ (mb + s) * D by rw [pow_add]; ring] at h1
        have h2 := Nat.lt_of_mul_lt_mul_right h1
        have := (Nat.pow_lt_pow_iff_right (by decide)).mp h2
        omega
    have h3 : D * 2 ^ s ≤ D * 2 ^ s0 := Nat.mul_le_mul_left _ (Nat.pow_le_pow_right (by decide) hs)
    omega
  · have hm : mag mb ((s0 + 1 + 1) * 2 ^ mb) = 2 ^ (mb + 1 + s0) := by
      rw [mag_two_pow]; congr 1; omega
    rw [rne_exact (c := (s0 + 1 + 1) * 2 ^ mb) hD (by rw [hm]; exact h), hm, ← h]
    omega

end FP

theorem half_150 (z : ℝ) : z / 2 ^ 150 = z / 2 / 2 ^ 149 := by
  rw [div_div]; congr 1; norm_num

/-- The value of a rounded quotient, with the error as half a unit in the last place. -/
theorem packRnd_half32 (s : Bool) {N D : ℕ} (hD : 0 < D) {s0 : ℕ}
    (h : (N : ℝ) / D / 2 ^ 149 ≤ 2 ^ (24 + s0) / 2 ^ 149) (hs : s0 ≤ 252) :
    IsFin binary32 (binary32.packRnd s N D) ∧
    |binary32.toReal (binary32.packRnd s N D) - (if s then -1 else 1) * ((N : ℝ) / D / 2 ^ 149)| ≤
      2 ^ s0 / 2 ^ 150 ∧
    |binary32.toReal (binary32.packRnd s N D)| ≤ 2 ^ (24 + s0) / 2 ^ 149 := by
  have hD' : (0 : ℝ) < D := by exact_mod_cast hD
  have hS : (0 : ℝ) < 2 ^ 149 := by positivity
  have hN : N ≤ 2 ^ (24 + s0) * D := by
    rw [div_le_div_iff_of_pos_right hS, div_le_iff₀ hD'] at h
    exact_mod_cast h
  have hm : mag 23 ((s0 + 1 + 1) * 2 ^ 23) = 2 ^ (24 + s0) := by
    rw [mag_two_pow]; congr 1; omega
  have hle : rne 23 N D ≤ (s0 + 1 + 1) * 2 ^ 23 := rne_le hD (by rw [hm]; exact hN)
  have hlt : rne binary32.mb N D < binary32.infCode := by
    rw [show binary32.infCode = 255 * 2 ^ 23 by decide]
    exact lt_of_le_of_lt hle (Nat.mul_lt_mul_of_pos_right (by omega) (by decide))
  have hmag : mag 23 (rne 23 N D) ≤ 2 ^ (24 + s0) := by rw [← hm]; exact mag_le_iff.mpr hle
  obtain ⟨e1, e2⟩ := rne_half 23 hD (s0 := s0) hN
  unfold Fmt.packRnd
  rw [Nat.min_eq_right hlt.le]
  refine ⟨binary32.isFinite_pack _ hlt, ?_, ?_⟩
  · rw [binary32.toReal_pack _ hlt, ← mul_sub, abs_mul]
    have hs : |(if s then -1 else 1 : ℝ)| = 1 := by cases s <;> simp
    rw [hs, one_mul, show binary32.scale = 149 by decide, show binary32.mb = 23 by decide]
    have e1' : 2 * ((mag 23 (rne 23 N D) : ℝ) * D) ≤ 2 * N + D * 2 ^ s0 := by exact_mod_cast e1
    have e2' : 2 * (N : ℝ) ≤ 2 * ((mag 23 (rne 23 N D) : ℝ) * D) + D * 2 ^ s0 := by exact_mod_cast e2
    generalize (mag 23 (rne 23 N D) : ℝ) = r at *
    rw [← sub_div, abs_div, abs_of_pos hS, half_150,
      div_le_div_iff_of_pos_right hS, show r - N / D = (r * D - N) / D by field_simp, abs_div, abs_of_pos hD',
      div_le_iff₀ hD', abs_le]
    generalize (2 : ℝ) ^ s0 = z at *
    constructor <;> linarith
  · rw [binary32.toReal_pack _ hlt, abs_mul]
    have hs : |(if s then -1 else 1 : ℝ)| = 1 := by cases s <;> simp
    rw [hs, one_mul, show binary32.scale = 149 by decide, show binary32.mb = 23 by decide, abs_div, abs_of_pos hS, Nat.abs_cast,
      div_le_div_iff_of_pos_right hS]
    exact_mod_cast hmag

/-- What the square root rounds. -/
theorem sqrt_parts {x : BitVec 32} (hx : IsFin binary32 x) (h0 : 0 < binary32.toReal x) :
    ∃ N : ℕ, binary32.sqrt x = binary32.packRnd false N 2 ∧
      |(N : ℝ) / 2 / 2 ^ 149 - Real.sqrt (binary32.toReal x)| ≤ 1 / 2 ^ 150 ∧
      ∀ k : ℕ, Real.sqrt (binary32.toReal x) ≤ k / 2 ^ 149 → (N : ℝ) / 2 / 2 ^ 149 ≤ k / 2 ^ 149 := by
  have hn : binary32.neg x = false := by
    by_contra hc
    rw [Bool.not_eq_false] at hc
    have := binary32.toReal_nonpos hc
    linarith
  have hz : binary32.isZero x = false := by
    by_contra hc
    rw [Bool.not_eq_false] at hc
    have hcode : binary32.code x = 0 := by
      unfold Fmt.isZero at hc; exact of_decide_eq_true hc
    rw [binary32.toReal_eq, hcode, mag_zero] at h0
    simp at h0
  unfold Fmt.sqrt
  rw [binary32.isFinite_not_nan hx, hz, hn, binary32.isFinite_not_inf hx]
  simp only [Bool.false_eq_true, if_false]
  rw [binary32.toReal_eq, hn]
  simp only [Bool.false_eq_true, if_false, one_mul]
  rw [show binary32.scale = 149 by decide]
  generalize mag binary32.mb (binary32.code x) = M
  have hq : Real.sqrt ((M : ℝ) / 2 ^ 149) = Real.sqrt ((M * 2 ^ 149 : ℕ) : ℝ) / 2 ^ 149 := by
    rw [show ((M : ℝ) / 2 ^ 149) = ((M * 2 ^ 149 : ℕ) : ℝ) / (2 ^ 149) ^ 2 by rw [Nat.cast_mul, Nat.cast_pow, Nat.cast_ofNat]; field_simp,
      Real.sqrt_div' _ (by positivity), Real.sqrt_sq (by positivity)]
  rw [hq]
  generalize M * 2 ^ 149 = q
  obtain ⟨s1, s2⟩ := isqrt_spec q
  generalize isqrt q = r at *
  have l1 : (r : ℝ) ≤ Real.sqrt q := Real.le_sqrt_of_sq_le (by rw [sq]; exact_mod_cast s1)
  have l2 : Real.sqrt q < r + 1 := by
    rw [Real.sqrt_lt' (by positivity), sq]; exact_mod_cast s2
  have hS : (0 : ℝ) < 2 ^ 149 := by positivity
  refine ⟨_, rfl, ?_, ?_⟩
  · rw [← sub_div, abs_div, abs_of_pos hS, half_150,
      div_le_div_iff_of_pos_right hS, abs_le]
    by_cases h : r * r = q
    · rw [if_pos h, Nat.add_zero]
      have : Real.sqrt q = r := by
        rw [← h]; push_cast; rw [Real.sqrt_mul_self (Nat.cast_nonneg r)]
      rw [this]; push_cast
      constructor <;> linarith
    · rw [if_neg h]; push_cast
      constructor <;> linarith
  · intro k hk
    rw [div_le_div_iff_of_pos_right hS] at hk ⊢
    by_cases h : r * r = q
    · rw [if_pos h, Nat.add_zero]
      push_cast; linarith
    · rw [if_neg h]; push_cast
      have : (r : ℝ) < k := by
        refine lt_of_le_of_ne (l1.trans hk) ?_
        intro e
        have e3 : Real.sqrt q = r := le_antisymm (by rw [e]; exact hk) l1
        have e4 : ((r * r : ℕ) : ℝ) = q := by
          push_cast; rw [← e3]; exact Real.mul_self_sqrt (Nat.cast_nonneg q)
        exact h (by exact_mod_cast e4)
      have : (r : ℝ) + 1 ≤ k := by exact_mod_cast this
      linarith

/-- The error of the square root. -/
theorem sqrt_near32 {x : BitVec 32} (hx : IsFin binary32 x) (h0 : 0 < binary32.toReal x)
    (h1 : binary32.toReal x ≤ 1) :
    IsFin binary32 (binary32.sqrt x) ∧
    |binary32.toReal (binary32.sqrt x) - Real.sqrt (binary32.toReal x)| ≤
      1 / 2 ^ 24 * Real.sqrt (binary32.toReal x) + 1 / 2 ^ 148 := by
  obtain ⟨N, e, h2, -⟩ := sqrt_parts hx h0
  have hs1 : Real.sqrt (binary32.toReal x) ≤ 1 := Real.sqrt_le_one.mpr h1
  have hs0 := Real.sqrt_nonneg (binary32.toReal x)
  rw [e]
  generalize Real.sqrt (binary32.toReal x) = v at *
  have a := abs_le.mp h2
  have n := near_le (Fmt.packRnd_near (F := binary32) false (N := N) (D := 2) (by decide) (by
    rw [show binary32.scale = 149 by decide, bias32]; push_cast; norm_num at *; linarith))
  have hf := (Fmt.packRnd_near (F := binary32) false (N := N) (D := 2) (by decide) (by
    rw [show binary32.scale = 149 by decide, bias32]; push_cast; norm_num at *; linarith)).1
  refine ⟨hf, ?_⟩
  rw [Fmt.u32, Fmt.eta32, show binary32.scale = 149 by decide] at n
  simp only [Bool.false_eq_true, if_false, one_mul] at n
  push_cast at n
  have hp : 0 ≤ (N : ℝ) / 2 / 2 ^ 149 := by positivity
  rw [abs_of_nonneg hp] at n
  generalize (N : ℝ) / 2 / 2 ^ 149 = t at *
  generalize binary32.toReal (binary32.packRnd false N 2) = R at *
  have := abs_add_le (R - t) (t - v)
  rw [sub_add_sub_cancel] at this
  norm_num at a n h2 this ⊢
  linarith

/-- … below 1/2. -/
theorem sqrt_half32 {x : BitVec 32} (hx : IsFin binary32 x) (h0 : 0 < binary32.toReal x)
    (h1 : binary32.toReal x ≤ 1 / 4) :
    |binary32.toReal (binary32.sqrt x) - Real.sqrt (binary32.toReal x)| ≤ 1 / 2 ^ 26 + 1 / 2 ^ 150 ∧
    binary32.toReal (binary32.sqrt x) ≤ 1 / 2 := by
  obtain ⟨N, e, h2, h3⟩ := sqrt_parts hx h0
  have hs1 : Real.sqrt (binary32.toReal x) ≤ 1 / 2 := by
    rw [Real.sqrt_le_left (by norm_num)]; norm_num at *; linarith
  have hk := h3 (2 ^ 148) (hs1.trans (by push_cast; norm_num))
  obtain ⟨-, p, q⟩ := packRnd_half32 false (N := N) (D := 2) (by decide) (s0 := 124)
    (by push_cast at hk ⊢; exact hk.trans (by norm_num)) (by decide)
  rw [e]
  simp only [Bool.false_eq_true, if_false, one_mul] at p
  push_cast at p
  constructor
  · generalize (N : ℝ) / 2 / 2 ^ 149 = t at *
    generalize binary32.toReal (binary32.packRnd false N 2) = R at *
    have := abs_add_le (R - t) (t - Real.sqrt (binary32.toReal x))
    rw [sub_add_sub_cancel] at this
    norm_num at p h2 this ⊢
    linarith
  · refine (le_abs_self _).trans (q.trans (by norm_num))

theorem sqrt_zero32 {x : BitVec 32} (hx : IsFin binary32 x) (h0 : binary32.toReal x = 0) :
    IsFin binary32 (binary32.sqrt x) ∧ binary32.toReal (binary32.sqrt x) = 0 := by
  have hz : binary32.isZero x = true := by
    unfold Fmt.isZero
    apply decide_eq_true
    unfold Fmt.toReal at h0
    rw [div_eq_zero_iff] at h0
    rcases h0 with h0 | h0
    · exact binary32.units_eq_zero.mp (by exact_mod_cast h0)
    · exact absurd h0 (by positivity)
  unfold Fmt.sqrt
  rw [binary32.isFinite_not_nan hx, hz]
  exact ⟨hx, h0⟩

end Nova
