import Verif.Float.Error
import Verif.Float.Convert
import Verif.Float.Grid
import Mathlib.Analysis.SpecialFunctions.Log.Deriv
import Mathlib.Analysis.Complex.ExponentialBounds
import Mathlib.Tactic.LinearCombination

/-! # How close to 1 a number can be, and the size of its logarithm -/

namespace Nova
open FP

namespace FP.Fmt
variable {w : Nat} (F : Fmt w)

/-- The numbers next to 1 are at a distance of `2^-mb` and `2^-(mb+1)`. -/
theorem dist_one {x : BitVec w} (hb : 3 ≤ F.bias) (h : F.toReal x ≠ 1) : F.u ≤ |F.toReal x - 1| := by
  have hu : F.u ≤ 1 / 2 := by
    unfold u
    rw [pow_succ, div_le_div_iff₀ (by positivity) (by positivity)]
    have : (1 : ℝ) ≤ 2 ^ F.mb := one_le_pow₀ (by norm_num)
    linarith
  rw [F.toReal_eq] at h ⊢
  cases hn : F.neg x
  · rw [hn] at h
    simp only [Bool.false_eq_true, if_false, one_mul] at h ⊢
    obtain ⟨s, m, hc, h1, h2⟩ := code_decomp F.mb (F.code x)
    rw [hc, mag_decomp F.mb h1.le h2] at h ⊢
    have hs : F.scale = (F.bias - 2) + (F.mb + 1) := by unfold scale; omega
    rcases Nat.lt_or_ge s (F.bias - 2) with hlt | hge
    · have hle : ((m * 2 ^ s : ℕ) : ℝ) / 2 ^ F.scale ≤ 1 / 2 := by
        rw [div_le_div_iff₀ (by positivity) (by positivity)]
        have a1 : m * 2 ^ s ≤ 2 ^ (F.mb + 1) * 2 ^ s := Nat.mul_le_mul_right _ h1.le
        have a2 : 2 ^ (F.mb + 1) * 2 ^ s * 2 ≤ 2 ^ F.scale := by
          rw [hs, ← pow_add, ← pow_succ]
          exact Nat.pow_le_pow_right (by decide) (by omega)
        have a3 : m * 2 ^ s * 2 ≤ 1 * 2 ^ F.scale := by omega
        exact_mod_cast a3
      rw [abs_of_nonpos (by linarith)]
      linarith
    · obtain ⟨t, rfl⟩ := Nat.exists_eq_add_of_le hge
      have e : ((m * 2 ^ (F.bias - 2 + t) : ℕ) : ℝ) / 2 ^ F.scale = ((m * 2 ^ t : ℕ) : ℝ) / 2 ^ (F.mb + 1) := by
        rw [hs, pow_add, pow_add]
        push_cast
        field_simp
      rw [e] at h ⊢
      have hne : (m * 2 ^ t : ℕ) ≠ 2 ^ (F.mb + 1) := fun q => h (by rw [q]; push_cast; exact div_self (by positivity))
      have e2 : ((m * 2 ^ t : ℕ) : ℝ) / 2 ^ (F.mb + 1) - 1 = (((m * 2 ^ t : ℕ) : ℤ) - ((2 ^ (F.mb + 1) : ℕ) : ℤ) : ℤ) / 2 ^ (F.mb + 1) := by
        push_cast
        field_simp
      rw [e2, abs_div, abs_of_pos (show (0 : ℝ) < 2 ^ (F.mb + 1) by positivity)]
      unfold u
      refine div_le_div_of_nonneg_right ?_ (by positivity)
      have : 1 ≤ |((m * 2 ^ t : ℕ) : ℤ) - ((2 ^ (F.mb + 1) : ℕ) : ℤ)| := Int.one_le_abs (by omega)
      exact_mod_cast this
  · simp only [if_true]
    have : (0 : ℝ) ≤ (mag F.mb (F.code x) : ℝ) / 2 ^ F.scale := by positivity
    rw [abs_of_nonpos (by linarith)]
    linarith

/-- The logarithm of a number other than 1 is not tiny. -/
theorem log_ge {x : BitVec w} (hb : 3 ≤ F.bias) (hp : 0 < F.toReal x) (h : F.toReal x ≠ 1) :
    F.u / 2 ≤ |Real.log (F.toReal x)| := by
  have hd := F.dist_one hb h
  have h0 := F.u_pos
  have hu : F.u ≤ 1 := by
    unfold u
    rw [div_le_one (by positivity)]
    exact one_le_pow₀ (by norm_num)
  rcases lt_or_gt_of_ne h with hl | hg
  · rw [abs_of_neg (by linarith)] at hd
    have := Real.log_le_sub_one_of_pos hp
    rw [abs_of_neg (Real.log_neg hp hl)]
    linarith
  · rw [abs_of_pos (by linarith)] at hd
    have := Real.one_sub_inv_le_log_of_pos hp
    rw [abs_of_pos (Real.log_pos hg)]
    have h2 : (F.toReal x)⁻¹ ≤ 1 - F.u / 2 := by
      rw [inv_le_iff_one_le_mul₀ hp]
      have : 0 ≤ 1 - F.u / 2 := by linarith
      nlinarith [mul_le_mul_of_nonneg_left hd this]
    linarith

/-- … and not large. -/
theorem log_le {x : BitVec w} (hx : F.isFinite x = true) (hp : 0 < F.toReal x) :
    |Real.log (F.toReal x)| ≤ F.bias + F.mb + 1 := by
  have hfin := F.finite_code hx
  have hl2 : Real.log 2 ≤ 1 := by linarith [Real.log_two_lt_d9]
  have hl0 : 0 < Real.log 2 := Real.log_pos (by norm_num)
  have hb := F.bias_pos
  have hn : F.neg x = false := by
    by_contra hn
    rw [Bool.not_eq_false] at hn
    rw [F.toReal_eq, hn] at hp
    have : (0 : ℝ) ≤ (mag F.mb (F.code x) : ℝ) / 2 ^ F.scale := by positivity
    simp only [if_true] at hp
    linarith
  have e : F.toReal x = (mag F.mb (F.code x) : ℝ) / 2 ^ F.scale := by rw [F.toReal_eq, hn]; simp
  have hm : 1 ≤ mag F.mb (F.code x) := by
    rcases Nat.eq_zero_or_pos (mag F.mb (F.code x)) with q | q
    · rw [e, q] at hp; simp at hp
    · exact q
  have lo : (1 : ℝ) / 2 ^ F.scale ≤ F.toReal x := by
    rw [e]
    exact div_le_div_of_nonneg_right (by exact_mod_cast hm) (by positivity)
  have hi : F.toReal x ≤ 2 ^ (F.bias + 1) := by
    have hinf : F.infCode = (2 * F.bias + 1) * 2 ^ F.mb := by
      unfold infCode bias
      congr 1
      have h1 := F.heb
      have : 2 ^ F.eb = 2 * 2 ^ (F.eb - 1) := by rw [← pow_succ']; congr 1; omega
      have : 1 ≤ 2 ^ (F.eb - 1) := Nat.one_le_two_pow
      omega
    have h3 : mag F.mb (F.code x) < 2 ^ (F.mb + 2 * F.bias) := by
      rw [← mag_two_pow, ← hinf]; exact mag_lt_iff.mpr hfin
    rw [e, div_le_iff₀ (by positivity), ← pow_add]
    have : 2 ^ (F.mb + 2 * F.bias) = 2 ^ (F.bias + 1 + F.scale) := by congr 1; unfold scale; omega
    rw [this] at h3
    exact_mod_cast h3.le
  have l1 : Real.log (F.toReal x) ≤ (F.bias + 1 : ℕ) * Real.log 2 := by
    rw [← Real.log_pow]; exact Real.log_le_log hp hi
  have l2 : -((F.scale : ℝ) * Real.log 2) ≤ Real.log (F.toReal x) := by
    rw [← Real.log_pow, ← Real.log_inv, ← one_div]; exact Real.log_le_log (by positivity) lo
  have hs : (F.scale : ℝ) ≤ F.bias + F.mb := by
    have : F.scale ≤ F.bias + F.mb := by unfold scale; omega
    exact_mod_cast this
  rw [abs_le]
  have hb0 : (0 : ℝ) ≤ F.bias := by positivity
  have hm0 : (0 : ℝ) ≤ F.mb := by positivity
  push_cast at l1
  constructor
  · have : (F.scale : ℝ) * Real.log 2 ≤ F.scale * 1 := mul_le_mul_of_nonneg_left hl2 (by positivity)
    linarith
  · have : ((F.bias : ℝ) + 1) * Real.log 2 ≤ (F.bias + 1) * 1 := mul_le_mul_of_nonneg_left hl2 (by positivity)
    linarith

/-- Two patterns of the same value other than zero are equal. -/
theorem eq_of_toReal {x y : BitVec w} (h : F.toReal x = F.toReal y) (h0 : F.toReal y ≠ 0) : x = y := by
  have hm : ∀ z : BitVec w, (0 : ℝ) ≤ (mag F.mb (F.code z) : ℝ) / 2 ^ F.scale := fun z => by positivity
  rw [F.toReal_eq, F.toReal_eq y] at h
  rw [F.toReal_eq] at h0
  have hp : (0 : ℝ) < 2 ^ F.scale := by positivity
  have key : F.neg x = F.neg y ∧ (mag F.mb (F.code x) : ℝ) / 2 ^ F.scale = (mag F.mb (F.code y) : ℝ) / 2 ^ F.scale := by
    have := hm x
    have := hm y
    generalize (mag F.mb (F.code x) : ℝ) / 2 ^ F.scale = a at *
    generalize (mag F.mb (F.code y) : ℝ) / 2 ^ F.scale = b at *
    generalize F.neg x = s at *
    generalize F.neg y = t at *
    cases s <;> cases t <;> simp at h h0 ⊢
    · exact h
    · exact absurd (le_antisymm (by linarith) (by linarith)) h0
    · exact absurd (le_antisymm (by linarith) (by linarith)) h0
    · exact h
  refine F.ext key.1 ?_
  have := (div_left_inj' hp.ne').mp key.2
  exact mag_inj.mp (by exact_mod_cast this)

end FP.Fmt
end Nova
