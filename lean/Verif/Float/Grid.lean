import Verif.Float.Track

/-!
# Exact additions

A float of at least `2^(s+23)` units is a multiple of `2^s` units.  A sum or difference of two multiples of `2^s`
units is exact when it has at most `2^24` such steps.
-/

namespace Nova
open FP

/-- Large numbers lie on a coarse grid. -/
theorem grid_of_large {x : BitVec 32} {s : ℕ} (h : (2 ^ (s + 23) : ℝ) / 2 ^ 149 ≤ |binary32.toReal x|) :
    (2 ^ s : ℤ) ∣ binary32.units x := by
  have h1 : 2 ^ (s + 23) ≤ mag 23 (binary32.code x) := by
    have e : |binary32.toReal x| = (mag 23 (binary32.code x) : ℝ) / 2 ^ 149 := by
      rw [binary32.toReal_eq, abs_mul, show binary32.scale = 149 by decide]
      rw [show |(if binary32.neg x = true then -1 else 1 : ℝ)| = 1 by cases binary32.neg x <;> simp, one_mul,
        abs_of_nonneg (by positivity)]
      rfl
    rw [e, div_le_div_iff_of_pos_right (by positivity)] at h
    exact_mod_cast h
  obtain ⟨t, m, hc, hm, hs⟩ := code_decomp 23 (binary32.code x)
  have hd : (2 ^ s : ℕ) ∣ mag 23 (binary32.code x) := by
    have e := mag_decomp 23 (s := t) (m := m) (by omega) hs
    rw [hc, e] at h1 ⊢
    have ht : s ≤ t := by
      by_contra hlt
      have h2 : m * 2 ^ t < 2 ^ (23 + 1) * 2 ^ t := Nat.mul_lt_mul_of_pos_right hm (Nat.two_pow_pos _)
      rw [← pow_add] at h2
      have h3 : 2 ^ (23 + 1 + t) ≤ 2 ^ (s + 23) := Nat.pow_le_pow_right (by decide) (by omega)
      omega
    exact Dvd.dvd.mul_left (pow_dvd_pow 2 ht) m
  have := Int.natCast_dvd_natCast.mpr hd
  rw [show mag 23 (binary32.code x) = (binary32.units x).natAbs from (binary32.natAbs_units x).symm] at this
  push_cast at this
  exact (dvd_abs _ _).mp this

/-- A sum on the grid. -/
theorem add_grid32 {x y : BitVec 32} (hx : IsFin binary32 x) (hy : IsFin binary32 y) (s : ℕ)
    (gx : (2 ^ s : ℤ) ∣ binary32.units x) (gy : (2 ^ s : ℤ) ∣ binary32.units y)
    (h : |binary32.toReal x + binary32.toReal y| ≤ 2 ^ (s + 24) / 2 ^ 149) (hs : s ≤ 252) :
    IsFin binary32 (binary32.add x y) ∧
    binary32.toReal (binary32.add x y) = binary32.toReal x + binary32.toReal y := by
  have hr : |binary32.toReal x + binary32.toReal y| ≤ 2 ^ 127 := by
    refine h.trans ?_
    rw [div_le_iff₀ (by positivity), ← pow_add]
    exact pow_le_pow_right₀ (by norm_num) (by omega)
  refine ⟨(add_near32 hx hy hr).1, ?_⟩
  have hsum : binary32.toReal x + binary32.toReal y =
      ((binary32.units x + binary32.units y : ℤ) : ℝ) / 2 ^ 149 := by
    unfold Fmt.toReal
    rw [show binary32.scale = 149 by decide]; push_cast; ring
  rw [hsum] at h ⊢
  rw [binary32.add_finite hx hy]
  have hg := dvd_add gx gy
  generalize binary32.units x + binary32.units y = z at *
  by_cases h0 : z = 0
  · rw [if_pos h0, binary32.toReal_pack _ binary32.infCode_pos, mag_zero, h0]; simp
  · rw [if_neg h0]
    obtain ⟨d, hd⟩ := hg
    have hz : z.natAbs = d.natAbs * 2 ^ s := by
      rw [hd, Int.natAbs_mul, Int.natAbs_pow, Nat.mul_comm]; rfl
    have hdl : d.natAbs ≤ 2 ^ 24 := by
      rw [abs_div, abs_of_pos (show (0 : ℝ) < 2 ^ 149 by positivity),
        div_le_div_iff_of_pos_right (by positivity)] at h
      have h2 : z.natAbs ≤ 2 ^ (s + 24) := by
        have : |z| ≤ 2 ^ (s + 24) := by exact_mod_cast h
        rw [← Int.natCast_natAbs] at this
        exact_mod_cast this
      rw [hz, pow_add, Nat.mul_comm] at h2
      exact Nat.le_of_mul_le_mul_left h2 (Nat.two_pow_pos _)
    obtain ⟨c, hc⟩ := mag_exists (mb := 23) (m := d.natAbs) s hdl
    have hlt : c < binary32.infCode := by
      have e : binary32.infCode = 0x7f800000 := by decide
      have : mag 23 c < mag 23 0x7f800000 := by
        rw [hc, show mag 23 0x7f800000 = 2 ^ 277 by decide +kernel]
        calc d.natAbs * 2 ^ s ≤ 2 ^ 24 * 2 ^ s := Nat.mul_le_mul_right _ hdl
          _ = 2 ^ (24 + s) := by rw [← pow_add]
          _ < 2 ^ 277 := Nat.pow_lt_pow_right (by decide) (by omega)
      rw [e]; exact mag_lt_iff.mp this
    rw [binary32.packRnd_mag _ (by decide) hlt.le (by rw [Nat.mul_one, hz]; exact hc.symm),
      binary32.toReal_pack _ hlt, show mag binary32.mb c = _ from hc, ← hz, show binary32.scale = 149 by decide]
    have hn : ((z.natAbs : ℕ) : ℝ) = |(z : ℝ)| := by
      rw [← Int.cast_abs, ← Int.natCast_natAbs]; rfl
    rw [hn]
    by_cases hk : z < 0
    · rw [decide_eq_true hk, if_pos rfl, abs_of_neg (by exact_mod_cast hk)]; ring
    · rw [decide_eq_false hk, if_neg (by decide), abs_of_nonneg (by exact_mod_cast not_lt.mp hk)]; ring

/-- A difference on the grid. -/
theorem sub_grid32 {x y : BitVec 32} (hx : IsFin binary32 x) (hy : IsFin binary32 y) (s : ℕ)
    (gx : (2 ^ s : ℤ) ∣ binary32.units x) (gy : (2 ^ s : ℤ) ∣ binary32.units y)
    (h : |binary32.toReal x - binary32.toReal y| ≤ 2 ^ (s + 24) / 2 ^ 149) (hs : s ≤ 252) :
    IsFin binary32 (binary32.sub x y) ∧
    binary32.toReal (binary32.sub x y) = binary32.toReal x - binary32.toReal y := by
  rw [binary32.sub_num (binary32.isFinite_not_nan hx) (binary32.isFinite_not_nan hy)]
  have := add_grid32 (y := binary32.negate y) hx (by unfold IsFin; rw [binary32.isFinite_negate]; exact hy) s gx
    (by rw [binary32.units_negate]; exact (dvd_neg).mpr gy)
    (by rw [binary32.toReal_negate, ← sub_eq_add_neg]; exact h) hs
  rw [binary32.toReal_negate, ← sub_eq_add_neg] at this
  exact this

/-- A multiple of `2^s / 2^149`. -/
theorem grid_of_value {x : BitVec 32} {s : ℕ} {k : ℤ} (h : binary32.toReal x = k * 2 ^ s / 2 ^ 149) :
    (2 ^ s : ℤ) ∣ binary32.units x := by
  unfold Fmt.toReal at h
  rw [show binary32.scale = 149 by decide, div_left_inj' (by positivity)] at h
  refine ⟨k, ?_⟩
  rw [mul_comm]
  exact_mod_cast h

end Nova
