import Verif.Float.Scale

/-!
# Rounding next to a number

A real number less than a quarter of a unit in the last place away from a number is rounded to it.
-/

namespace Nova.FP

theorem rne_near {mb N D c : Nat} (hD : 0 < D)
    (h1 : 2 ^ (mb + 2) * N < (2 ^ (mb + 2) + 1) * (mag mb c * D))
    (h2 : (2 ^ (mb + 2) - 1) * (mag mb c * D) < 2 ^ (mb + 2) * N) : rne mb N D = c := by
  obtain ⟨s, m, h⟩ := rne_parts mb N hD
  obtain ⟨e1, e2⟩ := h.error
  obtain ⟨t, k, hc, hk, hn⟩ := code_decomp mb c
  have hmc : mag mb c = k * 2 ^ t := by rw [hc]; exact mag_decomp mb hk.le hn
  have hp : 2 ^ (mb + 1) = 2 * 2 ^ mb := by rw [pow_succ]; ring
  have hp2 : 2 ^ (mb + 2) = 4 * 2 ^ mb := by rw [pow_add]; ring
  have hQ : 0 < 2 ^ mb := Nat.two_pow_pos _
  have hkt : (k * 2 ^ t) * D = k * (D * 2 ^ t) := by ring
  have hT : 0 < D * 2 ^ t := Nat.mul_pos hD (Nat.two_pow_pos _)
  rw [hmc, hkt, hp2] at h1 h2
  rw [hp] at hk
  -- the exponent of `N` is at most that of `c`
  have hst : s ≤ t := by
    by_contra hlt
    have hlo := h.lo
    have hm : 2 ^ mb ≤ m := by rcases h.norm with h0 | h0 <;> omega
    have h3 : 2 ^ (t + 1) ≤ 2 ^ s := Nat.pow_le_pow_right (by decide) (by omega)
    have h4 : 2 ^ mb * (D * (2 * 2 ^ t)) ≤ N := by
      refine le_trans (Nat.mul_le_mul hm (Nat.mul_le_mul_left D ?_)) hlo
      rw [pow_succ, Nat.mul_comm] at h3; exact h3
    rw [show D * (2 * 2 ^ t) = 2 * (D * 2 ^ t) by ring] at h4
    generalize D * 2 ^ t = T at *
    generalize 2 ^ mb = Q at *
    have h5 : k * T + T ≤ 2 * Q * T := by
      rw [← Nat.succ_mul]; exact Nat.mul_le_mul_right T hk
    nlinarith
  have hs2 : D * 2 ^ s ≤ D * 2 ^ t := Nat.mul_le_mul_left D (Nat.pow_le_pow_right (by decide) hst)
  have hkT : k * (D * 2 ^ t) < 2 * 2 ^ mb * (D * 2 ^ t) := Nat.mul_lt_mul_of_pos_right hk hT
  refine le_antisymm ?_ ?_
  · by_contra hlt
    have h3 : mag mb (c + 1) ≤ mag mb (rne mb N D) := mag_le_iff.mpr (by omega)
    have h4 : mag mb (c + 1) = (k + 1) * 2 ^ t := by
      rw [hc, Nat.add_assoc]; exact mag_decomp mb (by omega) (by omega)
    rw [h4] at h3
    have h5 := Nat.mul_le_mul_right D h3
    rw [show (k + 1) * 2 ^ t * D = k * (D * 2 ^ t) + D * 2 ^ t by ring] at h5
    generalize mag mb (rne mb N D) * D = R at *
    generalize D * 2 ^ s = S at *
    generalize D * 2 ^ t = T at *
    generalize k * T = K at *
    generalize 2 ^ mb = Q at *
    have h6 : K + T ≤ N + S / 2 + 1 := by omega
    have h7 : 2 * K + T ≤ 2 * N := by omega
    have h8 : 4 * Q * (2 * K + T) ≤ 4 * Q * (2 * N) := Nat.mul_le_mul_left _ h7
    have e8 : 4 * Q * (2 * K + T) = 8 * (Q * K) + 4 * (Q * T) := by ring
    have e9 : 4 * Q * (2 * N) = 2 * (4 * Q * N) := by ring
    have e10 : (4 * Q + 1) * K = 4 * (Q * K) + K := by ring
    have e11 : 2 * Q * T = 2 * (Q * T) := by ring
    rw [e8, e9] at h8
    rw [e10] at h1
    rw [e11] at hkT
    generalize 4 * Q * N = A at *
    omega
  · by_contra hlt
    rw [not_le] at hlt
    have hNc : N < k * (D * 2 ^ t) := by
      by_contra hge
      have : c ≤ rne mb N D := le_rne hD (by rw [hmc, hkt]; omega)
      omega
    have h3 : mag mb (rne mb N D) ≤ mag mb (c - 1) := mag_le_iff.mpr (by omega)
    have e12 : (4 * 2 ^ mb - 1) * (k * (D * 2 ^ t)) + k * (D * 2 ^ t) = 4 * 2 ^ mb * (k * (D * 2 ^ t)) := by
      rw [← Nat.succ_mul]; congr 1; omega
    by_cases hb : t = 0 ∨ 2 ^ mb < k
    · have hk0 : 0 < k := by
        by_contra h0
        have : k = 0 := by omega
        subst this; simp at hNc
      have h4 : mag mb (c - 1) = (k - 1) * 2 ^ t := by
        rw [hc, show t * 2 ^ mb + k - 1 = t * 2 ^ mb + (k - 1) by omega]
        exact mag_decomp mb (by omega) (by omega)
      rw [h4] at h3
      have h5 := Nat.mul_le_mul_right D h3
      have e5 : (k - 1) * 2 ^ t * D + D * 2 ^ t = k * (D * 2 ^ t) := by
        obtain ⟨j, rfl⟩ : ∃ j, k = j + 1 := ⟨k - 1, by omega⟩
        rw [Nat.add_sub_cancel]; ring
      generalize (k - 1) * 2 ^ t * D = J at *
      generalize mag mb (rne mb N D) * D = R at *
      generalize D * 2 ^ s = S at *
      generalize D * 2 ^ t = T at *
      generalize k * T = K at *
      generalize 2 ^ mb = Q at *
      have h7 : 2 * N + T ≤ 2 * K := by omega
      have h8 : 4 * Q * (2 * N + T) ≤ 4 * Q * (2 * K) := Nat.mul_le_mul_left _ h7
      have e8 : 4 * Q * (2 * N + T) = 2 * (4 * Q * N) + 4 * (Q * T) := by ring
      have e9 : 4 * Q * (2 * K) = 2 * (4 * Q * K) := by ring
      have e11 : 2 * Q * T = 2 * (Q * T) := by ring
      rw [e8, e9] at h8
      rw [e11] at hkT
      generalize 4 * Q * N = A at *
      generalize 4 * Q * K = B at *
      generalize (4 * Q - 1) * K = G at *
      omega
    · obtain ⟨ht, hk'⟩ := not_or.mp hb
      have hkQ : k = 2 ^ mb := by rcases hn with h0 | h0 <;> omega
      subst hkQ
      obtain ⟨t', rfl⟩ : ∃ t', t = t' + 1 := ⟨t - 1, by omega⟩
      have h4 : mag mb (c - 1) = (2 * 2 ^ mb - 1) * 2 ^ t' := by
        rw [hc, show (t' + 1) * 2 ^ mb + 2 ^ mb - 1 = t' * 2 ^ mb + (2 * 2 ^ mb - 1) by
          rw [Nat.succ_mul]; omega]
        exact mag_decomp mb (by omega) (.inr (by omega))
      rw [h4] at h3
      have h5 := Nat.mul_le_mul_right D h3
      have hst' : s ≤ t' := by
        by_contra hge
        have hs1 : s = t' + 1 := by omega
        have hm : 2 ^ mb ≤ m := by rcases h.norm with h0 | h0 <;> omega
        have := (Nat.mul_le_mul_right (D * 2 ^ s) hm).trans h.lo
        rw [hs1] at this
        omega
      have hs3 : D * 2 ^ s ≤ D * 2 ^ t' := Nat.mul_le_mul_left D (Nat.pow_le_pow_right (by decide) hst')
      have eD : D * 2 ^ (t' + 1) = 2 * (D * 2 ^ t') := by rw [pow_succ]; ring
      rw [eD] at h1 h2 hNc e12
      have e5 : (2 * 2 ^ mb - 1) * 2 ^ t' * D + D * 2 ^ t' = 2 * (2 ^ mb * (D * 2 ^ t')) := by
        have : (2 * 2 ^ mb - 1) * 2 ^ t' * D + D * 2 ^ t' = (2 * 2 ^ mb - 1 + 1) * (D * 2 ^ t') := by ring
        rw [this, Nat.sub_add_cancel (by omega)]; ring
      generalize (2 * 2 ^ mb - 1) * 2 ^ t' * D = J at *
      generalize mag mb (rne mb N D) * D = R at *
      generalize D * 2 ^ s = S at *
      generalize D * 2 ^ t' = T at *
      generalize 2 ^ mb = Q at *
      have eK : Q * (2 * T) = 2 * (Q * T) := by ring
      rw [eK] at h1 h2 hNc e12
      have h7 : 2 * N + T ≤ 4 * (Q * T) := by omega
      have h8 : 4 * Q * (2 * N + T) ≤ 4 * Q * (4 * (Q * T)) := Nat.mul_le_mul_left _ h7
      have e8 : 4 * Q * (2 * N + T) = 2 * (4 * Q * N) + 4 * (Q * T) := by ring
      have e9 : 4 * Q * (4 * (Q * T)) = 2 * (4 * Q * (2 * (Q * T))) := by ring
      rw [e8, e9] at h8
      generalize 4 * Q * N = A at *
      generalize 4 * Q * (2 * (Q * T)) = B at *
      generalize (4 * Q - 1) * (2 * (Q * T)) = G at *
      omega

namespace Fmt
variable {w : Nat} {F : Fmt w}

theorem eq_of_key {r x : BitVec w} (h : F.key r = F.key x) (h0 : F.code x ≠ 0) : r = x := by
  have hc : F.code r = F.code x := by rw [← F.key_natAbs r, ← F.key_natAbs x, h]
  have hn : F.neg r = F.neg x := by
    unfold key at h
    cases hr : F.neg r <;> cases hx : F.neg x <;> simp [hr, hx] at h ⊢ <;> omega
  rw [← F.pack_self r, ← F.pack_self x, hc, hn]

theorem code_ne_zero {x : BitVec w} (h : F.toReal x ≠ 0) : F.code x ≠ 0 := by
  intro h0
  apply h
  unfold toReal
  rw [F.units_eq_zero.mpr h0]; simp

/-- A real number next to a number is rounded to it. -/
theorem IsRnd.eq_of_near {v : ℝ} {r x : BitVec w} (h : F.IsRnd v r) (hx : F.isFinite x = true)
    (h0 : F.toReal x ≠ 0) (hv : 2 ^ (F.mb + 2) * |v - F.toReal x| < |F.toReal x|) : r = x := by
  obtain ⟨-, z, D, hD, e, k⟩ := h
  have hc := code_ne_zero h0
  refine eq_of_key ?_ hc
  rw [k]
  have hS : (0 : ℝ) < 2 ^ F.scale := by positivity
  have hDr : (0 : ℝ) < D := by exact_mod_cast hD
  have hP : (0 : ℝ) < 2 ^ (F.mb + 2) := by positivity
  have hP4 : (4 : ℝ) ≤ 2 ^ (F.mb + 2) := by
    rw [pow_add]; have : (1 : ℝ) ≤ 2 ^ F.mb := one_le_pow₀ (by norm_num)
    linarith
  -- in units
  have hz : 2 ^ (F.mb + 2) * |(z : ℝ) - F.units x * D| < |(F.units x : ℝ)| * D := by
    have e1 : v - F.toReal x = ((z : ℝ) - F.units x * D) / (D * 2 ^ F.scale) := by
      rw [e]; unfold toReal; field_simp
    rw [e1, abs_div, abs_of_pos (by positivity : (0 : ℝ) < D * 2 ^ F.scale)] at hv
    have e2 : |F.toReal x| = |(F.units x : ℝ)| * D / (D * 2 ^ F.scale) := by
      unfold toReal; rw [abs_div, abs_of_pos hS]; field_simp
    rw [e2, ← mul_div_assoc, div_lt_div_iff_of_pos_right (by positivity)] at hv
    exact hv
  have hz' : 2 ^ (F.mb + 2) * |z - F.units x * D| < |F.units x| * D := by exact_mod_cast hz
  have hu : F.units x ≠ 0 := fun hh => hc (F.units_eq_zero.mp hh)
  have hm : (mag F.mb (F.code x) : ℤ) = |F.units x| := by
    rw [← F.natAbs_units x, Int.natCast_natAbs]
  have hneg := F.units_neg_iff hc
  have hP' : (4 : ℤ) ≤ 2 ^ (F.mb + 2) := by exact_mod_cast hP4
  -- the signs agree
  have hDz : (0 : ℤ) < D := by exact_mod_cast hD
  have key : (F.units x < 0 ↔ z < 0) ∧ 2 ^ (F.mb + 2) * |z| < (2 ^ (F.mb + 2) + 1) * (|F.units x| * D) ∧
      (2 ^ (F.mb + 2) - 1) * (|F.units x| * D) < 2 ^ (F.mb + 2) * |z| := by
    have hA : |F.units x| * (D : ℤ) = |F.units x * D| := by rw [abs_mul, abs_of_pos hDz]
    have hsg : F.units x < 0 ↔ F.units x * D < 0 :=
      ⟨fun h => mul_neg_of_neg_of_pos h hDz, fun h => by
        by_contra hge
        have := mul_nonneg (not_lt.mp hge) hDz.le
        omega⟩
    have hne : F.units x * (D : ℤ) ≠ 0 := mul_ne_zero hu hDz.ne'
    rw [hsg, hA]
    rw [hA] at hz'
    generalize F.units x * (D : ℤ) = U at *
    generalize (2 : ℤ) ^ (F.mb + 2) = P at *
    have d1 : |z - U| < |U| := by
      have : |z - U| ≤ P * |z - U| := le_mul_of_one_le_left (abs_nonneg _) (by omega)
      omega
    have a1 : |z| ≤ |U| + |z - U| := by
      have := abs_add_le U (z - U); rwa [add_sub_cancel] at this
    have a2 : |U| ≤ |z| + |z - U| := by
      have := abs_sub z (z - U); rwa [sub_sub_cancel] at this
    refine ⟨?_, ?_, ?_⟩
    · constructor
      · intro h
        rw [abs_of_neg h] at d1
        have := (abs_lt.mp d1).2
        omega
      · intro h
        by_contra hge
        rw [abs_of_nonneg (not_lt.mp hge)] at d1
        have := (abs_lt.mp d1).1
        omega
    · nlinarith
    · nlinarith
  obtain ⟨k1, k2, k3⟩ := key
  have hr : rne F.mb z.natAbs D = F.code x := by
    refine rne_near hD ?_ ?_
    · zify; rw [hm]; exact k2
    · have hp : 1 ≤ 2 ^ (F.mb + 2) := Nat.one_le_two_pow
      zify [hp]; rw [hm]; exact k3
  have hi := F.finite_code hx
  unfold rkey
  rw [hr, min_eq_right hi.le]
  unfold Fmt.key
  by_cases hn : F.neg x = true
  · rw [if_pos (k1.mp (hneg.mpr hn)), if_pos hn]
  · rw [if_neg (fun h => hn (hneg.mp (k1.mpr h))), if_neg hn]

end Fmt
end Nova.FP
