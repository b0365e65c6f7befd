import Verif.Float.Mono
import Verif.SpecScale

/-! # Rounding commutes with scaling by powers of two -/

namespace Nova.FP

theorem log2_scale {N D k : Nat} (hD : 0 < D) (h : D ≤ N) : Nat.log2 (N * 2 ^ k / D) = Nat.log2 (N / D) + k := by
  have hQ : N / D ≠ 0 := (Nat.div_pos h hD).ne'
  obtain ⟨l, r⟩ := (Nat.log2_eq_iff hQ).mp rfl
  have hle : N / D * 2 ^ k ≤ N * 2 ^ k / D := by
    rw [Nat.le_div_iff_mul_le hD]
    calc N / D * 2 ^ k * D = N / D * D * 2 ^ k := by ring
      _ ≤ N * 2 ^ k := Nat.mul_le_mul_right _ (Nat.div_mul_le_self N D)
  have hlt : N * 2 ^ k / D < 2 ^ (Nat.log2 (N / D) + 1) * 2 ^ k := by
    rw [Nat.div_lt_iff_lt_mul hD]
    rw [Nat.div_lt_iff_lt_mul hD] at r
    calc N * 2 ^ k < 2 ^ (Nat.log2 (N / D) + 1) * D * 2 ^ k := Nat.mul_lt_mul_of_pos_right r (Nat.two_pow_pos k)
      _ = _ := by ring
  rw [Nat.log2_eq_iff (by have := Nat.mul_pos (Nat.pos_of_ne_zero hQ) (Nat.two_pow_pos k); omega)]
  constructor
  · rw [pow_add]
    exact (Nat.mul_le_mul_right _ l).trans hle
  · rw [Nat.add_right_comm, pow_add]
    exact hlt

theorem rne_scale {mb N D : Nat} (k : Nat) (hD : 0 < D) (h : 2 ^ mb * D ≤ N) :
    rne mb (N * 2 ^ k) D = rne mb N D + k * 2 ^ mb := by
  have hk := Nat.two_pow_pos k
  have hDN : D ≤ N := le_trans (Nat.le_mul_of_pos_left _ (Nat.two_pow_pos mb)) h
  have hL : mb ≤ Nat.log2 (N / D) := by
    rw [Nat.le_log2 (Nat.div_pos hDN hD).ne', Nat.le_div_iff_mul_le hD]
    exact h
  have hs : shiftOf mb (N * 2 ^ k) D = shiftOf mb N D + k := by
    unfold shiftOf
    rw [log2_scale hD hDN]
    omega
  unfold rne
  simp only [hs]
  generalize shiftOf mb N D = s
  have e : D * 2 ^ (s + k) = D * 2 ^ s * 2 ^ k := by rw [pow_add]; ring
  rw [e, Nat.mul_div_mul_right _ _ hk, Nat.mul_mod_mul_right]
  generalize N % (D * 2 ^ s) = r
  generalize N / (D * 2 ^ s) = m
  generalize D * 2 ^ s = D'
  have c1 : D' * 2 ^ k < 2 * (r * 2 ^ k) ↔ D' < 2 * r := by
    rw [← Nat.mul_assoc]; exact Nat.mul_lt_mul_right hk
  have c2 : 2 * (r * 2 ^ k) = D' * 2 ^ k ↔ 2 * r = D' := by
    rw [← Nat.mul_assoc]; exact Nat.mul_left_inj hk.ne'
  simp only [c1, c2]
  ring

theorem mag_scale {mb c : Nat} (k : Nat) (h : 2 ^ mb ≤ c) : mag mb (c + k * 2 ^ mb) = mag mb c * 2 ^ k := by
  obtain ⟨s, m, rfl, h1, h2⟩ := code_decomp mb c
  have h3 : 2 ^ mb ≤ m := by
    rcases h2 with rfl | h2
    · omega
    · exact h2
  rw [show s * 2 ^ mb + m + k * 2 ^ mb = (s + k) * 2 ^ mb + m by ring, mag_decomp mb h1.le (.inr h3),
    mag_decomp mb h1.le (.inr h3), pow_add, Nat.mul_assoc]

/-- Rounding a number in the normal range, or an integer number of units. -/
theorem mag_rne_scale {mb N D : Nat} (k : Nat) (hD : 0 < D) (h : 2 ^ mb * D ≤ N ∨ D = 1) :
    mag mb (rne mb (N * 2 ^ k) D) = mag mb (rne mb N D) * 2 ^ k := by
  by_cases hN : 2 ^ mb * D ≤ N
  · rw [rne_scale k hD hN]
    refine mag_scale k (le_rne hD ?_)
    rw [mag_small (Nat.pow_le_pow_right (by decide) (by omega))]
    exact hN
  · obtain rfl : D = 1 := h.resolve_left hN
    have hN' : N ≤ 2 ^ (mb + 1) := by rw [pow_succ]; omega
    obtain ⟨c, hc⟩ := mag_exists k hN'
    obtain ⟨c0, hc0⟩ := mag_exists 0 hN'
    rw [rne_exact (by decide) (show N * 2 ^ k = mag mb c * 1 by rw [hc, Nat.mul_one]),
      rne_exact (by decide) (show N = mag mb c0 * 1 by rw [hc0]; simp), hc, hc0]
    simp

namespace Fmt
variable {w : Nat} {F : Fmt w}

theorem IsRnd.key_eq {v : ℝ} {r : BitVec w} (h : F.IsRnd v r) {z : ℤ} {D : Nat} (hD : 0 < D)
    (hv : v = (z : ℝ) / D / 2 ^ F.scale) : F.key r = F.rkey z D := by
  obtain ⟨-, z', D', hD', e, k⟩ := h
  rw [k]
  have e2 : (z' : ℝ) / D' = (z : ℝ) / D := by
    have : (2 : ℝ) ^ F.scale ≠ 0 := by positivity
    rw [e] at hv
    field_simp at hv ⊢
    linarith
  rw [div_eq_div_iff (by exact_mod_cast hD'.ne') (by exact_mod_cast hD.ne')] at e2
  have e3 : z' * D = z * D' := by exact_mod_cast e2
  exact le_antisymm (F.rkey_mono hD' hD e3.le) (F.rkey_mono hD hD' e3.ge)

theorem units_key (x : BitVec w) :
    F.units x = if F.key x < 0 then -(mag F.mb (F.key x).natAbs : ℤ) else (mag F.mb (F.key x).natAbs : ℤ) := by
  unfold units key
  cases F.neg x
  · simp only [Bool.false_eq_true, if_false, Int.natAbs_natCast]
    rw [if_neg (by omega)]
  · simp only [if_true, Int.natAbs_neg, Int.natAbs_natCast]
    by_cases h : F.code x = 0
    · rw [h]; simp
    · rw [if_pos (by omega)]

theorem key_natAbs (x : BitVec w) : (F.key x).natAbs = F.code x := by
  unfold key; cases F.neg x <;> simp

/-- The exact value is in the normal range or an integer number of units. -/
def Regular (F : Fmt w) (v : ℝ) : Prop := 2 ^ F.mb ≤ |v| * 2 ^ F.scale ∨ ∃ z : ℤ, v * 2 ^ F.scale = z

theorem IsRnd.scale_nat {v : ℝ} {r r' : BitVec w} (k : Nat) (h : F.IsRnd v r) (h' : F.IsRnd (v * 2 ^ k) r')
    (hf : F.isFinite r' = true) (hv : F.Regular v) : F.toReal r' = F.toReal r * 2 ^ k := by
  obtain ⟨z, D, hD, e, hz⟩ : ∃ (z : ℤ) (D : Nat), 0 < D ∧ v = (z : ℝ) / D / 2 ^ F.scale ∧
      (2 ^ F.mb * D ≤ z.natAbs ∨ D = 1) := by
    rcases hv with hv | ⟨z, hz⟩
    · obtain ⟨-, z, D, hD, e, -⟩ := h
      refine ⟨z, D, hD, e, .inl ?_⟩
      have hD' : (0 : ℝ) < D := by exact_mod_cast hD
      rw [e, abs_div, abs_div, abs_of_pos (show (0 : ℝ) < 2 ^ F.scale by positivity), abs_of_pos hD',
        div_mul_cancel₀ _ (by positivity), le_div_iff₀ hD'] at hv
      have : ((2 ^ F.mb * D : ℕ) : ℝ) ≤ (z.natAbs : ℝ) := by
        rw [Nat.cast_natAbs]; push_cast; exact hv
      exact_mod_cast this
    · exact ⟨z, 1, by decide, by rw [← hz]; simp, .inr rfl⟩
  have k1 := h.key_eq hD e
  have k2 := h'.key_eq (z := z * 2 ^ k) hD (by rw [e]; push_cast; ring)
  have hc : F.code r' < F.infCode := by simpa [isFinite] using hf
  have habs : (z * 2 ^ k).natAbs = z.natAbs * 2 ^ k := by
    rw [Int.natAbs_mul, Int.natAbs_pow]; rfl
  have hneg : (z * 2 ^ k < 0) ↔ (z < 0) := by
    have : (0 : ℤ) < 2 ^ k := by positivity
    constructor
    · intro h; by_contra hc; exact absurd (mul_nonneg (by omega : 0 ≤ z) this.le) (by omega)
    · intro h; exact mul_neg_of_neg_of_pos h this
  have a2 : (F.key r').natAbs = min F.infCode (rne F.mb (z.natAbs * 2 ^ k) D) := by
    rw [k2]; unfold rkey; rw [habs]; split
    · rw [Int.natAbs_neg, Int.natAbs_natCast]
    · rw [Int.natAbs_natCast]
  have a1 : (F.key r).natAbs = min F.infCode (rne F.mb z.natAbs D) := by
    rw [k1]; unfold rkey; split
    · rw [Int.natAbs_neg, Int.natAbs_natCast]
    · rw [Int.natAbs_natCast]
  rw [key_natAbs] at a2
  have b2 : F.code r' = rne F.mb (z.natAbs * 2 ^ k) D := by omega
  have hle : rne F.mb z.natAbs D ≤ rne F.mb (z.natAbs * 2 ^ k) D :=
    rne_mono hD hD (Nat.mul_le_mul_right _ (Nat.le_mul_of_pos_right _ (Nat.two_pow_pos k)))
  rw [key_natAbs] at a1
  have b1 : F.code r = rne F.mb z.natAbs D := by omega
  have hm := mag_rne_scale (mb := F.mb) k hD hz
  have hkn : F.key r' < 0 ↔ F.key r < 0 := by
    rw [k1, k2]
    unfold rkey
    rw [habs]
    simp only [hneg]
    have hm0 : rne F.mb (z.natAbs * 2 ^ k) D = 0 ↔ rne F.mb z.natAbs D = 0 := by
      constructor
      · intro h
        have h0 := hm
        rw [h, mag_eq_zero.mpr rfl] at h0
        exact mag_eq_zero.mp ((Nat.mul_eq_zero.mp h0.symm).resolve_right (Nat.two_pow_pos k).ne')
      · intro h
        have h0 := hm
        rw [h, mag_eq_zero.mpr rfl, Nat.zero_mul] at h0
        exact mag_eq_zero.mp h0
    rw [b2] at hc
    clear hm habs hneg k1 k2 a1 a2 b1 b2 hz hD e hv h h'
    generalize rne F.mb (z.natAbs * 2 ^ k) D = R' at *
    generalize rne F.mb z.natAbs D = R at *
    rw [min_eq_right (show R' ≤ F.infCode by omega), min_eq_right (show R ≤ F.infCode by omega)]
    by_cases hzn : z < 0
    · rw [if_pos hzn, if_pos hzn]
      omega
    · rw [if_neg hzn, if_neg hzn]
      omega
  have hu : F.units r' = F.units r * 2 ^ k := by
    rw [units_key, units_key, key_natAbs, key_natAbs, b1, b2, hm]
    by_cases hn : F.key r < 0
    · rw [if_pos hn, if_pos (hkn.mpr hn)]; push_cast; ring
    · rw [if_neg hn, if_neg (fun h => hn (hkn.mp h))]; push_cast; ring
  unfold toReal
  rw [hu]
  push_cast
  ring

/-- Rounding commutes with scaling. -/
theorem IsRnd.scale {v : ℝ} {r r' : BitVec w} (k : ℤ) (h : F.IsRnd v r) (h' : F.IsRnd (v * 2 ^ k) r')
    (hf : F.isFinite r = true) (hf' : F.isFinite r' = true) (hv : F.Regular v) (hv' : F.Regular (v * 2 ^ k)) :
    F.toReal r' = F.toReal r * 2 ^ k := by
  obtain ⟨n, rfl | rfl⟩ := k.eq_nat_or_neg
  · rw [zpow_natCast] at h' ⊢
    exact h.scale_nat n h' hf' hv
  · have e : v * 2 ^ (-(n : ℤ)) * 2 ^ n = v := by
      rw [zpow_neg, zpow_natCast, mul_assoc, inv_mul_cancel₀ (by positivity), mul_one]
    have := h'.scale_nat n (r' := r) (by rw [e]; exact h) hf hv'
    rw [this, zpow_neg, zpow_natCast, mul_assoc, mul_inv_cancel₀ (by positivity), mul_one]

end Fmt
end Nova.FP
