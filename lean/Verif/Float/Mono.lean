import Verif.Float.Error
import Verif.Lemmas.Polarity

/-! # Rounded operations preserve the order of their operands -/

namespace Nova.FP.Fmt
variable {w : Nat} (F : Fmt w)

/-- The key of `z / D` units, rounded. -/
def rkey (z : ℤ) (D : Nat) : ℤ :=
  if z < 0 then -((min F.infCode (rne F.mb z.natAbs D) : Nat) : ℤ) else ((min F.infCode (rne F.mb z.natAbs D) : Nat) : ℤ)

theorem key_packRnd (s : Bool) (N : Nat) {D : Nat} (hD : 0 < D) :
    F.key (F.packRnd s N D) = F.rkey (if s then -(N : ℤ) else N) D := by
  unfold key rkey
  rw [F.packRnd_neg, F.packRnd_code]
  cases s
  · simp only [Bool.false_eq_true, if_false, Int.natAbs_natCast]
    rw [if_neg (by omega)]
  · simp only [if_true, Int.natAbs_neg, Int.natAbs_natCast]
    rcases Nat.eq_zero_or_pos N with rfl | h
    · rw [rne_zero _ hD]; simp
    · rw [if_pos (by omega)]

theorem rkey_mono {z z' : ℤ} {D D' : Nat} (hD : 0 < D) (hD' : 0 < D') (h : z * D' ≤ z' * D) :
    F.rkey z D ≤ F.rkey z' D' := by
  have hDz : (0 : ℤ) < D := by exact_mod_cast hD
  have hDz' : (0 : ℤ) < D' := by exact_mod_cast hD'
  unfold rkey
  by_cases hz : z < 0 <;> by_cases hz' : z' < 0
  · rw [if_pos hz, if_pos hz']
    have : rne F.mb z'.natAbs D' ≤ rne F.mb z.natAbs D := by
      refine rne_mono hD' hD ?_
      zify
      rw [abs_of_neg hz, abs_of_neg hz']
      linarith
    omega
  · rw [if_pos hz, if_neg hz']; omega
  · exfalso
    have h1 : 0 ≤ z * D' := mul_nonneg (by omega) hDz'.le
    have h2 : z' * D < 0 := mul_neg_of_neg_of_pos hz' hDz
    omega
  · rw [if_neg hz, if_neg hz']
    have : rne F.mb z.natAbs D ≤ rne F.mb z'.natAbs D' := by
      refine rne_mono hD hD' ?_
      zify
      rw [abs_of_nonneg (by omega), abs_of_nonneg (by omega)]
      exact h
    omega

/-- The number `r` is the real number `v`, rounded. -/
def IsRnd (v : ℝ) (r : BitVec w) : Prop :=
  F.isNaN r = false ∧ ∃ (z : ℤ) (D : Nat), 0 < D ∧ v = (z : ℝ) / D / 2 ^ F.scale ∧ F.key r = F.rkey z D

variable {F}

theorem IsRnd.mono {v v' : ℝ} {r r' : BitVec w} (h : F.IsRnd v r) (h' : F.IsRnd v' r') (hv : v ≤ v') :
    F.key r ≤ F.key r' := by
  obtain ⟨-, z, D, hD, e, k⟩ := h
  obtain ⟨-, z', D', hD', e', k'⟩ := h'
  rw [k, k']
  refine F.rkey_mono hD hD' ?_
  rw [e, e', div_le_div_iff_of_pos_right (by positivity),
    div_le_div_iff₀ (by exact_mod_cast hD) (by exact_mod_cast hD')] at hv
  exact_mod_cast hv

theorem isRnd_packRnd (s : Bool) (N : Nat) {D : Nat} (hD : 0 < D) {v : ℝ}
    (hv : v = (if s then -(N : ℝ) else N) / D / 2 ^ F.scale) : F.IsRnd v (F.packRnd s N D) := by
  refine ⟨F.packRnd_not_nan _ _ _, if s then -(N : ℤ) else N, D, hD, ?_, F.key_packRnd s N hD⟩
  rw [hv]
  cases s <;> simp

theorem IsRnd.zero (s : Bool) : F.IsRnd 0 (F.pack s 0) := by
  refine ⟨F.isNaN_pack_zero s, 0, 1, by decide, by simp, ?_⟩
  rw [(F.key_eq_zero (x := F.pack s 0)).mpr (F.code_pack s (by positivity))]
  unfold rkey
  rw [if_neg (by decide), Int.natAbs_zero, rne_zero _ (by decide)]
  simp

theorem units_real (x : BitVec w) : (F.units x : ℝ) = F.toReal x * 2 ^ F.scale := by
  unfold toReal; field_simp

/-- A representable number is not changed. -/
theorem IsRnd.self {x : BitVec w} (hx : F.isFinite x = true) : F.IsRnd (F.toReal x) x := by
  refine ⟨F.isFinite_not_nan hx, F.units x, 1, by decide, by unfold toReal; simp, ?_⟩
  have hc : F.code x < F.infCode := by simpa [isFinite] using hx
  have hr : rne F.mb (mag F.mb (F.code x)) 1 = F.code x := rne_exact (by decide) (by simp)
  unfold rkey units key
  cases F.neg x
  · simp only [Bool.false_eq_true, if_false, Int.natAbs_natCast]
    rw [if_neg (by omega), hr, Nat.min_eq_right hc.le]
  · simp only [if_true, Int.natAbs_neg, Int.natAbs_natCast]
    rw [hr, Nat.min_eq_right hc.le]
    by_cases h : mag F.mb (F.code x) = 0
    · have := mag_eq_zero.mp h
      rw [this]; simp
    · rw [if_pos (by omega)]

theorem isRnd_int {z : ℤ} {D : Nat} (hD : 0 < D) (s : Bool) {v : ℝ} (hv : v = (z : ℝ) / D / 2 ^ F.scale) :
    F.IsRnd v (if z = 0 then F.pack s 0 else F.packRnd (decide (z < 0)) z.natAbs D) := by
  by_cases h : z = 0
  · rw [if_pos h]
    have : v = 0 := by rw [hv, h]; simp
    rw [this]; exact IsRnd.zero s
  · rw [if_neg h]
    refine isRnd_packRnd _ _ hD ?_
    rw [hv]
    congr 2
    by_cases hz : z < 0
    · simp only [hz, decide_true, if_true]
      rw [Nat.cast_natAbs, abs_of_neg hz]; push_cast; ring
    · simp only [hz, decide_false, Bool.false_eq_true, if_false]
      rw [Nat.cast_natAbs, abs_of_nonneg (by omega)]

theorem add_rounds {x y : BitVec w} (hx : F.isFinite x = true) (hy : F.isFinite y = true) :
    F.IsRnd (F.toReal x + F.toReal y) (F.add x y) := by
  rw [F.add_finite hx hy]
  refine isRnd_int (by decide) _ ?_
  unfold toReal; push_cast; ring

theorem mul_rounds {x y : BitVec w} (hx : F.isFinite x = true) (hy : F.isFinite y = true) :
    F.IsRnd (F.toReal x * F.toReal y) (F.mul x y) := by
  rw [F.mul_finite hx hy]
  refine isRnd_packRnd _ _ (by positivity) ?_
  unfold toReal units
  cases F.neg x <;> cases F.neg y <;> simp <;> field_simp

theorem div_rounds {x y : BitVec w} (hx : F.isFinite x = true) (hy : F.isFinite y = true) (h0 : F.code y ≠ 0) :
    F.IsRnd (F.toReal x / F.toReal y) (F.div x y) := by
  rw [F.div_finite hx hy h0]
  have hm : 0 < mag F.mb (F.code y) := Nat.pos_of_ne_zero fun h => h0 (mag_eq_zero.mp h)
  have hm' : (0 : ℝ) < mag F.mb (F.code y) := by exact_mod_cast hm
  refine isRnd_packRnd _ _ hm ?_
  unfold toReal units
  cases F.neg x <;> cases F.neg y <;> simp <;> field_simp

theorem fma_rounds {x y z : BitVec w} (hx : F.isFinite x = true) (hy : F.isFinite y = true) (hz : F.isFinite z = true) :
    F.IsRnd (F.toReal x * F.toReal y + F.toReal z) (F.fma x y z) := by
  unfold fma
  rw [F.isFinite_not_nan hx, F.isFinite_not_nan hy, F.isFinite_not_nan hz, F.isFinite_not_inf hx,
    F.isFinite_not_inf hy, F.isFinite_not_inf hz]
  simp only [Bool.or_self, Bool.false_eq_true, if_false]
  refine isRnd_int (by positivity) _ ?_
  unfold toReal; push_cast; field_simp

end Nova.FP.Fmt
