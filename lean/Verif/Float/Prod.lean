import Verif.Float.Sum

/-!
# The rounding error of products, whatever their order (helper lemmas, no properties)

`Prd d V r`: the finite pattern `r` is the product `V` of some numbers, computed with `d` multiplications.
-/

namespace Nova.FP

variable {w : Nat} {F : Fmt w}

theorem Fmt.u_le_half (F : Fmt w) : F.u ≤ 1 / 2 := by
  unfold Fmt.u
  rw [pow_succ]
  have : (1 : ℝ) ≤ 2 ^ F.mb := one_le_pow₀ (by norm_num)
  rw [div_le_div_iff₀ (by positivity) (by norm_num)]
  linarith

/-- The smallest normal number times the unit roundoff is half the smallest positive number. -/
theorem Fmt.eta_eq (F : Fmt w) : F.eta = F.u * (2 / 2 ^ F.bias) := by
  unfold Fmt.eta Fmt.u
  have : F.scale + 1 = F.mb + F.bias := by unfold Fmt.scale; have := F.hmb; have := F.bias_pos; omega
  rw [this, pow_add, pow_succ]
  field_simp

/-- `v`, after up to `d` roundings, is a normal number. -/
def Normal (F : Fmt w) (d : ℕ) (v : ℝ) : Prop :=
  2 / 2 ^ F.bias ≤ (1 - F.u) ^ d * |v| ∧ (1 + F.u) ^ d * |v| ≤ 2 ^ F.bias

theorem one_sub_u_nonneg (F : Fmt w) : 0 ≤ 1 - F.u := by have := F.u_le_half; linarith

theorem Normal.mono {d d' : ℕ} {v : ℝ} (h : Normal F d v) (hd : d' ≤ d) : Normal F d' v := by
  have hu := F.u_pos
  refine ⟨h.1.trans (mul_le_mul_of_nonneg_right ?_ (abs_nonneg v)), le_trans (mul_le_mul_of_nonneg_right ?_ (abs_nonneg v)) h.2⟩
  · exact pow_le_pow_of_le_one (one_sub_u_nonneg F) (by linarith) hd
  · exact Acc.pow_mono F hd

/-- A number between two normal numbers. -/
theorem Normal.between {d : ℕ} {a b v : ℝ} (ha : Normal F d a) (hb : Normal F d b)
    (h : |a| ≤ |v| ∧ |v| ≤ |b| ∨ |b| ≤ |v| ∧ |v| ≤ |a|) : Normal F d v := by
  have h0 : 0 ≤ (1 - F.u) ^ d := pow_nonneg (one_sub_u_nonneg F) d
  have h1 : 0 ≤ (1 + F.u) ^ d := zero_le_one.trans (Acc.one_le F d)
  rcases h with ⟨l, r⟩ | ⟨l, r⟩
  · exact ⟨ha.1.trans (mul_le_mul_of_nonneg_left l h0), (mul_le_mul_of_nonneg_left r h1).trans hb.2⟩
  · exact ⟨hb.1.trans (mul_le_mul_of_nonneg_left l h0), (mul_le_mul_of_nonneg_left r h1).trans ha.2⟩

/-- Powers lie between the first and the last. -/
theorem Normal.pow {d a n k : ℕ} {f c : ℝ} (h0 : Normal F d (f * c ^ a)) (h1 : Normal F d (f * c ^ n)) (ha : a ≤ k) (hk : k ≤ n) :
    Normal F d (f * c ^ k) := by
  refine h0.between h1 ?_
  simp only [abs_mul, abs_pow]
  rcases le_total |c| 1 with h | h
  · right
    exact ⟨mul_le_mul_of_nonneg_left (pow_le_pow_of_le_one (abs_nonneg c) h hk) (abs_nonneg f),
      mul_le_mul_of_nonneg_left (pow_le_pow_of_le_one (abs_nonneg c) h ha) (abs_nonneg f)⟩
  · left
    exact ⟨mul_le_mul_of_nonneg_left (pow_le_pow_right₀ h ha) (abs_nonneg f),
      mul_le_mul_of_nonneg_left (pow_le_pow_right₀ h hk) (abs_nonneg f)⟩

structure Prd (F : Fmt w) (d : ℕ) (V : ℝ) (r : BitVec w) : Prop where
  fin : F.isFinite r = true
  val : ∃ ρ, (1 - F.u) ^ d ≤ ρ ∧ ρ ≤ (1 + F.u) ^ d ∧ F.toReal r = V * ρ

namespace Prd
variable {d d' : ℕ} {V W : ℝ} {r s t : BitVec w}

theorem congr {D : ℕ} {U : ℝ} (h : Prd F d V r) (hd : d = D) (hV : V = U) : Prd F D U r := by
  subst hd; subst hV; exact h

/-- A given number. -/
theorem exact (h : F.isFinite r = true) : Prd F 0 (F.toReal r) r :=
  ⟨h, 1, by simp, by simp, by simp⟩

theorem mul (hr : Prd F d V r) (hs : Prd F d' W s) (hN : Normal F (d + d') (V * W))
    (ht : ∀ (_ : F.isFinite r = true) (_ : F.isFinite s = true), |F.toReal r * F.toReal s| ≤ 2 ^ F.bias →
      F.Near (F.toReal r * F.toReal s) t) : Prd F (d + d' + 1) (V * W) t := by
  obtain ⟨ρ, r1, r2, r3⟩ := hr.val
  obtain ⟨σ, s1, s2, s3⟩ := hs.val
  have hu := F.u_pos
  have hu0 := one_sub_u_nonneg F
  have p0 : 0 ≤ (1 - F.u) ^ d := pow_nonneg hu0 _
  have p1 : 0 ≤ (1 - F.u) ^ d' := pow_nonneg hu0 _
  have hρ : 0 ≤ ρ := p0.trans r1
  have hσ : 0 ≤ σ := p1.trans s1
  have lo : (1 - F.u) ^ (d + d') ≤ ρ * σ := by rw [pow_add]; exact mul_le_mul r1 s1 p1 hρ
  have hi : ρ * σ ≤ (1 + F.u) ^ (d + d') := by
    rw [pow_add]; exact mul_le_mul r2 s2 hσ (zero_le_one.trans (Acc.one_le F d))
  have e : F.toReal r * F.toReal s = V * W * (ρ * σ) := by rw [r3, s3]; ring
  have ea : |V * W * (ρ * σ)| = ρ * σ * |V * W| := by rw [abs_mul, abs_of_nonneg (mul_nonneg hρ hσ), mul_comm]
  obtain ⟨f, g⟩ := ht hr.fin hs.fin (by
    rw [e, ea]; exact (mul_le_mul_of_nonneg_right hi (abs_nonneg _)).trans hN.2)
  have heta : F.eta ≤ F.u * |V * W * (ρ * σ)| := by
    rw [F.eta_eq, ea]
    exact mul_le_mul_of_nonneg_left (hN.1.trans (mul_le_mul_of_nonneg_right lo (abs_nonneg _))) hu.le
  rw [e, max_eq_left heta] at g
  have hne : V * W ≠ 0 := by
    intro h
    have h1 := hN.1
    rw [h, abs_zero, mul_zero] at h1
    have : (0 : ℝ) < 2 / 2 ^ F.bias := by positivity
    linarith
  have hVW : 0 < |V * W| := abs_pos.mpr hne
  have g2 : |F.toReal t / (V * W) - ρ * σ| ≤ F.u * (ρ * σ) := by
    rw [show F.toReal t / (V * W) - ρ * σ = (F.toReal t - V * W * (ρ * σ)) / (V * W) by
      rw [sub_div, mul_div_cancel_left₀ _ hne], abs_div,
      div_le_iff₀ hVW]
    rw [ea] at g
    linarith
  rw [abs_le] at g2
  refine ⟨f, F.toReal t / (V * W), ?_, ?_, (mul_div_cancel₀ _ hne).symm⟩
  · rw [pow_succ]
    have := mul_le_mul_of_nonneg_right lo hu0
    nlinarith [g2.1]
  · rw [pow_succ]
    have := mul_le_mul_of_nonneg_right hi (show 0 ≤ 1 + F.u by linarith)
    nlinarith [g2.2]

/-- The same in the form of a tolerance. -/
theorem tol (h : Prd F d V r) : |F.toReal r - V| ≤ ((1 + F.u) ^ d - 1) * |V| := by
  obtain ⟨ρ, h1, h2, h3⟩ := h.val
  have hu := F.u_pos
  have hu2 := F.u_le_half
  have b1 := one_add_mul_le_pow (a := F.u) (by linarith) d
  have b2 := one_add_mul_le_pow (a := -F.u) (by linarith) d
  rw [← sub_eq_add_neg] at b2
  rw [h3, show V * ρ - V = (ρ - 1) * V by ring, abs_mul]
  refine mul_le_mul_of_nonneg_right ?_ (abs_nonneg V)
  rw [abs_le]
  constructor <;> linarith

end Prd
end Nova.FP
