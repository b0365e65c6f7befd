import Verif.Float.SqrtScale
import Verif.SpecRounded

/-! # Rounded results are nearest, ties to even -/

namespace Nova.FP

/-- The code `k` is the positive real number `t`, in units, rounded to nearest: `t` lies between two neighbouring codes. -/
def Cell (mb : Nat) (t : ℝ) (k : Nat) : Prop :=
  ∃ s m : Nat, m < 2 ^ (mb + 1) ∧ (s = 0 ∨ 2 ^ mb ≤ m) ∧ (m : ℝ) * 2 ^ s ≤ t ∧ t ≤ (m + 1) * 2 ^ s ∧
    ((k = s * 2 ^ mb + m ∧ 2 * t ≤ (2 * m + 1) * 2 ^ s ∧ (2 * t = (2 * m + 1) * 2 ^ s → m % 2 = 0)) ∨
     (k = s * 2 ^ mb + (m + 1) ∧ (2 * m + 1) * 2 ^ s ≤ 2 * t ∧ (2 * t = (2 * m + 1) * 2 ^ s → (m + 1) % 2 = 0)))

theorem Cell.nearest {mb : Nat} (hmb : 1 ≤ mb) {t : ℝ} {k : Nat} (h : Cell mb t k) (c : Nat) :
    |(mag mb k : ℝ) - t| ≤ |(mag mb c : ℝ) - t| ∧
    (|(mag mb c : ℝ) - t| = |(mag mb k : ℝ) - t| → c ≠ k → k % 2 = 0) := by
  obtain ⟨s, m, hm, hn, lo, hi, res⟩ := h
  have e0 : mag mb (s * 2 ^ mb + m) = m * 2 ^ s := mag_decomp mb hm.le hn
  have e1 : mag mb (s * 2 ^ mb + (m + 1)) = (m + 1) * 2 ^ s :=
    mag_decomp mb (by omega) (hn.imp id fun h => by omega)
  have ev : 2 ∣ s * 2 ^ mb := Dvd.dvd.mul_left (dvd_pow_self 2 (by omega)) s
  have hs : (0 : ℝ) < 2 ^ s := by positivity
  -- the distance of any code from `t`
  have far : (c = s * 2 ^ mb + m ∧ |(mag mb c : ℝ) - t| = t - m * 2 ^ s) ∨
      (c = s * 2 ^ mb + (m + 1) ∧ |(mag mb c : ℝ) - t| = (m + 1) * 2 ^ s - t) ∨
      t - m * 2 ^ s < |(mag mb c : ℝ) - t| ∨ (m + 1) * 2 ^ s - t < |(mag mb c : ℝ) - t| := by
    rcases lt_trichotomy c (s * 2 ^ mb + m) with h | h | h
    · have : mag mb c < m * 2 ^ s := by rw [← e0]; exact mag_lt_iff.mpr h
      have : (mag mb c : ℝ) < m * 2 ^ s := by exact_mod_cast this
      right; right; left
      rw [abs_of_nonpos (by linarith)]; linarith
    · left; refine ⟨h, ?_⟩
      rw [h, e0]; push_cast
      rw [abs_of_nonpos (by linarith)]; ring
    · rcases Nat.lt_or_eq_of_le (show s * 2 ^ mb + (m + 1) ≤ c by omega) with h | h
      · have : (m + 1) * 2 ^ s < mag mb c := by rw [← e1]; exact mag_lt_iff.mpr h
        have : ((m : ℝ) + 1) * 2 ^ s < mag mb c := by exact_mod_cast this
        right; right; right
        rw [abs_of_nonneg (by linarith)]; linarith
      · right; left; refine ⟨h.symm, ?_⟩
        rw [← h, e1]; push_cast
        rw [abs_of_nonneg (by linarith)]
  have d0 : |(mag mb (s * 2 ^ mb + m) : ℝ) - t| = t - m * 2 ^ s := by
    rw [e0]; push_cast
    rw [abs_of_nonpos (by linarith)]; ring
  have d1 : |(mag mb (s * 2 ^ mb + (m + 1)) : ℝ) - t| = (m + 1) * 2 ^ s - t := by
    rw [e1]; push_cast
    rw [abs_of_nonneg (by linarith)]
  rcases res with ⟨rfl, r1, r2⟩ | ⟨rfl, r1, r2⟩
  · rw [d0]
    constructor
    · rcases far with ⟨-, d⟩ | ⟨-, d⟩ | d | d <;> linarith
    · intro eq ne
      have : m % 2 = 0 := by
        rcases far with ⟨d, -⟩ | ⟨-, d⟩ | d | d
        · exact absurd d ne
        · exact r2 (by linarith)
        · linarith
        · exfalso; linarith
      omega
  · rw [d1]
    constructor
    · rcases far with ⟨-, d⟩ | ⟨-, d⟩ | d | d <;> linarith
    · intro eq ne
      have : (m + 1) % 2 = 0 := by
        rcases far with ⟨-, d⟩ | ⟨d, -⟩ | d | d
        · exact r2 (by linarith)
        · exact absurd d ne
        · exfalso; linarith
        · exfalso; linarith
      omega

theorem rne_cell (mb N : Nat) {D : Nat} (hD : 0 < D) : Cell mb ((N : ℝ) / D) (rne mb N D) := by
  obtain ⟨s, m, h⟩ := rne_parts mb N hD
  have hD' : (0 : ℝ) < D := by exact_mod_cast hD
  have lo : ((m * (D * 2 ^ s) : Nat) : ℝ) ≤ N := by exact_mod_cast h.lo
  have hi : (N : ℝ) < ((m + 1) * (D * 2 ^ s) : Nat) := by exact_mod_cast h.hi
  push_cast at lo hi
  refine ⟨s, m, h.lt, h.norm, ?_, ?_, ?_⟩
  · rw [le_div_iff₀ hD']; linarith
  · rw [div_le_iff₀ hD']; linarith
  · rcases h.res with ⟨e, a, b⟩ | ⟨e, a, b⟩
    · have a' : ((2 * N : Nat) : ℝ) ≤ ((2 * m + 1) * (D * 2 ^ s) : Nat) := by exact_mod_cast a
      push_cast at a'
      refine .inl ⟨e, ?_, fun q => b ?_⟩
      · rw [← mul_div_assoc, div_le_iff₀ hD']; linarith
      · rw [← mul_div_assoc, div_eq_iff hD'.ne'] at q
        have q' : (2 * N : ℝ) = (2 * m + 1) * (D * 2 ^ s) := by linarith
        exact_mod_cast q'
    · have a' : (((2 * m + 1) * (D * 2 ^ s) : Nat) : ℝ) ≤ (2 * N : Nat) := by exact_mod_cast a
      push_cast at a'
      refine .inr ⟨e, ?_, fun q => b ?_⟩
      · rw [← mul_div_assoc, le_div_iff₀ hD']; linarith
      · rw [← mul_div_assoc, div_eq_iff hD'.ne'] at q
        have q' : (2 * N : ℝ) = (2 * m + 1) * (D * 2 ^ s) := by linarith
        exact_mod_cast q'

/-- Integers compare with the digits of a square root as with the square root. -/
theorem rootDigits_le_iff (q a : Nat) : (2 * a ≤ rootDigits q ↔ (a : ℝ) ≤ √q) ∧ (rootDigits q ≤ 2 * a ↔ √q ≤ (a : ℝ)) := by
  obtain ⟨s1, s2⟩ := isqrt_spec q
  have le1 : (a : ℝ) ≤ √q ↔ a * a ≤ q := by
    rw [Real.le_sqrt (Nat.cast_nonneg a) (Nat.cast_nonneg q), sq]; exact_mod_cast Iff.rfl
  have le2 : √q ≤ (a : ℝ) ↔ q ≤ a * a := by
    rw [Real.sqrt_le_left (Nat.cast_nonneg a), sq]; exact_mod_cast Iff.rfl
  rw [le1, le2]
  unfold rootDigits
  generalize isqrt q = r at *
  constructor
  · constructor
    · intro h
      have : a ≤ r := by split at h <;> omega
      exact (Nat.mul_le_mul this this).trans s1
    · intro h
      have : a ≤ r := by
        by_contra c
        have : (r + 1) * (r + 1) ≤ a * a := Nat.mul_le_mul (by omega) (by omega)
        omega
      omega
  · constructor
    · intro h
      split at h
      · next e => rw [← e]; exact Nat.mul_le_mul (by omega) (by omega)
      · have : (r + 1) * (r + 1) ≤ a * a := Nat.mul_le_mul (by omega) (by omega)
        omega
    · intro h
      have : r ≤ a := by
        by_contra c
        have : (a + 1) * (a + 1) ≤ r * r := Nat.mul_le_mul (by omega) (by omega)
        nlinarith
      split
      · omega
      · next ne =>
        have : r ≠ a := by rintro rfl; exact ne (le_antisymm s1 h)
        omega

theorem root_cell {mb q : Nat} (h : 2 ^ (mb + 1) ≤ isqrt q) : Cell mb √q (rne mb (rootDigits q) 2) := by
  obtain ⟨s, m, p⟩ := rne_parts mb (rootDigits q) (D := 2) (by decide)
  have hs : s ≠ 0 := by
    rintro rfl
    have := p.hi
    have := p.lt
    have : 2 * isqrt q ≤ rootDigits q := by unfold rootDigits; omega
    omega
  obtain ⟨u, rfl⟩ : ∃ u, s = u + 1 := ⟨s - 1, by omega⟩
  have ea : m * (2 * 2 ^ (u + 1)) = 2 * (m * 2 ^ (u + 1)) := by ring
  have eb : (m + 1) * (2 * 2 ^ (u + 1)) = 2 * ((m + 1) * 2 ^ (u + 1)) := by ring
  have ec : (2 * m + 1) * (2 * 2 ^ (u + 1)) = 2 * (2 * ((2 * m + 1) * 2 ^ u)) := by ring
  have er : ((2 * m + 1 : ℝ)) * 2 ^ (u + 1) = 2 * (((2 * m + 1) * 2 ^ u : Nat) : ℝ) := by push_cast; ring
  have lo := (rootDigits_le_iff q (m * 2 ^ (u + 1))).1.mp (by rw [← ea]; exact p.lo)
  have hi := (rootDigits_le_iff q ((m + 1) * 2 ^ (u + 1))).2.mp (by rw [← eb]; exact p.hi.le)
  push_cast at lo hi
  refine ⟨u + 1, m, p.lt, p.norm, lo, hi, ?_⟩
  have key := rootDigits_le_iff q ((2 * m + 1) * 2 ^ u)
  have tie : 2 * √q = (2 * m + 1) * 2 ^ (u + 1) → 2 * rootDigits q = (2 * m + 1) * (2 * 2 ^ (u + 1)) := by
    intro e
    rw [er] at e
    have e' : √q = (((2 * m + 1) * 2 ^ u : Nat) : ℝ) := by linarith
    have a := key.1.mpr e'.ge
    have b := key.2.mpr e'.le
    rw [ec]; omega
  rcases p.res with ⟨e, a, b⟩ | ⟨e, a, b⟩
  · refine .inl ⟨e, ?_, fun t => b (tie t)⟩
    rw [er]
    have := key.2.mp (by rw [ec] at a; omega)
    linarith
  · refine .inr ⟨e, ?_, fun t => b (tie t)⟩
    rw [er]
    have := key.1.mp (by rw [ec] at a; omega)
    linarith

namespace Fmt
variable {w : Nat} {F : Fmt w}

/-- A finite number with the sign of `v` and the code of its magnitude, rounded. -/
theorem correctly_rounded {v : ℝ} {r : BitVec w} (hf : F.isFinite r = true) (h : Cell F.mb (|v| * 2 ^ F.scale) (F.code r))
    (hs : (0 ≤ v ∧ 0 ≤ F.toReal r) ∨ (v ≤ 0 ∧ F.toReal r ≤ 0)) : Spec.CorrectlyRounded F v r := by
  refine ⟨hf, fun y hy => ?_⟩
  have hS : (0 : ℝ) < 2 ^ F.scale := by positivity
  have ab : ∀ x : BitVec w, |F.toReal x| = (mag F.mb (F.code x) : ℝ) / 2 ^ F.scale := fun x => by
    rw [F.toReal_eq, abs_mul, abs_of_nonneg (show (0 : ℝ) ≤ _ / 2 ^ F.scale by positivity)]
    cases F.neg x <;> simp
  have dist : ∀ x : BitVec w, |(mag F.mb (F.code x) : ℝ) - |v| * 2 ^ F.scale| = abs (|F.toReal x| - |v|) * 2 ^ F.scale := fun x => by
    have : (mag F.mb (F.code x) : ℝ) - |v| * 2 ^ F.scale = (|F.toReal x| - |v|) * 2 ^ F.scale := by
      rw [ab x, sub_mul, div_mul_cancel₀ _ hS.ne']
    rw [this, abs_mul, abs_of_pos hS]
  obtain ⟨n1, n2⟩ := h.nearest F.hmb (F.code y)
  rw [dist, dist] at n1 n2
  have n1 : abs (|F.toReal r| - |v|) ≤ abs (|F.toReal y| - |v|) := le_of_mul_le_mul_right n1 hS
  have er : |F.toReal r - v| = abs (|F.toReal r| - |v|) := by
    rcases hs with ⟨a, b⟩ | ⟨a, b⟩
    · rw [abs_of_nonneg a, abs_of_nonneg b]
    · rw [abs_of_nonpos a, abs_of_nonpos b, neg_sub_neg, abs_sub_comm]
  have ey := abs_abs_sub_abs_le_abs_sub (F.toReal y) v
  rw [er]
  refine ⟨n1.trans ey, fun eq ne => ?_⟩
  have even : F.code r % 2 = 0 → r.getLsbD 0 = false := fun h => by
    have hw : 1 ≤ w - 1 := by have := F.hw; have := F.hmb; omega
    have : r.toNat % 2 = 0 := by
      unfold code at h
      rwa [Nat.mod_mod_of_dvd _ (dvd_pow_self 2 (by omega))] at h
    rw [BitVec.getLsbD, Nat.testBit_zero, this]; rfl
  have eq' : abs (|F.toReal y| - |v|) = abs (|F.toReal r| - |v|) := le_antisymm (ey.trans eq.le) n1
  refine even (n2 (by rw [eq']) fun hc => ?_)
  -- the same magnitude, but another value: opposite signs
  have em : |F.toReal y| = |F.toReal r| := by rw [ab, ab, hc]
  have op : F.toReal y = -F.toReal r := by
    rcases abs_eq_abs.mp em with h | h
    · exact absurd h ne
    · exact h
  rw [op] at eq
  have e2 : (-F.toReal r - v) ^ 2 = (F.toReal r - v) ^ 2 := by
    rw [← sq_abs (-F.toReal r - v), eq, ← er, sq_abs]
  have e3 : F.toReal r * v = 0 := by nlinarith
  rcases mul_eq_zero.mp e3 with h0 | h0
  · exact ne (by rw [op, h0, neg_zero])
  · have z := (h.nearest F.hmb 0).1
    rw [dist, h0, mag_zero] at z
    simp only [abs_zero, sub_zero, zero_mul, Nat.cast_zero, abs_abs] at z
    have : |F.toReal r| ≤ 0 := by
      by_contra c
      have := mul_pos (not_le.mp c) hS
      linarith
    have h0 := abs_nonpos_iff.mp this
    exact ne (by rw [op, h0, neg_zero])

theorem IsRnd.correctly {v : ℝ} {r : BitVec w} (h : F.IsRnd v r) (hf : F.isFinite r = true) : Spec.CorrectlyRounded F v r := by
  obtain ⟨-, z, D, hD, e, k⟩ := h
  have hS : (0 : ℝ) < 2 ^ F.scale := by positivity
  have hD' : (0 : ℝ) < D := by exact_mod_cast hD
  have hc := F.finite_code hf
  have hk : F.code r = rne F.mb z.natAbs D := by
    rw [← F.key_natAbs, k]
    have := F.key_natAbs r
    rw [k] at this
    unfold rkey at this ⊢
    split at this <;> split <;> omega
  refine correctly_rounded hf ?_ ?_
  · have : |v| * 2 ^ F.scale = (z.natAbs : ℝ) / D := by
      rw [e, abs_div, abs_of_pos hS, div_mul_cancel₀ _ hS.ne', abs_div, abs_of_pos hD', Nat.cast_natAbs, Int.cast_abs]
    rw [this, hk]
    exact rne_cell F.mb _ hD
  · rcases lt_or_ge z 0 with hz | hz
    · right
      have zr : (z : ℝ) ≤ 0 := by exact_mod_cast hz.le
      refine ⟨by rw [e]; exact div_nonpos_of_nonpos_of_nonneg (div_nonpos_of_nonpos_of_nonneg zr hD'.le) hS.le, ?_⟩
      have kr : F.key r ≤ 0 := by rw [k]; unfold rkey; rw [if_pos hz]; omega
      unfold key at kr
      rw [F.toReal_eq]
      by_cases hn : F.neg r = true
      · rw [hn]; simp only [if_true, neg_mul, one_mul]; simp only [Left.neg_nonpos_iff]; positivity
      · rw [Bool.not_eq_true] at hn
        rw [hn] at kr
        have : F.code r = 0 := by simpa using kr
        rw [this]; simp
    · left
      have zr : (0 : ℝ) ≤ z := by exact_mod_cast hz
      refine ⟨by rw [e]; positivity, ?_⟩
      have kr : 0 ≤ F.key r := by rw [k]; unfold rkey; rw [if_neg (by omega)]; omega
      unfold key at kr
      rw [F.toReal_eq]
      by_cases hn : F.neg r = true
      · rw [hn] at kr
        have : F.code r = 0 := by simpa using kr
        rw [this]; simp
      · rw [Bool.not_eq_true] at hn
        rw [hn]; simp only [Bool.false_eq_true, if_false, one_mul]; positivity

end Fmt
end Nova.FP
