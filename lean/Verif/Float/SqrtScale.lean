import Verif.Float.Scale
import Verif.Float.Sqrt
import Verif.Lemmas.OrderLanes

/-!
# Square roots of scaled numbers

Rounding a quotient needs only the integer part, if that has enough digits, and whether there is a remainder.  The square root
of `4^k x` has the digits of the square root of `x`.
-/

namespace Nova.FP

/-- The rounded code of a quotient with integer part `r` and a remainder or none. -/
def rneSticky (mb r : Nat) (sticky : Prop) [Decidable sticky] : Nat :=
  let s := Nat.log2 r - mb
  s * 2 ^ mb + (r / 2 ^ s +
    if 2 ^ s < 2 * (r % 2 ^ s) ∨ (2 * (r % 2 ^ s) = 2 ^ s ∧ (sticky ∨ r / 2 ^ s % 2 = 1)) then 1 else 0)

theorem rne_sticky {mb N D : Nat} (hD : 0 < D) (h : 2 ^ (mb + 1) ≤ N / D) :
    rne mb N D = rneSticky mb (N / D) (N % D ≠ 0) := by
  have hs : 1 ≤ Nat.log2 (N / D) - mb := by
    have : mb + 1 ≤ Nat.log2 (N / D) := (Nat.le_log2 (by have := Nat.two_pow_pos (mb + 1); omega)).mpr h
    omega
  unfold rne rneSticky shiftOf
  simp only []
  generalize Nat.log2 (N / D) - mb = s at hs
  obtain ⟨t, rfl⟩ : ∃ t, s = t + 1 := ⟨s - 1, by omega⟩
  have em : N / (D * 2 ^ (t + 1)) = N / D / 2 ^ (t + 1) := (Nat.div_div_eq_div_mul ..).symm
  have er : N % (D * 2 ^ (t + 1)) = N % D + D * (N / D % 2 ^ (t + 1)) := Nat.mod_mul
  rw [em, er]
  have hlt := Nat.mod_lt N hD
  generalize N / D / 2 ^ (t + 1) = m
  generalize N / D % 2 ^ (t + 1) = p
  generalize N % D = e at *
  have e2 : (2 : Nat) ^ (t + 1) = 2 * 2 ^ t := by rw [pow_succ]; ring
  rw [e2]
  generalize 2 ^ t = q
  congr 2
  apply if_congr _ rfl rfl
  rcases lt_trichotomy p q with c | c | c
  · have : D * (p + 1) ≤ D * q := Nat.mul_le_mul_left D c
    have a1 : D * (2 * q) = 2 * (D * q) := by ring
    have a2 : D * (p + 1) = D * p + D := by ring
    rw [a1]
    constructor
    · rintro (h | ⟨h, -⟩) <;> omega
    · rintro (h | ⟨h, -⟩) <;> omega
  · subst c
    have a1 : D * (2 * p) = 2 * (D * p) := by ring
    rw [a1]
    constructor
    · rintro (h | ⟨h, h'⟩)
      · exact .inr ⟨rfl, .inl (by omega)⟩
      · exact .inr ⟨rfl, .inr h'⟩
    · rintro (h | ⟨-, h | h⟩)
      · omega
      · exact .inl (by omega)
      · by_cases h0 : e = 0
        · exact .inr ⟨by omega, h⟩
        · exact .inl (by omega)
  · have : D * (q + 1) ≤ D * p := Nat.mul_le_mul_left D c
    have a1 : D * (2 * q) = 2 * (D * q) := by ring
    have a2 : D * (q + 1) = D * q + D := by ring
    rw [a1]
    constructor
    · intro _; exact .inl (by omega)
    · intro _; exact .inl (by omega)

/-- Twice the integer square root, and one if there is a remainder. -/
def rootDigits (q : Nat) : Nat := 2 * isqrt q + (if isqrt q * isqrt q = q then 0 else 1)

theorem isqrt_unique {q r : Nat} (h1 : r * r ≤ q) (h2 : q < (r + 1) * (r + 1)) : isqrt q = r := by
  obtain ⟨a, b⟩ := isqrt_spec q
  apply le_antisymm
  · by_contra c
    have : (r + 1) * (r + 1) ≤ isqrt q * isqrt q := Nat.mul_le_mul (by omega) (by omega)
    omega
  · by_contra c
    have : (isqrt q + 1) * (isqrt q + 1) ≤ r * r := Nat.mul_le_mul (by omega) (by omega)
    omega

theorem rootDigits_half (q : Nat) : rootDigits q / 2 = isqrt q ∧ (rootDigits q % 2 ≠ 0 ↔ isqrt q * isqrt q ≠ q) := by
  unfold rootDigits
  split
  · next h => exact ⟨by omega, by simp [h]⟩
  · next h => exact ⟨by omega, by simp only [ne_eq, h, not_false_eq_true, iff_true]; omega⟩

theorem rootDigits_scale (q k : Nat) :
    rootDigits (q * 4 ^ k) / (2 * 2 ^ k) = isqrt q ∧ (rootDigits (q * 4 ^ k) % (2 * 2 ^ k) ≠ 0 ↔ isqrt q * isqrt q ≠ q) := by
  have hk := Nat.two_pow_pos k
  have e4 : (4 : Nat) ^ k = 2 ^ k * 2 ^ k := by rw [show (4 : Nat) = 2 * 2 from rfl, mul_pow]
  obtain ⟨a, b⟩ := isqrt_spec q
  obtain ⟨a', b'⟩ := isqrt_spec (q * 4 ^ k)
  have ed : isqrt (q * 4 ^ k) / 2 ^ k = isqrt q := by
    apply Nat.div_eq_of_lt_le
    · by_contra c
      have : (isqrt (q * 4 ^ k) + 1) * (isqrt (q * 4 ^ k) + 1) ≤ isqrt q * 2 ^ k * (isqrt q * 2 ^ k) :=
        Nat.mul_le_mul (by omega) (by omega)
      have e : isqrt q * 2 ^ k * (isqrt q * 2 ^ k) = isqrt q * isqrt q * 4 ^ k := by rw [e4]; ring
      have := Nat.mul_le_mul_right (4 ^ k) a
      omega
    · by_contra c
      have : (isqrt q + 1) * 2 ^ k * ((isqrt q + 1) * 2 ^ k) ≤ isqrt (q * 4 ^ k) * isqrt (q * 4 ^ k) :=
        Nat.mul_le_mul (by omega) (by omega)
      have e : (isqrt q + 1) * 2 ^ k * ((isqrt q + 1) * 2 ^ k) = (isqrt q + 1) * (isqrt q + 1) * 4 ^ k := by rw [e4]; ring
      have : q * 4 ^ k < (isqrt q + 1) * (isqrt q + 1) * 4 ^ k := Nat.mul_lt_mul_of_pos_right b (by positivity)
      omega
  obtain ⟨d1, d2⟩ := rootDigits_half (q * 4 ^ k)
  refine ⟨by rw [← Nat.div_div_eq_div_mul, d1, ed], ?_⟩
  rw [Nat.mod_mul, d1]
  have key : (isqrt q * isqrt q = q) ↔ (rootDigits (q * 4 ^ k) % 2 = 0 ∧ isqrt (q * 4 ^ k) % 2 ^ k = 0) := by
    constructor
    · intro h
      have hr : isqrt (q * 4 ^ k) = isqrt q * 2 ^ k := by
        apply isqrt_unique
        · conv_rhs => rw [← h]
          rw [e4]; exact le_of_eq (by ring)
        · conv_lhs => rw [← h]
          rw [e4]
          calc isqrt q * isqrt q * (2 ^ k * 2 ^ k) = isqrt q * 2 ^ k * (isqrt q * 2 ^ k) := by ring
            _ < _ := Nat.mul_lt_mul_of_lt_of_lt (Nat.lt_succ_self _) (Nat.lt_succ_self _)
      refine ⟨?_, by rw [hr, Nat.mul_mod_left]⟩
      by_contra c
      apply d2.mp c
      rw [hr]
      conv_rhs => rw [← h]
      rw [e4]; ring
    · rintro ⟨h1, h2⟩
      have hq : isqrt (q * 4 ^ k) * isqrt (q * 4 ^ k) = q * 4 ^ k := by
        by_contra c; exact d2.mpr c h1
      have hr : isqrt (q * 4 ^ k) = isqrt q * 2 ^ k := by
        have := Nat.div_add_mod (isqrt (q * 4 ^ k)) (2 ^ k)
        rw [h2, ed] at this
        rw [← this]; ring
      rw [hr] at hq
      have : isqrt q * isqrt q * 4 ^ k = q * 4 ^ k := by rw [← hq, e4]; ring
      exact Nat.eq_of_mul_eq_mul_right (by positivity) this
  rw [ne_eq, ne_eq, key]
  constructor
  · intro h c; apply h; rw [c.1, c.2]
  · intro h c
    apply h
    exact ⟨by omega, by omega⟩

/-- The rounded square root of `4^k` times as many units is `k` binades above. -/
theorem rne_root_scale {mb q : Nat} (k : Nat) (h : 2 ^ (mb + 1) ≤ isqrt q) :
    rne mb (rootDigits (q * 4 ^ k)) 2 = rne mb (rootDigits q) 2 + k * 2 ^ mb := by
  have hk := Nat.two_pow_pos k
  obtain ⟨a1, a2⟩ := rootDigits_half q
  obtain ⟨b1, b2⟩ := rootDigits_scale q k
  have hD : 0 < 2 * 2 ^ k := by positivity
  have e1 : rne mb (rootDigits (q * 4 ^ k)) 2 = rne mb (rootDigits (q * 4 ^ k) * 2 ^ k) (2 * 2 ^ k) :=
    le_antisymm (rne_mono (by decide) hD (le_of_eq (by ring))) (rne_mono hD (by decide) (le_of_eq (by ring)))
  rw [e1, rne_scale k hD, rne_sticky hD (by rw [b1]; exact h), rne_sticky (by decide) (by rw [a1]; exact h), b1, a1]
  · congr 1
    unfold rneSticky
    simp only [a2, b2]
  · rw [← Nat.le_div_iff_mul_le hD, b1]
    exact (Nat.pow_le_pow_right (by decide) (Nat.le_succ mb)).trans h

end Nova.FP
