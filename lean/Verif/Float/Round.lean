import Mathlib.Data.Nat.Log
import Mathlib.Order.Monotone.Basic
import Mathlib.Tactic.Ring
import Mathlib.Tactic.Linarith
import Mathlib.Tactic.Positivity
import Verif.Float.Format

/-! # Magnitudes are ordered like codes; `rne` rounds to nearest, ties to even -/

namespace Nova.FP

/-- Decomposition of a code. -/
theorem mag_decomp (mb : Nat) {s m : Nat} (hm : m ≤ 2 ^ (mb + 1)) (hs : s = 0 ∨ 2 ^ mb ≤ m) :
    mag mb (s * 2 ^ mb + m) = m * 2 ^ s := by
  have hp : 0 < 2 ^ mb := Nat.two_pow_pos mb
  have hdiv : (s * 2 ^ mb + m) / 2 ^ mb = s + m / 2 ^ mb := by
    rw [Nat.add_comm, Nat.add_mul_div_right _ _ hp, Nat.add_comm]
  unfold mag
  simp only [hdiv]
  rw [pow_succ, Nat.mul_comm] at hm
  by_cases h1 : m < 2 ^ mb
  · have hs0 : s = 0 := by rcases hs with h | h <;> omega
    subst hs0
    simp [Nat.div_eq_of_lt h1]
  · have h1' : 2 ^ mb ≤ m := by omega
    by_cases h2 : m < 2 * 2 ^ mb
    · have : m / 2 ^ mb = 1 := by
        apply Nat.div_eq_of_lt_le <;> omega
      rw [this, Nat.add_sub_cancel, Nat.add_sub_cancel_left]
    · have hm2 : m = 2 * 2 ^ mb := by omega
      subst hm2
      rw [Nat.mul_div_cancel _ hp]
      have e : s + 2 - 1 = s + 1 := by omega
      rw [e]
      have : s * 2 ^ mb + 2 * 2 ^ mb - (s + 1) * 2 ^ mb = 2 ^ mb := by
        rw [← Nat.add_mul, ← Nat.sub_mul]
        have : s + 2 - (s + 1) = 1 := by omega
        rw [this, Nat.one_mul]
      rw [this, pow_succ]
      ring

/-- Every code is decomposed. -/
theorem code_decomp (mb c : Nat) : ∃ s m, c = s * 2 ^ mb + m ∧ m < 2 ^ (mb + 1) ∧ (s = 0 ∨ 2 ^ mb ≤ m) := by
  have hp : 0 < 2 ^ mb := Nat.two_pow_pos mb
  refine ⟨c / 2 ^ mb - 1, c - (c / 2 ^ mb - 1) * 2 ^ mb, ?_, ?_, ?_⟩
  · have : (c / 2 ^ mb - 1) * 2 ^ mb ≤ c :=
      (Nat.mul_le_mul_right _ (Nat.sub_le _ _)).trans (Nat.div_mul_le_self _ _)
    omega
  · have h := Nat.lt_div_mul_add (a := c) hp
    rw [pow_succ, Nat.sub_mul]
    have h2 := Nat.div_mul_le_self c (2 ^ mb)
    rcases Nat.eq_zero_or_pos (c / 2 ^ mb) with h0 | h0
    · rw [h0] at h ⊢; omega
    · have : 2 ^ mb ≤ c / 2 ^ mb * 2 ^ mb := Nat.le_mul_of_pos_left _ h0
      omega
  · rcases Nat.eq_zero_or_pos (c / 2 ^ mb) with h0 | h0
    · left; omega
    · right
      have h2 := Nat.div_mul_le_self c (2 ^ mb)
      have : 2 ^ mb ≤ c / 2 ^ mb * 2 ^ mb := Nat.le_mul_of_pos_left _ h0
      rw [Nat.sub_mul]; omega

theorem mag_lt_succ (mb c : Nat) : mag mb c < mag mb (c + 1) := by
  obtain ⟨s, m, rfl, hm, hs⟩ := code_decomp mb c
  rw [mag_decomp mb hm.le hs, Nat.add_assoc, mag_decomp mb (by omega) (by omega)]
  exact Nat.mul_lt_mul_of_pos_right (Nat.lt_succ_self m) (Nat.two_pow_pos s)

theorem mag_strictMono (mb : Nat) : StrictMono (mag mb) := strictMono_nat_of_lt_succ (mag_lt_succ mb)

theorem mag_lt_iff {mb a b : Nat} : mag mb a < mag mb b ↔ a < b := (mag_strictMono mb).lt_iff_lt
theorem mag_le_iff {mb a b : Nat} : mag mb a ≤ mag mb b ↔ a ≤ b := (mag_strictMono mb).le_iff_le
theorem mag_inj {mb a b : Nat} : mag mb a = mag mb b ↔ a = b := (mag_strictMono mb).injective.eq_iff

@[simp] theorem mag_zero (mb : Nat) : mag mb 0 = 0 := by simp [mag]

theorem mag_eq_zero {mb c : Nat} : mag mb c = 0 ↔ c = 0 := by
  constructor
  · intro h; exact mag_inj.mp (h.trans (mag_zero mb).symm)
  · rintro rfl; exact mag_zero mb

theorem mag_pos {mb c : Nat} : 0 < mag mb c ↔ 0 < c := by
  rw [Nat.pos_iff_ne_zero, Nat.pos_iff_ne_zero, Ne, Ne, mag_eq_zero]

/-- Codes below `2^(mb+1)` are their own magnitude. -/
theorem mag_small {mb c : Nat} (h : c ≤ 2 ^ (mb + 1)) : mag mb c = c := by
  have := mag_decomp mb (s := 0) h (Or.inl rfl)
  simpa using this

/-! ## The parts of `rne` -/

/-- What `rne` computes: exponent, significand, rounding. -/
structure RneParts (mb N D : Nat) (s m : Nat) : Prop where
  /-- the significand fits -/
  lt : m < 2 ^ (mb + 1)
  /-- it is normalised unless the exponent is least -/
  norm : s = 0 ∨ 2 ^ mb ≤ m
  lo : m * (D * 2 ^ s) ≤ N
  hi : N < (m + 1) * (D * 2 ^ s)
  /-- rounded down, or … -/
  res : (rne mb N D = s * 2 ^ mb + m ∧ 2 * N ≤ (2 * m + 1) * (D * 2 ^ s) ∧
          (2 * N = (2 * m + 1) * (D * 2 ^ s) → m % 2 = 0)) ∨
        (rne mb N D = s * 2 ^ mb + (m + 1) ∧ (2 * m + 1) * (D * 2 ^ s) ≤ 2 * N ∧
          (2 * N = (2 * m + 1) * (D * 2 ^ s) → (m + 1) % 2 = 0))

theorem rne_parts (mb N : Nat) {D : Nat} (hD : 0 < D) : ∃ s m, RneParts mb N D s m := by
  suffices h : ∃ s m, m < 2 ^ (mb + 1) ∧ (s = 0 ∨ 2 ^ mb ≤ m) ∧ m * (D * 2 ^ s) ≤ N ∧
      N < (m + 1) * (D * 2 ^ s) ∧
      ((rne mb N D = s * 2 ^ mb + m ∧ 2 * N ≤ (2 * m + 1) * (D * 2 ^ s) ∧
          (2 * N = (2 * m + 1) * (D * 2 ^ s) → m % 2 = 0)) ∨
        (rne mb N D = s * 2 ^ mb + (m + 1) ∧ (2 * m + 1) * (D * 2 ^ s) ≤ 2 * N ∧
          (2 * N = (2 * m + 1) * (D * 2 ^ s) → (m + 1) % 2 = 0))) by
    obtain ⟨s, m, h1, h2, h3, h4, h5⟩ := h
    exact ⟨s, m, h1, h2, h3, h4, h5⟩
  refine ⟨shiftOf mb N D, N / (D * 2 ^ shiftOf mb N D), ?_⟩
  have hs : shiftOf mb N D = Nat.log2 (N / D) - mb := rfl
  have key : rne mb N D = shiftOf mb N D * 2 ^ mb + (N / (D * 2 ^ shiftOf mb N D) +
      (if D * 2 ^ shiftOf mb N D < 2 * (N % (D * 2 ^ shiftOf mb N D)) ∨
        (2 * (N % (D * 2 ^ shiftOf mb N D)) = D * 2 ^ shiftOf mb N D ∧
          N / (D * 2 ^ shiftOf mb N D) % 2 = 1) then 1 else 0)) := rfl
  generalize shiftOf mb N D = s at hs key ⊢
  have hps : 0 < 2 ^ s := Nat.two_pow_pos s
  have hDs : 0 < D * 2 ^ s := Nat.mul_pos hD hps
  have hdm := Nat.div_add_mod N (D * 2 ^ s)
  have hml := Nat.mod_lt N hDs
  have hq : N / (D * 2 ^ s) = N / D / 2 ^ s := (Nat.div_div_eq_div_mul N D (2 ^ s)).symm
  have hlt : N / (D * 2 ^ s) < 2 ^ (mb + 1) := by
    rw [hq, Nat.div_lt_iff_lt_mul hps, ← pow_add]
    by_cases h0 : N / D = 0
    · rw [h0]; exact Nat.two_pow_pos _
    · refine lt_of_lt_of_le Nat.lt_log2_self (Nat.pow_le_pow_right (by decide) ?_)
      omega
  have hnorm : s = 0 ∨ 2 ^ mb ≤ N / (D * 2 ^ s) := by
    by_cases h0 : s = 0
    · exact Or.inl h0
    · right
      have hqd : N / D ≠ 0 := by
        intro h; rw [h] at hs; simp at hs; exact h0 hs
      rw [hq, Nat.le_div_iff_mul_le hps, ← pow_add]
      refine le_trans (Nat.pow_le_pow_right (by decide) ?_) (Nat.log2_self_le hqd)
      omega
  refine ⟨hlt, hnorm, ?_⟩
  clear hq hlt hnorm
  generalize N / (D * 2 ^ s) = m at hdm key ⊢
  generalize N % (D * 2 ^ s) = r at hdm hml key
  generalize D * 2 ^ s = T at hDs hdm hml key ⊢
  have e1 : (2 * m + 1) * T = 2 * (T * m) + T := by ring
  have e2 : (m + 1) * T = T * m + T := by ring
  refine ⟨?_, ?_, ?_⟩
  · rw [Nat.mul_comm]; omega
  · omega
  · by_cases hup : T < 2 * r ∨ (2 * r = T ∧ m % 2 = 1)
    · right
      rw [if_pos hup] at key
      refine ⟨key, ?_, ?_⟩ <;> rw [e1] <;> omega
    · left
      rw [if_neg hup, Nat.add_zero] at key
      refine ⟨key, ?_, ?_⟩ <;> rw [e1] <;> omega

/-- The rounded magnitude. -/
theorem RneParts.mag_eq {mb N D s m : Nat} (h : RneParts mb N D s m) :
    (mag mb (rne mb N D) = m * 2 ^ s ∧ rne mb N D = s * 2 ^ mb + m) ∨
    (mag mb (rne mb N D) = (m + 1) * 2 ^ s ∧ rne mb N D = s * 2 ^ mb + (m + 1)) := by
  have hlt := h.lt
  rcases h.res with ⟨e, -⟩ | ⟨e, -⟩
  · left; exact ⟨by rw [e, mag_decomp mb hlt.le h.norm], e⟩
  · right
    refine ⟨by rw [e, mag_decomp mb (by omega) (h.norm.imp id fun h => by omega)], e⟩

/-- Monotonicity, lower half: a representable lower bound survives rounding. -/
theorem le_rne {mb N D c : Nat} (hD : 0 < D) (h : mag mb c * D ≤ N) : c ≤ rne mb N D := by
  obtain ⟨s, m, hp⟩ := rne_parts mb N hD
  by_contra hc
  have hc' : rne mb N D + 1 ≤ c := by omega
  have h1 : mag mb (rne mb N D + 1) * D ≤ N :=
    (Nat.mul_le_mul_right D (mag_le_iff.mpr hc')).trans h
  have hlt := hp.lt
  have hhi := hp.hi
  have hDs : 0 < D * 2 ^ s := Nat.mul_pos hD (Nat.two_pow_pos s)
  rcases hp.mag_eq with ⟨hm, e⟩ | ⟨hm, e⟩
  · have h2 : mag mb (rne mb N D + 1) = (m + 1) * 2 ^ s := by
      rw [e, Nat.add_assoc, mag_decomp mb (by omega) (hp.norm.imp id fun h => by omega)]
    rw [h2] at h1
    have : (m + 1) * 2 ^ s * D = (m + 1) * (D * 2 ^ s) := by ring
    omega
  · have h2 : (m + 1) * 2 ^ s < mag mb (rne mb N D + 1) := by rw [← hm]; exact mag_lt_succ _ _
    have h3 : (m + 1) * 2 ^ s * D < mag mb (rne mb N D + 1) * D := Nat.mul_lt_mul_of_pos_right h2 hD
    have : (m + 1) * 2 ^ s * D = (m + 1) * (D * 2 ^ s) := by ring
    omega

/-- Monotonicity, upper half. -/
theorem rne_le {mb N D c : Nat} (hD : 0 < D) (h : N ≤ mag mb c * D) : rne mb N D ≤ c := by
  obtain ⟨s, m, hp⟩ := rne_parts mb N hD
  by_contra hc
  have hc' : c + 1 ≤ rne mb N D := by omega
  have hlo := hp.lo
  have hDs : 0 < D * 2 ^ s := Nat.mul_pos hD (Nat.two_pow_pos s)
  have hlt := hp.lt
  rcases hp.res with ⟨e, -, -⟩ | ⟨e, hup, -⟩
  · have h1 : mag mb c < mag mb (rne mb N D) := mag_lt_iff.mpr (by omega)
    rw [e, mag_decomp mb hlt.le hp.norm] at h1
    have h2 : mag mb c * D < m * 2 ^ s * D := Nat.mul_lt_mul_of_pos_right h1 hD
    have : m * 2 ^ s * D = m * (D * 2 ^ s) := by ring
    omega
  · have h1 : mag mb c ≤ mag mb (s * 2 ^ mb + m) := mag_le_iff.mpr (by omega)
    rw [mag_decomp mb hlt.le hp.norm] at h1
    have h2 : mag mb c * D ≤ m * 2 ^ s * D := Nat.mul_le_mul_right D h1
    have e1 : m * 2 ^ s * D = m * (D * 2 ^ s) := by ring
    have e2 : (2 * m + 1) * (D * 2 ^ s) = 2 * (m * (D * 2 ^ s)) + D * 2 ^ s := by ring
    omega

/-- A representable quotient is not changed. -/
theorem rne_exact {mb N D c : Nat} (hD : 0 < D) (h : N = mag mb c * D) : rne mb N D = c :=
  le_antisymm (rne_le hD h.le) (le_rne hD h.ge)

theorem rne_zero (mb : Nat) {D : Nat} (hD : 0 < D) : rne mb 0 D = 0 :=
  rne_exact hD (by simp)

/-- Rounding is monotone. -/
theorem rne_mono {mb N D N' D' : Nat} (hD : 0 < D) (hD' : 0 < D') (h : N * D' ≤ N' * D) :
    rne mb N D ≤ rne mb N' D' := by
  by_contra hc
  obtain ⟨s, m, hp⟩ := rne_parts mb N hD
  obtain ⟨s', m', hp'⟩ := rne_parts mb N' hD'
  have hT : 0 < D * 2 ^ s := Nat.mul_pos hD (Nat.two_pow_pos s)
  -- the smaller result is below a number that both sides of the tie would separate
  have hlt := hp.lt
  have hlt' := hp'.lt
  -- express both magnitudes
  have hc1 : rne mb N' D' + 1 ≤ rne mb N D := by omega
  -- `N/D` exceeds the midpoint below `rne N D` (or equals it)
  -- case on the shape of the larger result
  rcases hp.res with ⟨e, -, -⟩ | ⟨e, hup, htie⟩
  · -- rounded down: mag (rne N D) ≤ N/D ≤ N'/D'
    have h1 : mag mb (rne mb N D) * D ≤ N := by
      rw [e, mag_decomp mb hlt.le hp.norm]
      have := hp.lo
      have e1 : m * 2 ^ s * D = m * (D * 2 ^ s) := by ring
      omega
    have h2 : mag mb (rne mb N D) * D' ≤ N' := by
      have h3 : mag mb (rne mb N D) * D * D' ≤ N' * D := (Nat.mul_le_mul_right D' h1).trans h
      have h4 : (mag mb (rne mb N D) * D') * D ≤ N' * D := by
        calc (mag mb (rne mb N D) * D') * D = mag mb (rne mb N D) * D * D' := by ring
          _ ≤ _ := h3
      exact Nat.le_of_mul_le_mul_right h4 hD
    exact absurd (le_rne hD' h2) (by omega)
  · -- rounded up: then N'/D' ≥ N/D ≥ midpoint of m, m+1
    -- and rne N' D' ≤ s*2^mb+m, so N'/D' ≤ midpoint: equality and a tie
    have hle : rne mb N' D' ≤ s * 2 ^ mb + m := by omega
    have hge : s * 2 ^ mb + m ≤ rne mb N' D' := by
      apply le_rne hD'
      rw [mag_decomp mb hlt.le hp.norm]
      have hlo := hp.lo
      have h3 : m * 2 ^ s * D' * D ≤ N' * D := by
        calc m * 2 ^ s * D' * D = m * (D * 2 ^ s) * D' := by ring
          _ ≤ N * D' := Nat.mul_le_mul_right _ hlo
          _ ≤ _ := h
      exact Nat.le_of_mul_le_mul_right h3 hD
    have heq : rne mb N' D' = s * 2 ^ mb + m := le_antisymm hle hge
    -- hence N' was rounded to the code s*2^mb+m; compare decompositions
    have hmag' := hp'.mag_eq
    have hmagv : mag mb (rne mb N' D') = m * 2 ^ s := by rw [heq, mag_decomp mb hlt.le hp.norm]
    -- N'/D' is at least the midpoint (2m+1)/2 * 2^s
    have hmid : (2 * m + 1) * 2 ^ s * D' ≤ 2 * N' := by
      have h3 : (2 * m + 1) * 2 ^ s * D' * D ≤ 2 * N' * D := by
        calc (2 * m + 1) * 2 ^ s * D' * D = (2 * m + 1) * (D * 2 ^ s) * D' := by ring
          _ ≤ 2 * N * D' := Nat.mul_le_mul_right _ hup
          _ = 2 * (N * D') := by ring
          _ ≤ 2 * (N' * D) := Nat.mul_le_mul_left 2 h
          _ = 2 * N' * D := by ring
      exact Nat.le_of_mul_le_mul_right h3 hD
    -- N' < mag (code+1) * D', so the decomposition of N' is (s, m)
    have hN'lt : N' < (m + 1) * 2 ^ s * D' := by
      by_contra hcc
      have : s * 2 ^ mb + (m + 1) ≤ rne mb N' D' := by
        apply le_rne hD'
        rw [mag_decomp mb (by omega) (hp.norm.imp id fun h => by omega)]
        omega
      omega
    have hss : s' = s ∧ m' = m := by
      have hlo' := hp'.lo
      have hhi' := hp'.hi
      have q : N' / D' / 2 ^ s = m := by
        rw [Nat.div_div_eq_div_mul]
        apply Nat.div_eq_of_lt_le
        · have e2 : (2 * m + 1) * 2 ^ s * D' = 2 * (m * (D' * 2 ^ s)) + 2 ^ s * D' := by ring
          omega
        · have e2 : (m + 1) * 2 ^ s * D' = (m + 1) * (D' * 2 ^ s) := by ring
          omega
      -- codes: s'*2^mb + m' is the largest code with mag ≤ N'/D', and so is s*2^mb+m
      have c1 : s' * 2 ^ mb + m' ≤ s * 2 ^ mb + m := by
        by_contra hcc
        have : mag mb (s * 2 ^ mb + (m + 1)) ≤ mag mb (s' * 2 ^ mb + m') := mag_le_iff.mpr (by omega)
        rw [mag_decomp mb (by omega) (hp.norm.imp id fun h => by omega),
          mag_decomp mb hlt'.le hp'.norm] at this
        have h5 := Nat.mul_le_mul_right D' this
        have e2 : m' * 2 ^ s' * D' = m' * (D' * 2 ^ s') := by ring
        omega
      have c2 : s * 2 ^ mb + m ≤ s' * 2 ^ mb + m' := by
        by_contra hcc
        have : mag mb (s' * 2 ^ mb + (m' + 1)) ≤ mag mb (s * 2 ^ mb + m) := mag_le_iff.mpr (by omega)
        rw [mag_decomp mb (by omega) (hp'.norm.imp id fun h => by omega),
          mag_decomp mb hlt.le hp.norm] at this
        have h5 := Nat.mul_le_mul_right D' this
        have e2 : (m' + 1) * 2 ^ s' * D' = (m' + 1) * (D' * 2 ^ s') := by ring
        have e3 : m * 2 ^ s * D' ≤ N' := by
          have e4 : (2 * m + 1) * 2 ^ s * D' = 2 * (m * 2 ^ s * D') + 2 ^ s * D' := by ring
          omega
        omega
      have ceq : s * 2 ^ mb + m = s' * 2 ^ mb + m' := le_antisymm c2 c1
      have hp2 : 0 < 2 ^ mb := Nat.two_pow_pos mb
      have hpow : 2 ^ (mb + 1) = 2 * 2 ^ mb := by rw [pow_succ]; ring
      have hs_eq : s' = s := by
        rcases Nat.lt_trichotomy s s' with hss | hss | hss
        · have h6 : (s + 1) * 2 ^ mb ≤ s' * 2 ^ mb := Nat.mul_le_mul_right _ hss
          rcases hp'.norm with h7 | h7
          · omega
          · rw [Nat.succ_mul] at h6; omega
        · exact hss.symm
        · have h6 : (s' + 1) * 2 ^ mb ≤ s * 2 ^ mb := Nat.mul_le_mul_right _ hss
          rcases hp.norm with h7 | h7
          · omega
          · rw [Nat.succ_mul] at h6; omega
      subst hs_eq
      exact ⟨rfl, by omega⟩
    obtain ⟨rfl, rfl⟩ := hss
    have emid : (2 * m' + 1) * 2 ^ s' * D' = (2 * m' + 1) * (D' * 2 ^ s') := by ring
    rcases hp'.res with ⟨-, hdn', htie'⟩ | ⟨e', -, -⟩
    · have hN'eq : 2 * N' = (2 * m' + 1) * (D' * 2 ^ s') := by omega
      have hme := htie' hN'eq
      -- then N/D is the midpoint too
      have hNeq : 2 * N = (2 * m' + 1) * (D * 2 ^ s') := by
        apply le_antisymm _ hup
        have h3 : 2 * N * D' ≤ (2 * m' + 1) * (D * 2 ^ s') * D' := by
          calc 2 * N * D' = 2 * (N * D') := by ring
            _ ≤ 2 * (N' * D) := Nat.mul_le_mul_left 2 h
            _ = (2 * N') * D := by ring
            _ = (2 * m' + 1) * (D * 2 ^ s') * D' := by rw [hN'eq]; ring
        exact Nat.le_of_mul_le_mul_right h3 hD'
      have := htie hNeq
      omega
    · omega

/-- Rounding error: at most half a unit in the last place. -/
theorem RneParts.error {mb N D s m : Nat} (h : RneParts mb N D s m) :
    2 * (mag mb (rne mb N D) * D) ≤ 2 * N + D * 2 ^ s ∧
    2 * N ≤ 2 * (mag mb (rne mb N D) * D) + D * 2 ^ s := by
  have hlo := h.lo
  have hhi := h.hi
  have e0 : m * 2 ^ s * D = m * (D * 2 ^ s) := by ring
  have e1 : (m + 1) * 2 ^ s * D = m * (D * 2 ^ s) + D * 2 ^ s := by ring
  have e2 : (2 * m + 1) * (D * 2 ^ s) = 2 * (m * (D * 2 ^ s)) + D * 2 ^ s := by ring
  have e3 : (m + 1) * (D * 2 ^ s) = m * (D * 2 ^ s) + D * 2 ^ s := by ring
  rcases h.res with ⟨e, hb, -⟩ | ⟨e, hb, -⟩ <;> rcases h.mag_eq with ⟨hm, e'⟩ | ⟨hm, e'⟩ <;> rw [hm] <;> omega

end Nova.FP
