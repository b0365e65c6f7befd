import Verif.Float.Arith
import Mathlib.Algebra.Order.Floor.Ring
import Mathlib.Algebra.Order.Archimedean.Basic
import Mathlib.Algebra.Order.Archimedean.Real.Basic
import Mathlib.Tactic.Linarith

/-! # Rounding to integral numbers -/

namespace Nova.FP

/-- Every `m * 2^s` with a significand that fits is a magnitude. -/
theorem mag_exists {mb m : Nat} (s : Nat) (h : m ≤ 2 ^ (mb + 1)) : ∃ c, mag mb c = m * 2 ^ s := by
  induction s generalizing m with
  | zero => exact ⟨m, by rw [mag_small h]; simp⟩
  | succ s ih =>
    by_cases h1 : 2 ^ mb ≤ m
    · exact ⟨(s + 1) * 2 ^ mb + m, mag_decomp mb h (.inr h1)⟩
    · obtain ⟨c, hc⟩ := ih (m := 2 * m) (by rw [pow_succ]; omega)
      exact ⟨c, by rw [hc, pow_succ]; ring⟩

/-- Large magnitudes are multiples of their unit in the last place. -/
theorem dvd_mag {mb c t : Nat} (h : 2 ^ (mb + t) ≤ mag mb c) : 2 ^ t ∣ mag mb c := by
  obtain ⟨s, m, rfl, h1, h2⟩ := code_decomp mb c
  rw [mag_decomp mb h1.le h2] at h ⊢
  have h3 : 2 ^ (mb + t) < 2 ^ (mb + 1 + s) := by
    rw [pow_add 2 (mb + 1) s]
    exact lt_of_le_of_lt h (Nat.mul_lt_mul_of_pos_right h1 (Nat.two_pow_pos s))
  have h4 := (Nat.pow_lt_pow_iff_right (a := 2) (by decide)).mp h3
  exact Dvd.dvd.mul_left (pow_dvd_pow 2 (by omega)) m

namespace Fmt
variable {w : Nat} (F : Fmt w)

/-- All integers up to the precision are in the range of the format. -/
def Wide : Prop := 2 ^ (F.mb + F.scale) < mag F.mb F.infCode

theorem wide32 : binary32.Wide := by unfold Wide; decide +kernel
theorem wide64 : binary64.Wide := by unfold Wide; decide +kernel

/-- Which integer `k` is meant for `N / D`, with sign `s`. -/
def RoundsTo (m : Mode) (s : Bool) (N D k : Nat) : Prop :=
  match m with
  | .nearest => 2 * k * D ≤ 2 * N + D ∧ 2 * N ≤ 2 * k * D + D ∧
      (2 * k * D = 2 * N + D ∨ 2 * N = 2 * k * D + D → k % 2 = 0)
  | .zero => k * D ≤ N ∧ N < (k + 1) * D
  | .down => if s then N ≤ k * D ∧ k * D < N + D else k * D ≤ N ∧ N < (k + 1) * D
  | .up => if s then k * D ≤ N ∧ N < (k + 1) * D else N ≤ k * D ∧ k * D < N + D
  | .away => 2 * k * D ≤ 2 * N + D ∧ 2 * N < 2 * k * D + D

theorem floor_spec {N D : Nat} (hD : 0 < D) : N / D * D ≤ N ∧ N < (N / D + 1) * D :=
  ⟨Nat.div_mul_le_self N D, by rw [Nat.add_mul, Nat.one_mul]; exact Nat.lt_div_mul_add hD⟩

theorem ceil_spec {N D : Nat} (hD : 0 < D) : N ≤ (N + D - 1) / D * D ∧ (N + D - 1) / D * D < N + D := by
  have h1 := Nat.div_mul_le_self (N + D - 1) D
  have h2 := Nat.lt_div_mul_add (a := N + D - 1) hD
  omega

theorem roundMag_spec (m : Mode) (s : Bool) (N : Nat) {D : Nat} (hD : 0 < D) :
    RoundsTo m s N D (roundMag m s N D) := by
  have hf := floor_spec (N := N) hD
  have hc := ceil_spec (N := N) hD
  cases m with
  | nearest =>
    unfold RoundsTo roundMag rneInt
    have h1 := Nat.div_add_mod N D
    have h2 := Nat.mod_lt N hD
    dsimp only
    generalize N / D = q at *
    generalize N % D = r at *
    have e : ∀ k, 2 * k * D = 2 * (D * k) := fun k => by ring
    split
    · rw [e]; have : D * (q + 1) = D * q + D := by ring
      rw [this]; omega
    · rw [e]; omega
  | zero => exact hf
  | down => cases s <;> [exact hf; exact hc]
  | up => cases s <;> [exact hc; exact hf]
  | away =>
    unfold RoundsTo roundMag
    have h := floor_spec (N := 2 * N + D) (D := 2 * D) (by omega)
    dsimp only at h ⊢
    generalize (2 * N + D) / (2 * D) = q at *
    have e1 : q * (2 * D) = 2 * q * D := by ring
    have e2 : (q + 1) * (2 * D) = 2 * q * D + 2 * D := by ring
    rw [e1, e2] at h
    omega

theorem roundMag_mul (m : Mode) (s : Bool) (q : Nat) {D : Nat} (hD : 0 < D) :
    roundMag m s (q * D) D = q := by
  have h1 : q * D / D = q := Nat.mul_div_cancel q hD
  have h2 : (q * D + D - 1) / D = q := by
    rw [show q * D + D - 1 = (D - 1) + q * D by omega, Nat.add_mul_div_right _ _ hD,
      Nat.div_eq_of_lt (by omega)]; omega
  have h3 : (2 * (q * D) + D) / (2 * D) = q := by
    rw [show 2 * (q * D) + D = D + q * (2 * D) by ring, Nat.add_mul_div_right _ _ (by omega),
      Nat.div_eq_of_lt (by omega)]; omega
  have h4 : q * D % D = 0 := Nat.mul_mod_left q D
  cases m
  · unfold roundMag rneInt; simp only [h4, h1]; rw [if_neg (by omega)]
  · unfold roundMag; simp [h1, h2]
  · unfold roundMag; simp [h1, h2]
  · exact h1
  · exact h3

theorem roundMag_le (m : Mode) (s : Bool) {N D b : Nat} (hD : 0 < D) (h : N ≤ b * D) :
    roundMag m s N D ≤ b := by
  have hs := roundMag_spec m s N hD
  generalize roundMag m s N D = k at *
  by_contra hc
  have h1 : (b + 1) * D ≤ k * D := Nat.mul_le_mul_right D (by omega)
  have h2 : (b + 1) * D = b * D + D := by ring
  have e : 2 * k * D = 2 * (k * D) := by ring
  have h3 : (k + 1) * D = k * D + D := by ring
  unfold RoundsTo at hs
  cases m <;> dsimp only at hs
  · rw [e] at hs; omega
  · cases s <;> simp at hs <;> omega
  · cases s <;> simp at hs <;> omega
  · omega
  · rw [e] at hs; omega

/-- Rounding a finite number to an integral one is exact: sign and magnitude of the result. -/
theorem roundInt_finite (hF : F.Wide) (m : Mode) {x : BitVec w} (hx : F.isFinite x = true) :
    ∃ c, c < F.infCode ∧
      mag F.mb c = roundMag m (F.neg x) (mag F.mb (F.code x)) (2 ^ F.scale) * 2 ^ F.scale ∧
      F.roundInt m x = F.pack (F.neg x) c := by
  have hD : 0 < 2 ^ F.scale := Nat.two_pow_pos _
  have hc := F.finite_code hx
  obtain ⟨c, h1, h2⟩ : ∃ c, c < F.infCode ∧
      mag F.mb c = roundMag m (F.neg x) (mag F.mb (F.code x)) (2 ^ F.scale) * 2 ^ F.scale := by
    by_cases h : 2 ^ (F.mb + F.scale) ≤ mag F.mb (F.code x)
    · obtain ⟨q, hq⟩ := dvd_mag h
      rw [Nat.mul_comm] at hq
      exact ⟨F.code x, hc, by rw [hq, roundMag_mul _ _ _ hD]⟩
    · have hk : roundMag m (F.neg x) (mag F.mb (F.code x)) (2 ^ F.scale) ≤ 2 ^ F.mb :=
        roundMag_le _ _ hD (by rw [← pow_add]; omega)
      generalize roundMag m (F.neg x) (mag F.mb (F.code x)) (2 ^ F.scale) = k at *
      obtain ⟨c, e⟩ := mag_exists (mb := F.mb) (m := k) F.scale (by rw [pow_succ]; omega)
      refine ⟨c, ?_, e⟩
      rw [← mag_lt_iff (mb := F.mb), e]
      refine lt_of_le_of_lt ?_ hF
      rw [pow_add]
      exact Nat.mul_le_mul_right _ hk
  refine ⟨c, h1, h2, ?_⟩
  unfold roundInt
  rw [F.isFinite_not_nan hx, F.isFinite_not_inf hx]
  simp only [Bool.false_eq_true, if_false]
  exact F.packRnd_mag _ (by decide) h1.le (by rw [h2, Nat.mul_one])

theorem isFinite_pack (s : Bool) {c : Nat} (h : c < F.infCode) : F.isFinite (F.pack s c) = true := by
  have := F.infCode_lt
  unfold isFinite
  rw [F.code_pack _ (by omega)]
  exact decide_eq_true h

theorem toReal_pack (s : Bool) {c : Nat} (h : c < F.infCode) :
    F.toReal (F.pack s c) = (if s then -1 else 1) * ((mag F.mb c : ℝ) / 2 ^ F.scale) := by
  have := F.infCode_lt
  unfold toReal units
  rw [F.code_pack _ (by omega), F.neg_pack _ (by omega)]
  cases s
  · simp only [Bool.false_eq_true, if_false]; push_cast; ring
  · simp only [if_true]; push_cast; ring

theorem toReal_eq (x : BitVec w) :
    F.toReal x = (if F.neg x then -1 else 1) * ((mag F.mb (F.code x) : ℝ) / 2 ^ F.scale) := by
  unfold toReal units
  cases F.neg x
  · simp only [Bool.false_eq_true, if_false]; push_cast; ring
  · simp only [if_true]; push_cast; ring

/-- What an integer means for a real number, for every rounding mode. -/
def IsRounded (m : Mode) (v r : ℝ) : Prop :=
  match m with
  | .nearest => ∃ k : ℤ, r = k ∧ |v - k| ≤ 1 / 2 ∧ (|v - k| = 1 / 2 → Even k)
  | .down => r = ⌊v⌋
  | .up => r = ⌈v⌉
  | .zero => r = if 0 ≤ v then (⌊v⌋ : ℝ) else ⌈v⌉
  | .away => ∃ k : ℤ, r = k ∧ |v - k| ≤ 1 / 2 ∧ (|v - k| = 1 / 2 → |v| < |(k : ℝ)|)

theorem even_of_mod {k : Nat} (h : k % 2 = 0) : Even (k : ℤ) := by
  obtain ⟨j, rfl⟩ := Nat.dvd_of_mod_eq_zero h
  exact ⟨j, by push_cast; ring⟩

/-- From natural numbers to reals. -/
theorem RoundsTo.isRounded {m : Mode} {s : Bool} {N D k : Nat} (hD : 0 < D) (h : RoundsTo m s N D k) :
    IsRounded m ((if s then -1 else 1) * ((N : ℝ) / D)) ((if s then -1 else 1) * (k : ℝ)) := by
  have hD' : (0 : ℝ) < D := by exact_mod_cast hD
  have v0 : (0 : ℝ) ≤ (N : ℝ) / D := by positivity
  have floor' : k * D ≤ N ∧ N < (k + 1) * D → (k : ℝ) ≤ (N : ℝ) / D ∧ (N : ℝ) / D < k + 1 := by
    rintro ⟨h1, h2⟩
    have h1' : (k : ℝ) * D ≤ N := by exact_mod_cast h1
    have h2' : (N : ℝ) < (k + 1) * D := by exact_mod_cast h2
    exact ⟨(le_div_iff₀ hD').mpr h1', (div_lt_iff₀ hD').mpr h2'⟩
  have ceil' : N ≤ k * D ∧ k * D < N + D → (N : ℝ) / D ≤ k ∧ (k : ℝ) - 1 < (N : ℝ) / D := by
    rintro ⟨h1, h2⟩
    have h1' : (N : ℝ) ≤ k * D := by exact_mod_cast h1
    have h2' : (k : ℝ) * D < N + D := by exact_mod_cast h2
    refine ⟨(div_le_iff₀ hD').mpr h1', (lt_div_iff₀ hD').mpr ?_⟩
    linarith
  cases m with
  | nearest =>
    obtain ⟨h1, h2, h3⟩ := h
    have h1' : 2 * (k : ℝ) * D ≤ 2 * N + D := by exact_mod_cast h1
    have h2' : 2 * (N : ℝ) ≤ 2 * k * D + D := by exact_mod_cast h2
    have b1 : (k : ℝ) ≤ (N : ℝ) / D + 1 / 2 := by
      have : (N : ℝ) = (N : ℝ) / D * D := by field_simp
      rw [this] at h1'
      have := (mul_le_mul_iff_of_pos_right hD').mp (show 2 * (k : ℝ) * D ≤ (2 * ((N : ℝ) / D) + 1) * D by linarith)
      linarith
    have b2 : (N : ℝ) / D ≤ k + 1 / 2 := by
      rw [div_le_iff₀ hD']; linarith
    have b3 : |(N : ℝ) / D - k| = 1 / 2 → k % 2 = 0 := by
      intro he
      apply h3
      rcases (abs_eq (by norm_num)).mp he with e | e
      · right
        have : (N : ℝ) = (k + 1 / 2) * D := (div_eq_iff hD'.ne').mp (by linarith)
        have : 2 * (N : ℝ) = 2 * k * D + D := by rw [this]; ring
        exact_mod_cast this
      · left
        have : (N : ℝ) = (k - 1 / 2) * D := (div_eq_iff hD'.ne').mp (by linarith)
        have : 2 * (k : ℝ) * D = 2 * N + D := by rw [this]; ring
        exact_mod_cast this
    have b4 : |(N : ℝ) / D - k| ≤ 1 / 2 := abs_le.mpr ⟨by linarith, by linarith⟩
    cases s
    · refine ⟨k, by simp, ?_, ?_⟩
      · simpa using b4
      · intro he; exact even_of_mod (b3 (by simpa using he))
    · refine ⟨-k, by simp, ?_, ?_⟩
      · have : (-1 : ℝ) * ((N : ℝ) / D) - ((-(k : ℤ) : ℤ) : ℝ) = -((N : ℝ) / D - k) := by push_cast; ring
        simp only [if_true]; rw [this, abs_neg]; exact b4
      · have : (-1 : ℝ) * ((N : ℝ) / D) - ((-(k : ℤ) : ℤ) : ℝ) = -((N : ℝ) / D - k) := by push_cast; ring
        simp only [if_true]; rw [this, abs_neg]
        intro he; exact (even_of_mod (b3 he)).neg
  | away =>
    obtain ⟨h1, h2⟩ := h
    have h1' : 2 * (k : ℝ) * D ≤ 2 * N + D := by exact_mod_cast h1
    have h2' : 2 * (N : ℝ) < 2 * k * D + D := by exact_mod_cast h2
    have b1 : (k : ℝ) ≤ (N : ℝ) / D + 1 / 2 := by
      have : (N : ℝ) = (N : ℝ) / D * D := by field_simp
      rw [this] at h1'
      have := (mul_le_mul_iff_of_pos_right hD').mp (show 2 * (k : ℝ) * D ≤ (2 * ((N : ℝ) / D) + 1) * D by linarith)
      linarith
    have b2 : (N : ℝ) / D < k + 1 / 2 := by
      rw [div_lt_iff₀ hD']; linarith
    have b4 : |(N : ℝ) / D - k| ≤ 1 / 2 := abs_le.mpr ⟨by linarith, by linarith⟩
    have b5 : |(N : ℝ) / D - k| = 1 / 2 → |(N : ℝ) / D| < |(k : ℝ)| := by
      intro he
      rw [abs_of_nonneg v0, abs_of_nonneg (Nat.cast_nonneg k)]
      rcases (abs_eq (by norm_num)).mp he with e | e <;> linarith
    cases s
    · refine ⟨k, by simp, ?_, ?_⟩
      · simpa using b4
      · intro he; simpa using b5 (by simpa using he)
    · refine ⟨-k, by simp, ?_, ?_⟩
      · have : (-1 : ℝ) * ((N : ℝ) / D) - ((-(k : ℤ) : ℤ) : ℝ) = -((N : ℝ) / D - k) := by push_cast; ring
        simp only [if_true]; rw [this, abs_neg]; exact b4
      · have : (-1 : ℝ) * ((N : ℝ) / D) - ((-(k : ℤ) : ℤ) : ℝ) = -((N : ℝ) / D - k) := by push_cast; ring
        simp only [if_true]; rw [this, abs_neg]
        intro he
        have := b5 he
        rw [neg_one_mul, abs_neg]; push_cast; rwa [abs_neg]
  | zero =>
    obtain ⟨h1, h2⟩ := floor' h
    unfold IsRounded
    cases s
    · simp only [Bool.false_eq_true, if_false, one_mul]
      have e : ⌊(N : ℝ) / D⌋ = (k : ℤ) := by
        rw [Int.floor_eq_iff]; push_cast; exact ⟨h1, h2⟩
      rw [if_pos v0, e]; push_cast; rfl
    · simp only [if_true]
      have e : ⌈-1 * ((N : ℝ) / D)⌉ = -(k : ℤ) := by
        rw [Int.ceil_eq_iff]; push_cast; constructor <;> linarith
      have e2 : 0 ≤ -1 * ((N : ℝ) / D) → ⌊-1 * ((N : ℝ) / D)⌋ = -(k : ℤ) := by
        intro h0
        rw [Int.floor_eq_iff]; push_cast
        have hk : (0 : ℝ) ≤ k := Nat.cast_nonneg k
        constructor <;> linarith
      split
      · rw [e2 ‹_›]; push_cast; ring
      · rw [e]; push_cast; ring
  | down =>
    unfold IsRounded
    cases s
    · obtain ⟨h1, h2⟩ := floor' h
      simp only [Bool.false_eq_true, if_false, one_mul]
      have e : ⌊(N : ℝ) / D⌋ = (k : ℤ) := by
        rw [Int.floor_eq_iff]; push_cast; exact ⟨h1, h2⟩
      rw [e]; push_cast; rfl
    · obtain ⟨h1, h2⟩ := ceil' h
      simp only [if_true]
      have e : ⌊-1 * ((N : ℝ) / D)⌋ = -(k : ℤ) := by
        rw [Int.floor_eq_iff]; push_cast; constructor <;> linarith
      rw [e]; push_cast; ring
  | up =>
    unfold IsRounded
    cases s
    · obtain ⟨h1, h2⟩ := ceil' h
      simp only [Bool.false_eq_true, if_false, one_mul]
      have e : ⌈(N : ℝ) / D⌉ = (k : ℤ) := by
        rw [Int.ceil_eq_iff]; push_cast; exact ⟨h2, h1⟩
      rw [e]; push_cast; rfl
    · obtain ⟨h1, h2⟩ := floor' h
      simp only [if_true]
      have e : ⌈-1 * ((N : ℝ) / D)⌉ = -(k : ℤ) := by
        rw [Int.ceil_eq_iff]; push_cast; constructor <;> linarith
      rw [e]; push_cast; ring

/-- Rounding to an integral number is exact, keeps the sign, and returns the right integer. -/
theorem roundInt_value (hF : F.Wide) (m : Mode) {x : BitVec w} (hx : F.isFinite x = true) :
    F.isFinite (F.roundInt m x) = true ∧ F.neg (F.roundInt m x) = F.neg x ∧
    IsRounded m (F.toReal x) (F.toReal (F.roundInt m x)) := by
  obtain ⟨c, h1, h2, h3⟩ := F.roundInt_finite hF m hx
  have hD : 0 < 2 ^ F.scale := Nat.two_pow_pos _
  have := F.infCode_lt
  rw [h3]
  refine ⟨F.isFinite_pack _ h1, F.neg_pack _ (by omega), ?_⟩
  have h4 := RoundsTo.isRounded hD (roundMag_spec m (F.neg x) (mag F.mb (F.code x)) hD)
  rw [F.toReal_pack _ h1, h2, F.toReal_eq x]
  push_cast at h4 ⊢
  rwa [mul_div_assoc, div_self (by positivity), mul_one]

end Fmt
end Nova.FP
