import Mathlib.Tactic.Linarith
import Mathlib.Tactic.FieldSimp
import Mathlib.Tactic.Ring
import Verif.Float.RoundInt

/-!
# The rounding error of the operations

Every result of add, sub, mul, div and fma on finite numbers, whose exact value is at most `2 ^ bias` in
magnitude, is a finite number that differs from the exact value by at most `u * |value|`, or by at most `eta` if
the result is subnormal.
-/

namespace Nova.FP

/-- Rounding error in units. -/
theorem rne_error (mb N : Nat) {D : Nat} (hD : 0 < D) :
    (2 ^ (mb + 1) * (mag mb (rne mb N D) * D) ≤ 2 ^ (mb + 1) * N + N ∧
      2 ^ (mb + 1) * N ≤ 2 ^ (mb + 1) * (mag mb (rne mb N D) * D) + N) ∨
    (2 * (mag mb (rne mb N D) * D) ≤ 2 * N + D ∧ 2 * N ≤ 2 * (mag mb (rne mb N D) * D) + D) := by
  obtain ⟨s, m, h⟩ := rne_parts mb N hD
  obtain ⟨h1, h2⟩ := h.error
  rcases h.norm with h0 | h0
  · right; subst h0; rw [pow_zero, Nat.mul_one] at h1 h2; exact ⟨h1, h2⟩
  · left
    have h3 : 2 ^ mb * (D * 2 ^ s) ≤ N := (Nat.mul_le_mul_right _ h0).trans h.lo
    generalize mag mb (rne mb N D) * D = r at *
    generalize D * 2 ^ s = T at *
    have e : ∀ k, 2 ^ (mb + 1) * k = 2 ^ mb * (2 * k) := fun k => by rw [pow_succ]; ring
    have f1 := Nat.mul_le_mul_left (2 ^ mb) h1
    have f2 := Nat.mul_le_mul_left (2 ^ mb) h2
    rw [Nat.mul_add] at f1 f2
    rw [e, e]
    omega

theorem mag_two_pow (mb k : Nat) : mag mb ((k + 1) * 2 ^ mb) = 2 ^ (mb + k) := by
  rw [Nat.add_mul, Nat.one_mul, mag_decomp mb (by rw [pow_succ]; omega) (.inr le_rfl), pow_add]

namespace Fmt
variable {w : Nat} (F : Fmt w)

/-- Unit roundoff. -/
noncomputable def u : ℝ := 1 / 2 ^ (F.mb + 1)
/-- Half the smallest positive number. -/
noncomputable def eta : ℝ := 1 / 2 ^ (F.scale + 1)

theorem u_pos : 0 < F.u := by unfold u; positivity
theorem eta_pos : 0 < F.eta := by unfold eta; positivity
theorem u32 : binary32.u = 1 / 2 ^ 24 := rfl
theorem eta32 : binary32.eta = 1 / 2 ^ 150 := by
  unfold eta; rw [show binary32.scale = 149 by decide]
theorem u64 : binary64.u = 1 / 2 ^ 53 := rfl
theorem eta64 : binary64.eta = 1 / 2 ^ 1075 := by
  unfold eta; rw [show binary64.scale = 1074 by decide]

/-- `r` is a finite pattern whose value is the real number `v` up to rounding. -/
def Near (v : ℝ) (r : BitVec w) : Prop :=
  F.isFinite r = true ∧ |F.toReal r - v| ≤ max (F.u * |v|) F.eta

/-- … without underflow. -/
def NearRel (v : ℝ) (r : BitVec w) : Prop :=
  F.isFinite r = true ∧ |F.toReal r - v| ≤ F.u * |v|

theorem NearRel.near {F : Fmt w} {v : ℝ} {r : BitVec w} (h : F.NearRel v r) : F.Near v r :=
  ⟨h.1, h.2.trans (le_max_left _ _)⟩

theorem bias_pos : 1 ≤ F.bias := by
  unfold bias
  have h := F.heb
  have : 2 ^ 1 ≤ 2 ^ (F.eb - 1) := Nat.pow_le_pow_right (by decide) (by omega)
  omega

/-- Values up to `2 ^ bias` do not overflow. -/
theorem rne_lt_infCode {N D : Nat} (hD : 0 < D) (h : N ≤ 2 ^ F.bias * 2 ^ F.scale * D) :
    rne F.mb N D < F.infCode := by
  have hb := F.bias_pos
  have h2 : 2 * F.bias + 2 = 2 ^ F.eb := by
    unfold bias
    have h := F.heb
    have e : 2 ^ F.eb = 2 * 2 ^ (F.eb - 1) := by
      rw [← pow_succ']; congr 1; omega
    have : 0 < 2 ^ (F.eb - 1) := Nat.two_pow_pos _
    omega
  have hm : mag F.mb ((2 * F.bias - 1 + 1) * 2 ^ F.mb) = 2 ^ F.bias * 2 ^ F.scale := by
    rw [mag_two_pow, ← pow_add]; congr 1; unfold scale; have := F.hmb; omega
  have h1 : rne F.mb N D ≤ (2 * F.bias - 1 + 1) * 2 ^ F.mb := rne_le hD (by rw [hm]; exact h)
  refine lt_of_le_of_lt h1 ?_
  unfold infCode
  exact Nat.mul_lt_mul_of_pos_right (by omega) (Nat.two_pow_pos _)

/-- The value of a rounded quotient. -/
theorem packRnd_near (s : Bool) {N D : Nat} (hD : 0 < D)
    (h : (N : ℝ) / D / 2 ^ F.scale ≤ 2 ^ F.bias) :
    F.Near ((if s then -1 else 1) * ((N : ℝ) / D / 2 ^ F.scale)) (F.packRnd s N D) := by
  have hD' : (0 : ℝ) < D := by exact_mod_cast hD
  have hS : (0 : ℝ) < 2 ^ F.scale := by positivity
  have hN : N ≤ 2 ^ F.bias * 2 ^ F.scale * D := by
    rw [div_le_iff₀ hS, div_le_iff₀ hD'] at h
    exact_mod_cast h
  have hlt := F.rne_lt_infCode hD hN
  unfold packRnd
  rw [Nat.min_eq_right hlt.le]
  refine ⟨F.isFinite_pack _ hlt, ?_⟩
  rw [F.toReal_pack _ hlt, ← mul_sub, abs_mul, abs_mul]
  have hs : |(if s then -1 else 1 : ℝ)| = 1 := by cases s <;> simp
  rw [hs, one_mul, one_mul]
  have hv : (0 : ℝ) ≤ (N : ℝ) / D / 2 ^ F.scale := by positivity
  rw [abs_of_nonneg hv]
  have hP : (0 : ℝ) < 2 ^ (F.mb + 1) := by positivity
  rcases rne_error F.mb N hD with ⟨h1, h2⟩ | ⟨h1, h2⟩
  · refine le_trans ?_ (le_max_left _ _)
    have h1' : (2 : ℝ) ^ (F.mb + 1) * (mag F.mb (rne F.mb N D) * D) ≤ 2 ^ (F.mb + 1) * N + N := by
      exact_mod_cast h1
    have h2' : (2 : ℝ) ^ (F.mb + 1) * N ≤ 2 ^ (F.mb + 1) * (mag F.mb (rne F.mb N D) * D) + N := by
      exact_mod_cast h2
    generalize (mag F.mb (rne F.mb N D) : ℝ) = r at *
    have e : r / 2 ^ F.scale - (N : ℝ) / D / 2 ^ F.scale = (r * D - N) / (D * 2 ^ F.scale) := by
      field_simp
    have e2 : F.u * ((N : ℝ) / D / 2 ^ F.scale) = (N / 2 ^ (F.mb + 1)) / (D * 2 ^ F.scale) := by
      unfold u; field_simp
    rw [e, e2, abs_div, abs_of_pos (mul_pos hD' hS)]
    apply div_le_div_of_nonneg_right _ (mul_pos hD' hS).le
    rw [le_div_iff₀ hP, ← abs_of_pos hP, ← abs_mul, abs_le]
    constructor <;> linarith
  · refine le_trans ?_ (le_max_right _ _)
    have h1' : (2 : ℝ) * (mag F.mb (rne F.mb N D) * D) ≤ 2 * N + D := by exact_mod_cast h1
    have h2' : (2 : ℝ) * N ≤ 2 * (mag F.mb (rne F.mb N D) * D) + D := by exact_mod_cast h2
    generalize (mag F.mb (rne F.mb N D) : ℝ) = r at *
    have e : r / 2 ^ F.scale - (N : ℝ) / D / 2 ^ F.scale = (r * D - N) / (D * 2 ^ F.scale) := by
      field_simp
    have e2 : F.eta = (D / 2) / (D * 2 ^ F.scale) := by
      unfold eta; rw [pow_succ]; field_simp
    rw [e, e2, abs_div, abs_of_pos (mul_pos hD' hS)]
    apply div_le_div_of_nonneg_right _ (mul_pos hD' hS).le
    rw [abs_le]
    constructor <;> linarith

/-- Integral numbers of units: no underflow. -/
theorem packRnd_nearRel (s : Bool) {N : Nat} (h : (N : ℝ) / 2 ^ F.scale ≤ 2 ^ F.bias) :
    F.NearRel ((if s then -1 else 1) * ((N : ℝ) / 2 ^ F.scale)) (F.packRnd s N 1) := by
  have hS : (0 : ℝ) < 2 ^ F.scale := by positivity
  have hN : N ≤ 2 ^ F.bias * 2 ^ F.scale * 1 := by
    rw [div_le_iff₀ hS] at h
    rw [Nat.mul_one]; exact_mod_cast h
  have hlt := F.rne_lt_infCode (by decide) hN
  unfold packRnd
  rw [Nat.min_eq_right hlt.le]
  refine ⟨F.isFinite_pack _ hlt, ?_⟩
  rw [F.toReal_pack _ hlt, ← mul_sub, abs_mul, abs_mul]
  have hs : |(if s then -1 else 1 : ℝ)| = 1 := by cases s <;> simp
  rw [hs, one_mul, one_mul]
  have hv : (0 : ℝ) ≤ (N : ℝ) / 2 ^ F.scale := by positivity
  rw [abs_of_nonneg hv]
  have hP : (0 : ℝ) < 2 ^ (F.mb + 1) := by positivity
  have e2 : F.u * ((N : ℝ) / 2 ^ F.scale) = (N / 2 ^ (F.mb + 1)) / 2 ^ F.scale := by
    unfold u; field_simp
  rw [← sub_div, e2, abs_div, abs_of_pos hS]
  apply div_le_div_of_nonneg_right _ hS.le
  rw [le_div_iff₀ hP, ← abs_of_pos hP, ← abs_mul, abs_le]
  rcases rne_error F.mb N (D := 1) (by decide) with ⟨h1, h2⟩ | ⟨h1, h2⟩
  · rw [Nat.mul_one] at h1 h2
    have h1' : (2 : ℝ) ^ (F.mb + 1) * mag F.mb (rne F.mb N 1) ≤ 2 ^ (F.mb + 1) * N + N := by
      exact_mod_cast h1
    have h2' : (2 : ℝ) ^ (F.mb + 1) * N ≤ 2 ^ (F.mb + 1) * mag F.mb (rne F.mb N 1) + N := by
      exact_mod_cast h2
    constructor <;> linarith
  · have : mag F.mb (rne F.mb N 1) = N := by omega
    rw [this, sub_self, zero_mul]
    constructor
    · linarith [Nat.cast_nonneg (α := ℝ) N]
    · exact Nat.cast_nonneg N

variable {F}

/-- `x + y` -/
theorem add_near {x y : BitVec w} (hx : F.isFinite x = true) (hy : F.isFinite y = true)
    (h : |F.toReal x + F.toReal y| ≤ 2 ^ F.bias) :
    F.NearRel (F.toReal x + F.toReal y) (F.add x y) := by
  have hS : (0 : ℝ) < 2 ^ F.scale := by positivity
  rw [F.add_finite hx hy]
  have hv : F.toReal x + F.toReal y = ((F.units x + F.units y : ℤ) : ℝ) / 2 ^ F.scale := by
    unfold toReal; push_cast; ring
  rw [hv] at h ⊢
  by_cases h0 : F.units x + F.units y = 0
  · rw [if_pos h0, h0]
    refine ⟨F.isFinite_pack _ F.infCode_pos, ?_⟩
    rw [F.toReal_pack _ F.infCode_pos, mag_zero]; simp
  · rw [if_neg h0]
    generalize F.units x + F.units y = k at *
    have hn : ((k.natAbs : ℕ) : ℝ) = |(k : ℝ)| := by
      rw [← Int.cast_abs, ← Int.natCast_natAbs]; rfl
    rw [abs_div, abs_of_pos hS, ← hn] at h
    have := F.packRnd_nearRel (decide (k < 0)) h
    have e : (if decide (k < 0) = true then -1 else 1 : ℝ) * ((k.natAbs : ℝ) / 2 ^ F.scale) =
        (k : ℝ) / 2 ^ F.scale := by
      rw [hn]
      by_cases hk : k < 0
      · rw [decide_eq_true hk, if_pos rfl, abs_of_neg (by exact_mod_cast hk)]; ring
      · rw [decide_eq_false hk, if_neg (by decide), abs_of_nonneg (by exact_mod_cast not_lt.mp hk)]; ring
    rw [e] at this; exact this

/-- `x - y` -/
theorem sub_near {x y : BitVec w} (hx : F.isFinite x = true) (hy : F.isFinite y = true)
    (h : |F.toReal x - F.toReal y| ≤ 2 ^ F.bias) :
    F.NearRel (F.toReal x - F.toReal y) (F.sub x y) := by
  rw [F.sub_num (F.isFinite_not_nan hx) (F.isFinite_not_nan hy)]
  have := add_near (F := F) (x := x) (y := F.negate y) hx (by simpa using hy)
  rw [F.toReal_negate, ← sub_eq_add_neg] at this
  exact this h

theorem sign_xor_mul (a b : Bool) (p q : ℝ) :
    ((if a then -1 else 1) * p) * ((if b then -1 else 1) * q) = (if (a != b) then -1 else 1) * (p * q) := by
  cases a <;> cases b <;> simp

/-- `x * y` -/
theorem mul_near {x y : BitVec w} (hx : F.isFinite x = true) (hy : F.isFinite y = true)
    (h : |F.toReal x * F.toReal y| ≤ 2 ^ F.bias) :
    F.Near (F.toReal x * F.toReal y) (F.mul x y) := by
  rw [F.mul_finite hx hy]
  rw [F.toReal_eq x, F.toReal_eq y, sign_xor_mul] at h ⊢
  have e : (mag F.mb (F.code x) : ℝ) / 2 ^ F.scale * (mag F.mb (F.code y) / 2 ^ F.scale) =
      ((mag F.mb (F.code x) * mag F.mb (F.code y) : ℕ) : ℝ) / ((2 ^ F.scale : ℕ) : ℝ) / 2 ^ F.scale := by
    push_cast; field_simp
  rw [e] at h ⊢
  apply F.packRnd_near _ (Nat.two_pow_pos _)
  rw [abs_mul] at h
  have hs : ∀ s : Bool, |(if s then -1 else 1 : ℝ)| = 1 := fun s => by cases s <;> simp
  rw [hs, one_mul, abs_of_nonneg (by positivity)] at h
  exact h

/-- `x / y` -/
theorem div_near {x y : BitVec w} (hx : F.isFinite x = true) (hy : F.isFinite y = true)
    (h0 : F.toReal y ≠ 0) (h : |F.toReal x / F.toReal y| ≤ 2 ^ F.bias) :
    F.Near (F.toReal x / F.toReal y) (F.div x y) := by
  have hc : F.code y ≠ 0 := by
    intro hc; apply h0; rw [F.toReal_eq, hc, mag_zero]; simp
  have hm : 0 < mag F.mb (F.code y) := mag_pos.mpr (Nat.pos_of_ne_zero hc)
  have hm' : (0 : ℝ) < mag F.mb (F.code y) := by exact_mod_cast hm
  rw [F.div_finite hx hy hc]
  have e : F.toReal x / F.toReal y = (if (F.neg x != F.neg y) then -1 else 1) *
      (((mag F.mb (F.code x) * 2 ^ F.scale : ℕ) : ℝ) / (mag F.mb (F.code y) : ℕ) / 2 ^ F.scale) := by
    rw [F.toReal_eq x, F.toReal_eq y]
    cases F.neg x <;> cases F.neg y <;> simp <;> field_simp
  rw [e] at h ⊢
  apply F.packRnd_near _ hm
  rw [abs_mul] at h
  have hs : ∀ s : Bool, |(if s then -1 else 1 : ℝ)| = 1 := fun s => by cases s <;> simp
  rw [hs, one_mul, abs_of_nonneg (by positivity)] at h
  exact h

/-- `x * y + z` in one step -/
theorem fma_near {x y z : BitVec w} (hx : F.isFinite x = true) (hy : F.isFinite y = true)
    (hz : F.isFinite z = true) (h : |F.toReal x * F.toReal y + F.toReal z| ≤ 2 ^ F.bias) :
    F.Near (F.toReal x * F.toReal y + F.toReal z) (F.fma x y z) := by
  have hS : (0 : ℝ) < 2 ^ F.scale := by positivity
  unfold fma
  rw [F.isFinite_not_nan hx, F.isFinite_not_nan hy, F.isFinite_not_nan hz, F.isFinite_not_inf hx,
    F.isFinite_not_inf hy, F.isFinite_not_inf hz]
  simp only [Bool.or_self, Bool.false_eq_true, if_false]
  have hv : F.toReal x * F.toReal y + F.toReal z =
      ((F.units x * F.units y + F.units z * 2 ^ F.scale : ℤ) : ℝ) / ((2 ^ F.scale : ℕ) : ℝ) / 2 ^ F.scale := by
    unfold toReal; push_cast; field_simp
  rw [hv] at h ⊢
  by_cases h0 : F.units x * F.units y + F.units z * 2 ^ F.scale = 0
  · rw [if_pos h0, h0]
    refine ⟨F.isFinite_pack _ F.infCode_pos, ?_⟩
    rw [F.toReal_pack _ F.infCode_pos, mag_zero]; simp [F.eta_pos.le]
  · rw [if_neg h0]
    generalize F.units x * F.units y + F.units z * 2 ^ F.scale = k at *
    have hn : ((k.natAbs : ℕ) : ℝ) = |(k : ℝ)| := by
      rw [← Int.cast_abs, ← Int.natCast_natAbs]; rfl
    rw [abs_div, abs_div, abs_of_pos hS, abs_of_pos (show (0 : ℝ) < ((2 ^ F.scale : ℕ) : ℝ) by positivity), ← hn] at h
    have := F.packRnd_near (decide (k < 0)) (Nat.two_pow_pos _) h
    have e : (if decide (k < 0) = true then -1 else 1 : ℝ) *
        ((k.natAbs : ℝ) / ((2 ^ F.scale : ℕ) : ℝ) / 2 ^ F.scale) =
        (k : ℝ) / ((2 ^ F.scale : ℕ) : ℝ) / 2 ^ F.scale := by
      rw [hn]
      by_cases hk : k < 0
      · rw [decide_eq_true hk, if_pos rfl, abs_of_neg (by exact_mod_cast hk)]; ring
      · rw [decide_eq_false hk, if_neg (by decide), abs_of_nonneg (by exact_mod_cast not_lt.mp hk)]; ring
    rw [e] at this; exact this

end Fmt
end Nova.FP
