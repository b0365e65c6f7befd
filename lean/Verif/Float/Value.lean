import Mathlib.Data.EReal.Basic
import Mathlib.Tactic.NormNum
import Mathlib.Tactic.Positivity
import Verif.Float.Bits

/-!
# The real value of a bit pattern

`toReal` is the value of a finite number, `toEReal` the value of a number (finite or infinite).
-/

namespace Nova.FP.Fmt
variable {w : Nat} (F : Fmt w)

/-- The value of a finite number: its units divided by the units of 1.0. -/
noncomputable def toReal (x : BitVec w) : ℝ := (F.units x : ℝ) / 2 ^ F.scale

/-- The value of a number in the extended reals. -/
noncomputable def toEReal (x : BitVec w) : EReal :=
  if F.isInf x then (if F.neg x then ⊥ else ⊤) else (F.toReal x : EReal)

theorem toReal_lt_iff (x y : BitVec w) : F.toReal x < F.toReal y ↔ F.units x < F.units y := by
  unfold toReal
  have h : (0 : ℝ) < 2 ^ F.scale := by positivity
  rw [div_lt_div_iff_of_pos_right h, Int.cast_lt]

theorem toReal_eq_iff (x y : BitVec w) : F.toReal x = F.toReal y ↔ F.units x = F.units y := by
  unfold toReal
  have h : (2 : ℝ) ^ F.scale ≠ 0 := by positivity
  rw [div_left_inj' h, Int.cast_inj]

theorem key_lt_iff_value {x y : BitVec w} (hx : F.isNaN x = false) (hy : F.isNaN y = false) :
    F.key x < F.key y ↔ F.toEReal x < F.toEReal y := by
  unfold toEReal
  simp only [isNaN, decide_eq_false_iff_not, not_lt] at hx hy
  have hp := F.infCode_pos
  by_cases hxi : F.isInf x = true <;> by_cases hyi : F.isInf y = true
  · have h1 : F.code x = F.infCode := by simpa [isInf] using hxi
    have h2 : F.code y = F.infCode := by simpa [isInf] using hyi
    rw [if_pos hxi, if_pos hyi]
    unfold key
    rw [h1, h2]
    cases F.neg x <;> cases F.neg y <;> (simp; try omega)
  · have h1 : F.code x = F.infCode := by simpa [isInf] using hxi
    have h2 : F.code y ≠ F.infCode := by simpa [isInf] using hyi
    rw [if_pos hxi, if_neg hyi]
    unfold key
    cases F.neg x <;> cases F.neg y <;> simp [EReal.bot_lt_coe] <;> omega
  · have h1 : F.code x ≠ F.infCode := by simpa [isInf] using hxi
    have h2 : F.code y = F.infCode := by simpa [isInf] using hyi
    rw [if_neg hxi, if_pos hyi]
    unfold key
    cases F.neg x <;> cases F.neg y <;> simp [EReal.coe_lt_top] <;> omega
  · rw [if_neg hxi, if_neg hyi, EReal.coe_lt_coe_iff, F.toReal_lt_iff, F.key_lt_iff_units]

theorem key_le_iff_value {x y : BitVec w} (hx : F.isNaN x = false) (hy : F.isNaN y = false) :
    F.key x ≤ F.key y ↔ F.toEReal x ≤ F.toEReal y := by
  rw [← not_lt, ← not_lt, F.key_lt_iff_value hy hx]

theorem key_eq_iff_value {x y : BitVec w} (hx : F.isNaN x = false) (hy : F.isNaN y = false) :
    F.key x = F.key y ↔ F.toEReal x = F.toEReal y := by
  rw [le_antisymm_iff, le_antisymm_iff, F.key_le_iff_value hx hy, F.key_le_iff_value hy hx]

/-- `<` of the processor is `<` of the values and false on NaN. -/
theorem ltb_iff_value {x y : BitVec w} :
    F.ltb x y = true ↔ F.isNaN x = false ∧ F.isNaN y = false ∧ F.toEReal x < F.toEReal y := by
  rw [F.ltb_iff]
  constructor
  · rintro ⟨a, b, c⟩; exact ⟨a, b, (F.key_lt_iff_value a b).mp c⟩
  · rintro ⟨a, b, c⟩; exact ⟨a, b, (F.key_lt_iff_value a b).mpr c⟩

theorem leb_iff_value {x y : BitVec w} :
    F.leb x y = true ↔ F.isNaN x = false ∧ F.isNaN y = false ∧ F.toEReal x ≤ F.toEReal y := by
  rw [F.leb_iff]
  constructor
  · rintro ⟨a, b, c⟩; exact ⟨a, b, (F.key_le_iff_value a b).mp c⟩
  · rintro ⟨a, b, c⟩; exact ⟨a, b, (F.key_le_iff_value a b).mpr c⟩

theorem eqb_iff_value {x y : BitVec w} :
    F.eqb x y = true ↔ F.isNaN x = false ∧ F.isNaN y = false ∧ F.toEReal x = F.toEReal y := by
  rw [F.eqb_iff]
  constructor
  · rintro ⟨a, b, c⟩; exact ⟨a, b, (F.key_eq_iff_value a b).mp c⟩
  · rintro ⟨a, b, c⟩; exact ⟨a, b, (F.key_eq_iff_value a b).mpr c⟩

theorem toEReal_of_finite {x : BitVec w} (h : F.isFinite x = true) : F.toEReal x = F.toReal x := by
  unfold toEReal; rw [F.isFinite_not_inf h]; simp

theorem toReal_negate (x : BitVec w) : F.toReal (F.negate x) = -F.toReal x := by
  unfold toReal; rw [F.units_negate]; push_cast; ring

theorem toReal_nonneg {x : BitVec w} (h : F.neg x = false) : 0 ≤ F.toReal x := by
  unfold toReal units; rw [h]; simp; positivity

theorem toReal_nonpos {x : BitVec w} (h : F.neg x = true) : F.toReal x ≤ 0 := by
  have := F.toReal_nonneg (x := F.negate x) (by simp [h])
  rw [F.toReal_negate] at this; linarith

theorem toReal_fabs (x : BitVec w) : F.toReal (F.fabs x) = |F.toReal x| := by
  cases h : F.neg x
  · rw [F.fabs_eq_self h, abs_of_nonneg (F.toReal_nonneg h)]
  · rw [F.fabs_eq_negate h, F.toReal_negate, abs_of_nonpos (F.toReal_nonpos h)]

@[simp] theorem toEReal_posZero : F.toEReal F.posZero = 0 := by
  have h : F.isInf F.posZero = false := by
    have := F.infCode_pos
    simp [isInf]; omega
  unfold toEReal toReal units
  rw [h]
  simp [mag_zero]

theorem key_pos_iff {x : BitVec w} (h : F.isNaN x = false) : 0 < F.key x ↔ 0 < F.toEReal x := by
  have := F.key_lt_iff_value F.isNaN_posZero h
  simpa using this

theorem key_neg_iff {x : BitVec w} (h : F.isNaN x = false) : F.key x < 0 ↔ F.toEReal x < 0 := by
  have := F.key_lt_iff_value h F.isNaN_posZero
  simpa using this

theorem key_zero_iff {x : BitVec w} (h : F.isNaN x = false) : F.key x = 0 ↔ F.toEReal x = 0 := by
  have := F.key_eq_iff_value h F.isNaN_posZero
  simpa using this

end Nova.FP.Fmt
