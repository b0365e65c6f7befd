import Verif.Float.Convert
import Verif.Laws
import Verif.Model.Builds
import Verif.SpecFloat

/-!
# C14: ramps of `double` arguments

`simdRampReg I base slope j l` (Laws.lean) is lane `l` of a ramp argument in iteration `j` of a SIMD loop
(that the loops use these values is C02 … C04).
-/

namespace Nova
open FP

/-- `set_slope` returns the increment to the next vector, computed in `double`. -/
def rampStep (b : Build64) (P : Platform 64) (base slope : BitVec 64) : BitVec 64 :=
  ((b.vec P).setSlope base slope).2

/-- The increment that is used is the one computed in `double`, rounded to `float`. -/
theorem C14_exact (b : Build64) (P : Platform 64) (base slope : BitVec 64) (j : Nat)
    (l : Fin (b.vec P).size) :
    simdRampReg (b.vec P) base slope (j + 1) l =
      binary64.add (simdRampReg (b.vec P) base slope j l) (widen (narrow (rampStep b P base slope))) := by
  cases b <;> rfl

/-- So the increment has a relative error of 2^-24 instead of 2^-53, and an absolute error of 2^-150. -/
theorem C14_error_partial (b : Build64) (P : Platform 64) (base slope : BitVec 64)
    (hf : IsFin binary64 (rampStep b P base slope))
    (hr : |binary64.toReal (rampStep b P base slope)| ≤ 2 ^ 127) :
    ∃ inc, IsFin binary64 inc ∧
      |binary64.toReal inc - binary64.toReal (rampStep b P base slope)| ≤
        max (|binary64.toReal (rampStep b P base slope)| / 2 ^ 24) (1 / 2 ^ 150) ∧
      ∀ j l, simdRampReg (b.vec P) base slope (j + 1) l =
        binary64.add (simdRampReg (b.vec P) base slope j l) inc := by
  have hn := narrow_near hf hr
  have hw := widen_value hn.1
  refine ⟨_, hw.1, ?_, C14_exact b P base slope⟩
  rw [hw.2]
  refine hn.2.trans (le_of_eq ?_)
  rw [Fmt.u32, Fmt.eta32]; congr 1; ring

/-- If the increment is a `float` value, nothing is lost. -/
theorem C14_float_slope_partial (b : Build64) (P : Platform 64) (base slope : BitVec 64) (s : BitVec 32)
    (hs : IsFin binary32 s) (h : rampStep b P base slope = widen s) (j : Nat) (l : Fin (b.vec P).size) :
    simdRampReg (b.vec P) base slope (j + 1) l =
      binary64.add (simdRampReg (b.vec P) base slope j l) (rampStep b P base slope) := by
  rw [C14_exact, h, narrow_widen hs]

/-- the platform is irrelevant -/
theorem rampStep_eq (b : Build64) (P : Platform 64) (base slope : BitVec 64) :
    rampStep b P base slope =
      match b with
      | .generic => binary64.add (binary64.add (binary64.add (binary64.add binary64.posZero slope) slope) slope) slope
      | .sse2 _ _ => binary64.add slope slope
      | .avx _ => binary64.add (binary64.add (binary64.add slope slope) slope) slope := by
  cases b <;> rfl

/-- slope 1.5 -/
example (b : Build64) (P : Platform 64) : ∃ s, IsFin binary32 s ∧ rampStep b P 0 0x3ff8000000000000#64 = widen s := by
  rw [rampStep_eq]
  cases b with
  | sse2 a f => exact ⟨0x40400000#32, by decide, by dsimp only; decide +kernel⟩
  | generic => exact ⟨0x40c00000#32, by decide, by dsimp only; decide +kernel⟩
  | avx f => exact ⟨0x40c00000#32, by decide, by dsimp only; decide +kernel⟩

/-- the first element -/
theorem ramp_start (b : Build64) (P : Platform 64) (base slope : BitVec 64) (l : Fin (b.vec P).size)
    (hl : l.val = 0) :
    simdRampReg (b.vec P) base slope 0 l =
      match b with
      | .generic => binary64.add base binary64.posZero
      | _ => base := by
  obtain ⟨l, h⟩ := l
  change l = 0 at hl
  subst hl
  cases b <;> rfl

theorem mul_toReal_iff {w : Nat} (F : Fmt w) (x y : BitVec w) (k : Nat) :
    F.toReal x = k * F.toReal y ↔ F.units x = k * F.units y := by
  unfold Fmt.toReal
  have h : (2 : ℝ) ^ F.scale ≠ 0 := by positivity
  rw [mul_div_assoc', div_left_inj' h]
  exact_mod_cast Iff.rfl

/-- C14 is false of the code.  With base 0 and slope 0.1 the second vector of the ramp starts with
`(float)(size*0.1)`, not with `size*0.1`, although the increment computed by `set_slope` is right. -/
theorem C14_negation (b : Build64) (P : Platform 64) (l : Fin (b.vec P).size) (hl : l.val = 0) :
    binary64.toReal (rampStep b P 0 0x3fb999999999999a#64) =
      (b.vec P).size * binary64.toReal 0x3fb999999999999a#64 ∧
    binary64.toReal (simdRampReg (b.vec P) 0 0x3fb999999999999a#64 1 l) ≠
      (b.vec P).size * binary64.toReal 0x3fb999999999999a#64 := by
  have hs : (b.vec P).size = match b with | .sse2 _ _ => 2 | _ => 4 := by cases b <;> rfl
  rw [C14_exact, ramp_start b P _ _ l hl, rampStep_eq, hs, Ne, mul_toReal_iff, mul_toReal_iff]
  cases b <;> dsimp only <;> decide +kernel

end Nova
