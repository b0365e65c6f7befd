import Verif.SpecSums

/-!
# Fades: a signal times a gain that changes linearly

`d` counts the roundings on the way from an argument to the result, `e` is an error of the gain itself.
-/

namespace Nova.Spec
open FP

/-- `v` is a number of the format. -/
def Representable {w : Nat} (F : Fmt w) (v : ℝ) : Prop := ∃ r : BitVec w, IsFin F r ∧ F.toReal r = v

/-- The values of the ramp and the multiples of its slope, up to the `n`-th, are numbers of the format. -/
def RampRepresentable {w : Nat} (F : Fmt w) (base slope : ℝ) (n : ℕ) : Prop :=
  ∀ k : ℕ, k ≤ n → Representable F (base + k * slope) ∧ Representable F (k * slope)

/-- `r` is `x * (base + i * slope)`, computed with at most `d` roundings. -/
def IsFade {w : Nat} (F : Fmt w) (d : ℕ) (x base slope : ℝ) (i : ℕ) (e : ℝ) (r : BitVec w) : Prop :=
  IsFin F r ∧ |F.toReal r - x * (base + i * slope)| ≤
    ((1 + F.u) ^ d - 1) * (|x| * (|base| + i * |slope|)) + (1 + F.u) ^ d * (|x| * e + F.eta)

/-- The ramp and the product are in range (`2 ^ 127` for `float`). -/
def FadeOk {w : Nat} (F : Fmt w) (d : ℕ) (x base slope : ℝ) (i : ℕ) (e : ℝ) : Prop :=
  RampOk F d base slope i e ∧ (1 + F.u) ^ d * (|x| * (|base| + i * |slope| + e)) ≤ 2 ^ F.bias

/-- `r` is `x * (base + i * slope) + x' * (base' + i * slope')`, computed with at most `d` roundings. -/
def IsCrossfade {w : Nat} (F : Fmt w) (d : ℕ) (x base slope x' base' slope' : ℝ) (i : ℕ) (e e' : ℝ) (r : BitVec w) :
    Prop :=
  IsFin F r ∧ |F.toReal r - (x * (base + i * slope) + x' * (base' + i * slope'))| ≤
    ((1 + F.u) ^ d - 1) * (|x| * (|base| + i * |slope|) + |x'| * (|base'| + i * |slope'|)) +
      (1 + F.u) ^ d * (|x| * e + |x'| * e' + 2 * F.eta)

/-- Both ramps, both products and the sum are in range. -/
def CrossfadeOk {w : Nat} (F : Fmt w) (d : ℕ) (x base slope x' base' slope' : ℝ) (i : ℕ) (e e' : ℝ) : Prop :=
  RampOk F d base slope i e ∧ RampOk F d base' slope' i e' ∧
  (1 + F.u) ^ d * (|x| * (|base| + i * |slope| + e) + |x'| * (|base'| + i * |slope'| + e') + 2 * F.eta) ≤ 2 ^ F.bias

end Nova.Spec
