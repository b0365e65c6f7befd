import Verif.SpecSums
import Verif.Model.Functors

/-!
# The tolerance of a mix

`u` is the unit roundoff (2^-24 for `float`, 2^-53 for `double`), `eta` half the smallest positive number.  A mix of terms is
the exact value of a formula, the sum of the magnitudes of its terms, the largest number of roundings which a term goes
through, and the sum of the errors of products which are too small for the format.
-/

namespace Nova.Spec
open FP

structure Mix where
  value : ℝ
  magnitude : ℝ
  roundings : ℕ
  underflow : ℝ

variable {w : Nat} (F : Fmt w)

/-- `r` is a computed value of the mix: a term which goes through `d` roundings is multiplied by at most `(1 + u) ^ d`. -/
def Mix.Accurate (M : Mix) (r : BitVec w) : Prop :=
  IsFin F r ∧ |F.toReal r - M.value| ≤
    ((1 + F.u) ^ M.roundings - 1) * M.magnitude + (1 + F.u) ^ M.roundings * M.underflow

/-- The mix is in range (`2 ^ 127` for `float`). -/
def Mix.Fits (M : Mix) : Prop := (1 + F.u) ^ M.roundings * (M.magnitude + M.underflow) ≤ 2 ^ F.bias

/-- `1 + modulator * amount` -/
noncomputable def gain (modulator amount : ℝ) : Mix := ⟨1 + modulator * amount, 1 + |modulator * amount|, 2, F.eta⟩

/-- What the functions of three arguments compute; `clip` does no arithmetic. -/
noncomputable def terMix : TerOp → ℝ → ℝ → ℝ → Option Mix
  | .muladd, x, y, z => some ⟨x * y + z, |x * y| + |z|, 2, F.eta⟩
  | .ampmod, x, m, a => some ⟨x * (1 + m * a), |x| * (1 + |m * a|), 3, (|x| + 1) * F.eta⟩
  | .sum, x, y, z => some ⟨x + y + z, |x| + |y| + |z|, 2, 0⟩
  | .clip, _, _, _ => none

/-- What the functions of four arguments compute. -/
noncomputable def quadMix : QuadOp → ℝ → ℝ → ℝ → ℝ → Mix
  | .mix, x, f, y, g => ⟨x * f + y * g, |x * f| + |y * g|, 2, 2 * F.eta⟩
  | .sum, a, b, c, d => ⟨a + b + c + d, |a| + |b| + |c| + |d|, 2, 0⟩

/-- Nothing overflows; in `ampmod` the gain has to be in range too. -/
def TerFits (op : TerOp) (x y z : ℝ) (M : Mix) : Prop := M.Fits F ∧ (op = .ampmod → (gain F y z).Fits F)

end Nova.Spec
