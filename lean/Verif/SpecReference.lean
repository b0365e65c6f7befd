import Verif.SpecExact
import Verif.SpecNaN

/-!
# Reference points

Arguments at which a function has a simple value that the user expects without any error: silence, unity gain, 0 dB, the
concert pitch (midi note 69 and octave 4.75 are 440 Hz).  Functions of the C library are assumed to be exact there
(`Libm.Reference`; C99 annex F.9 requires it of zeros, of the logarithms of 1 and of powers).
-/

namespace Nova
open FP

/-- The functions of the C library are exact at their reference points. -/
structure Libm.Reference {w : Nat} (F : Fmt w) (M : Libm w) : Prop where
  sin : ∀ x, Spec.Exactly F x 0 → Spec.Exactly F (M.sin x) 0
  cos : ∀ x, Spec.Exactly F x 0 → Spec.Exactly F (M.cos x) 1
  tan : ∀ x, Spec.Exactly F x 0 → Spec.Exactly F (M.tan x) 0
  asin : ∀ x, Spec.Exactly F x 0 → Spec.Exactly F (M.asin x) 0
  acos : ∀ x, Spec.Exactly F x 1 → Spec.Exactly F (M.acos x) 0
  atan : ∀ x, Spec.Exactly F x 0 → Spec.Exactly F (M.atan x) 0
  tanh : ∀ x, Spec.Exactly F x 0 → Spec.Exactly F (M.tanh x) 0
  exp : ∀ x, Spec.Exactly F x 0 → Spec.Exactly F (M.exp x) 1
  log : ∀ x, Spec.Exactly F x 1 → Spec.Exactly F (M.log x) 0
  log2 : ∀ x, Spec.Exactly F x 1 → Spec.Exactly F (M.log2 x) 0
  log10 : ∀ x, Spec.Exactly F x 1 → Spec.Exactly F (M.log10 x) 0
  pow_zero : ∀ x y, Spec.Exactly F y 0 → Spec.Exactly F (M.pow x y) 1
  one_pow : ∀ x y, Spec.Exactly F x 1 → Spec.Exactly F (M.pow x y) 1

namespace Spec

/-- `a` is a reference point of the function, with the value `v`. -/
def UnReference : UnOp → ℝ → ℝ → Prop
  | .sin, a, v | .tan, a, v | .asin, a, v | .atan, a, v | .tanh, a, v => a = 0 ∧ v = 0
  | .cos, a, v | .exp, a, v => a = 0 ∧ v = 1
  | .acos, a, v | .log, a, v | .log2, a, v | .log10, a, v | .ratio2midi, a, v => a = 1 ∧ v = 0
  | .amp2db, a, v => |a| = 1 ∧ v = 0
  | .midi2ratio, a, v | .db2amp, a, v => a = 0 ∧ v = 1
  | .midi2freq, a, v => a = 69 ∧ v = 440
  | .oct2freq, a, v => a = 4.75 ∧ v = 440
  | _, _, _ => False

/-- Powers with the exponent zero, and of one.  `zero`: the power of a zero base counts as well. -/
def BinReference (zero : Bool) : BinOp → ℝ → ℝ → ℝ → Prop
  | .pow, a, b, v => (b = 0 ∧ (a = 0 → zero = true) ∨ a = 1) ∧ v = 1
  | .spow, a, b, v => (b = 0 ∧ a ≠ 0 ∨ |a| = 1) ∧ v = sgn a
  | _, _, _, _ => False

end Spec
end Nova
