import Verif.Float.Track
import Mathlib.Analysis.Real.Sqrt

/-!
# Specification: square roots from an estimate

NEON and AltiVec have no square root instruction.  They have an estimate of the reciprocal of the square root
(`vrsqrte`, `vrsqrtefp`), whose error the processor manuals bound: 2^-8 for NEON, 2^-12 for AltiVec.
-/

namespace Nova
open FP

/-- `r` estimates `1 / √x` with a relative error of at most `ε`. -/
structure GoodRoot (x r : BitVec 32) (ε : ℝ) : Prop where
  x_fin : IsFin binary32 x
  r_fin : IsFin binary32 r
  x_low : 1 / 2 ^ 100 ≤ binary32.toReal x
  x_high : binary32.toReal x ≤ 2 ^ 100
  small : ε ≤ 1 / 64
  res : |1 - √(binary32.toReal x) * binary32.toReal r| ≤ ε

end Nova
