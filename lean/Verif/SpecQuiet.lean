import Verif.SpecFloat
import Verif.Model.Functors
import Verif.Float.Value

/-!
# Quiet signals

Up to −72 dB below full scale the wave shapers add less than half a unit in the last place to their argument.
-/

namespace Nova.Spec
open FP

/-- The functions whose graph touches the diagonal at the origin. -/
def Shaper : UnOp → Prop
  | .sin | .tan | .asin | .atan | .tanh => True
  | _ => False

/-- At most −72 dB, as a number: `2^-12` is −72.2 dB. -/
def Quiet (x : BitVec 32) : Prop := IsFin binary32 x ∧ |binary32.toReal x| ≤ 1 / 2 ^ 12

end Nova.Spec
