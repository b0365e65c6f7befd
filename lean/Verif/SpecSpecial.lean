import Verif.SpecFloat
import Verif.SpecOps

/-!
# The values of the functions at the ends of their domains
-/

namespace Nova.Spec
open FP

/-- The result of a function of one argument where it is not computed from a polynomial. -/
def UnSpecial (x : BitVec 32) : UnOp → Option (BitVec 32)
  -- above 88.7228394 the largest finite number, below -88 zero
  | .exp => if binary32.ltb x 0xc2b00000#32 then some 0#32 else if binary32.ltb 0x42b17218#32 x then some 0x7f7fffff#32 else none
  -- a magnitude above 1: zero
  | .asin | .acos => if binary32.ltb 0x3f800000#32 (binary32.fabs x) then some 0#32 else none
  -- the infinities: π/2 and -π/2, 1 and -1
  | .atan => if x = 0x7f800000#32 then some 0x3fc90fdb#32 else if x = 0xff800000#32 then some 0xbfc90fdb#32 else none
  | .tanh => if x = 0x7f800000#32 then some 0x3f800000#32 else if x = 0xff800000#32 then some 0xbf800000#32 else none
  | _ => none

/-- The result of a power of zero: zero, of the sign of the base for `spow`. -/
def BinSpecial (x : BitVec 32) : BinOp → Option (BitVec 32)
  | .pow => if x = 0#32 ∨ x = 0x80000000#32 then some 0#32 else none
  | .spow => if x = 0#32 ∨ x = 0x80000000#32 then some x else none
  | _ => none

end Nova.Spec
