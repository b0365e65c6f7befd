import Verif.SpecFloat
import Verif.SpecOps

/-!
# The ranges of the functions

Where the results of a function lie, whatever its argument.  The ends of the ranges of the inverse functions are the
numbers of the format nearest to π/2 and π.
-/

namespace Nova.Spec
open FP

/-- The single precision number nearest to π/2. -/
noncomputable def halfPi : ℝ := 13176795 / 2 ^ 23

/-- Twice that number: the single precision number nearest to π. -/
noncomputable def wholePi : ℝ := 2 * halfPi

/-- A result which is a number is not below zero. -/
def NotBelowZero (y : BitVec 32) : Prop := Num binary32 y → 0 ≤ binary32.toEReal y

/-- A finite number of magnitude at most `m`. -/
def Within (m : ℝ) (y : BitVec 32) : Prop := IsFin binary32 y ∧ |binary32.toReal y| ≤ m

/-- The range of a function of one argument. -/
def UnRangeOf : UnOp → BitVec 32 → Prop
  | .sin, y | .cos, y | .tanh, y => Within 1 y
  | .asin, y | .atan, y => Within halfPi y
  | .acos, y => IsFin binary32 y ∧ 0 ≤ binary32.toReal y ∧ binary32.toReal y ≤ wholePi
  | .exp, y | .db2amp, y | .midi2freq, y | .midi2ratio, y | .oct2freq, y => NotBelowZero y
  | _, _ => True

/-- The arguments for which it is claimed: all numbers for most functions, infinities included.  The reduction of the
arguments of sin and cos is limited, and acos is wrong at one point. -/
def RangeDomain : UnOp → BitVec 32 → Prop
  | .sin, x | .cos, x => IsFin binary32 x ∧ |binary32.toReal x| ≤ 8192
  | .acos, x => Num binary32 x ∧ x ≠ 0xbf000000#32
  | _, x => Num binary32 x

/-- The range of a power: not below zero for a base that is not, and with the sign of the base for `spow`. -/
def BinRangeOf : BinOp → BitVec 32 → BitVec 32 → Prop
  | .pow, x, z => 0 ≤ binary32.toReal x → NotBelowZero z
  | .spow, x, z => binary32.neg z = binary32.neg x
  | _, _, _ => True

end Nova.Spec
