import Verif.SpecNaN
import Verif.SpecFloat
import Verif.SpecSame

/-!
# Where finite arguments never give a NaN

The tables say for which arguments a function is promised to return a number (possibly an infinity, if the result is too
large).  Functions of the C library are assumed to do so on their domain (`Libm.KeepsNumbers`, C99 annex F.10).
-/

namespace Nova
open FP

/-- The functions of the C library return numbers on their domain. -/
structure Libm.KeepsNumbers {w : Nat} (F : Fmt w) (M : Libm w) : Prop where
  sin : ∀ x, F.isFinite x = true → F.isNaN (M.sin x) = false
  cos : ∀ x, F.isFinite x = true → F.isNaN (M.cos x) = false
  tan : ∀ x, F.isFinite x = true → F.isNaN (M.tan x) = false
  asin : ∀ x, F.isFinite x = true → |F.toReal x| ≤ 1 → F.isNaN (M.asin x) = false
  acos : ∀ x, F.isFinite x = true → |F.toReal x| ≤ 1 → F.isNaN (M.acos x) = false
  atan : ∀ x, F.isFinite x = true → F.isNaN (M.atan x) = false
  tanh : ∀ x, F.isFinite x = true → F.isNaN (M.tanh x) = false
  log : ∀ x, F.isNaN x = false → 0 ≤ F.toEReal x → F.isNaN (M.log x) = false
  log2 : ∀ x, F.isNaN x = false → 0 ≤ F.toEReal x → F.isNaN (M.log2 x) = false
  log10 : ∀ x, F.isNaN x = false → 0 ≤ F.toEReal x → F.isNaN (M.log10 x) = false
  exp : ∀ x, F.isFinite x = true → F.isNaN (M.exp x) = false
  pow : ∀ x y, F.isFinite x = true → 0 < F.toReal x → F.isNaN y = false → F.isNaN (M.pow x y) = false

namespace Spec

/-- Unary functions on scalars and on `double`: the domain of the function. -/
def InDomain {w : Nat} (F : Fmt w) (x : BitVec w) : UnOp → Prop
  | .reciprocal => F.toReal x ≠ 0
  | .asin | .acos => |F.toReal x| ≤ 1
  | .log | .log2 | .log10 | .ratio2midi => 0 ≤ F.toReal x
  | _ => True

/-- Unary functions on vectors of `float`.  Own transcendental functions have limits of their own: the reduction of the
argument of cos, and one argument each of exp (88.72...), midi2ratio (1536), midi2freq (1605), oct2freq (132.75)
and db2amp (770.63671875).  Nothing is promised of reciprocals and square roots that come from an estimate. -/
def UnNumber (b : Build32) (x : BitVec 32) : UnOp → Prop
  | .reciprocal => b = .generic ∧ binary32.toReal x ≠ 0
  | .signedSqrt => b ≠ .neon
  | .cos => ownMath b = true → |binary32.toReal x| < 2 ^ 64
  | .asin | .acos => ownMath b = true ∨ |binary32.toReal x| ≤ 1
  | .log | .log2 | .log10 | .ratio2midi => ownMath b = true ∨ 0 ≤ binary32.toReal x
  | .exp => ownMath b = true → x ≠ 0x42b17218#32
  | .midi2ratio => ownMath b = true → x ≠ 0x44c00000#32
  | .midi2freq => ownMath b = true → x ≠ 0x44c8a000#32
  | .oct2freq => ownMath b = true → x ≠ 0x4304c000#32
  | .db2amp => ownMath b = true → x ≠ 0x4440a8c0#32
  | _ => True

/-- Binary functions.  `d`: the class divides with an instruction, `p`: powers come from the C library. -/
def BinNumber {w : Nat} (F : Fmt w) (d p : Bool) (x y : BitVec w) : BinOp → Prop
  | .over => d = true ∧ F.toReal y ≠ 0
  | .pow => p = true ∧ 0 < F.toReal x
  | .spow => p = true ∧ F.toReal x ≠ 0
  | _ => True

/-- Binary functions on vectors of `float`.  An own power is `exp(y * log(x))`: it is a number unless the rounded product is the
one argument of which exp gives a NaN.  `log` is the logarithm of the class. -/
def BinNumber32 (b : Build32) (log : BitVec 32 → BitVec 32) (x y : BitVec 32) : BinOp → Prop
  | .pow => if ownMath b = true then binary32.mul y (log x) ≠ 0x42b17218#32 else 0 < binary32.toReal x
  | .spow => if ownMath b = true then binary32.mul y (log (binary32.fabs x)) ≠ 0x42b17218#32 else binary32.toReal x ≠ 0
  | op => BinNumber binary32 (divides b) true x y op

/-- Ternary functions: only the amplitude modulation of a zero signal can fail. -/
def TerNumber {w : Nat} (F : Fmt w) (x : BitVec w) : TerOp → Prop
  | .ampmod => F.toReal x ≠ 0
  | _ => True

/-- Functions of four arguments: products or sums that overflow in opposite directions cancel to a NaN, so the arguments
must not exceed `L`. -/
def QuadNumber {w : Nat} (F : Fmt w) (L : ℝ) (x y z u : BitVec w) : Prop :=
  |F.toReal x| ≤ L ∧ |F.toReal y| ≤ L ∧ |F.toReal z| ≤ L ∧ |F.toReal u| ≤ L

end Spec
end Nova
