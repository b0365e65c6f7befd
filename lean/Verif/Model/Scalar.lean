import Verif.Model.Vec
import Verif.Model.Hw

/-!
# detail/math.hpp: the functions on `float` and `double`

C++ scalar arithmetic is IEEE arithmetic of the format (no excess precision, no contraction).
Functions of the C library are arbitrary (`Libm`), except the exactly specified ones: `fabs`, `floor`,
`ceil`, `round` and `sqrt`.
-/

namespace Nova
open FP

/-- Functions of the C library whose results are not specified exactly (called in detail/math.hpp:168-200, 265-292). -/
structure Libm (w : Nat) where
  sin : BitVec w → BitVec w
  cos : BitVec w → BitVec w
  tan : BitVec w → BitVec w
  asin : BitVec w → BitVec w
  acos : BitVec w → BitVec w
  atan : BitVec w → BitVec w
  tanh : BitVec w → BitVec w
  log : BitVec w → BitVec w
  log2 : BitVec w → BitVec w
  log10 : BitVec w → BitVec w
  exp : BitVec w → BitVec w
  pow : BitVec w → BitVec w → BitVec w

namespace Scalar
variable {w : Nat} (F : Fmt w)

/-- An integer converted to the type (as in detail/math.hpp:201-210). -/
def int (n : Int) : BitVec w := F.ofInt n

/-- `true` and `false` converted to the type (the functors in simd_binary_arithmetic.hpp:104-160). -/
def ofBool (b : Bool) : BitVec w := if b then F.ofInt 1 else F.posZero

/-- `std::numeric_limits<F>::min()`, the least positive normal number (detail/math.hpp:322) -/
def minPositive : BitVec w := F.pack false (2 ^ F.mb)

/-- `detail::sign` (detail/math.hpp:201-210) -/
def sign (f : BitVec w) : BitVec w :=
  if F.ltb F.posZero f then F.ofInt 1
  else if F.eqb f F.posZero then F.ofInt 0
  else F.ofInt (-1)

/-- `detail::round` (detail/math.hpp:237-257): `::round`, or `std::floor(arg + 0.5)` for `float`
without C99 -/
def round (c99 : Bool) (arg : BitVec w) : BitVec w :=
  if c99 then F.roundInt .away arg else F.roundInt .down (F.add arg (F.ofRat 0.5))

/-- `detail::frac` (detail/math.hpp:259-263) -/
def frac (arg : BitVec w) : BitVec w := F.sub arg (F.roundInt .down arg)

/-- The integer part of a finite number (the conversion to `long` in detail/math.hpp:294-298). -/
def toLong (arg : BitVec w) : Int :=
  let k := mag F.mb (F.code arg) / 2 ^ F.scale
  if F.neg arg then -(k : Int) else k

/-- `detail::trunc` (detail/math.hpp:294-298): `(float_type)(long)arg` with a 64-bit `long`;
undefined for a value that `long` cannot hold -/
def trunc (arg : BitVec w) : Except Fault (BitVec w) :=
  if F.isFinite arg then
    let k := toLong F arg
    if -(2 ^ 63) ≤ k ∧ k < 2 ^ 63 then .ok (F.ofInt k) else .error .badConv
  else .error .badConv

/-- `detail::signed_sqrt` (detail/math.hpp:301-308) -/
def signedSqrt (in0 : BitVec w) : BitVec w :=
  if F.leb F.posZero in0 then F.sqrt in0 else F.negate (F.sqrt (F.negate in0))

/-- `detail::signed_pow` (detail/math.hpp:310-317) -/
def signedPow (pow : BitVec w → BitVec w → BitVec w) (in0 in1 : BitVec w) : BitVec w :=
  if F.ltb F.posZero in0 then pow in0 in1 else F.negate (pow (F.negate in0) in1)

/-- `detail::undenormalize` (detail/math.hpp:319-334) -/
def undenormalize (arg : BitVec w) : BitVec w :=
  if F.ltb F.posZero arg then
    if F.ltb arg (minPositive F) then F.posZero else arg
  else
    if F.ltb (F.negate (minPositive F)) arg then F.posZero else arg

/-- `detail::softclip::s_run` (softclip.hpp:41-48) -/
def softclip (arg : BitVec w) : BitVec w :=
  let abs := F.fabs arg
  if F.ltb abs (F.ofRat 0.5) then arg else F.div (F.sub abs (F.ofRat 0.25)) arg

/-- The scalar functions of a format; `lit` converts a `double` literal, `c99` tells whether `::round`
is used (detail/math.hpp:168-345, with the operators of the language). -/
def arith (lit : Rat → BitVec w) (c99 : Bool) (M : Libm w) : Arith (BitVec w) where
  zero := F.posZero
  one := F.ofInt 1
  lit := lit
  add := F.add
  sub := F.sub
  mul := F.mul
  div := F.div
  madd a b c := F.add (F.mul a b) c
  max_ := F.stdMax
  min_ := F.stdMin
  lt x y := ofBool F (F.ltb x y)
  le x y := ofBool F (F.leb x y)
  gt x y := ofBool F (F.ltb y x)
  ge x y := ofBool F (F.leb y x)
  eq x y := ofBool F (F.eqb x y)
  ne x y := ofBool F (!F.eqb x y)
  less := F.ltb
  abs := F.fabs
  sign := sign F
  square x := F.mul x x
  cube x := F.mul (F.mul x x) x
  reciprocal x := F.div (F.ofInt 1) x
  undenormalize := undenormalize F
  round := round F c99
  floor := F.roundInt .down
  ceil := F.roundInt .up
  frac := frac F
  trunc := trunc F
  sin := M.sin
  cos := M.cos
  tan := M.tan
  asin := M.asin
  acos := M.acos
  atan := M.atan
  tanh := M.tanh
  log := M.log
  log2 := M.log2
  log10 := M.log10
  exp := M.exp
  signedSqrt := signedSqrt F
  pow := M.pow
  signedPow := signedPow F M.pow
  softclip := softclip F

/-- `float` (the instances of detail/math.hpp:168-345 for `float`) -/
def float32 (c99 : Bool) (M : Libm 32) : Arith (BitVec 32) := arith binary32 litD32 c99 M

/-- `double` (the instances of detail/math.hpp:168-345 for `double`) -/
def float64 (M : Libm 64) : Arith (BitVec 64) := arith binary64 binary64.ofRat true M

end Scalar
end Nova
