/-!
# Binary floating point formats

Executable IEEE 754 arithmetic on bit patterns: `float` is `binary32`, `double` is `binary64`.
This file is the model of the processor (and of the C++ scalar types), not of code in /repo.
References: IEEE 754-2008 clauses 3.4, 4.3.1, 5.4, 6.1-6.3; Intel SDM vol. 2 for the behaviour of
the SSE instructions on NaN operands.

A finite number is `± mag c` units, where `c` is the bit pattern without the sign (its *code*) and the
unit is the least subnormal.  Codes are ordered like the values they stand for.
-/

namespace Nova.FP

/-- A binary interchange format with `w` bits: `mb` explicit significand bits, `eb` exponent bits. -/
structure Fmt (w : Nat) where
  mb : Nat
  eb : Nat
  hw : mb + eb + 1 = w
  hmb : 1 ≤ mb
  heb : 2 ≤ eb

def binary32 : Fmt 32 := ⟨23, 8, rfl, by decide, by decide⟩
def binary64 : Fmt 64 := ⟨52, 11, rfl, by decide, by decide⟩

/-! ## Magnitudes and rounding, independent of the sign -/

/-- The number of units of the code `c`, for `mb` explicit significand bits. -/
def mag (mb c : Nat) : Nat :=
  let s := c / 2 ^ mb - 1
  (c - s * 2 ^ mb) * 2 ^ s

/-- The exponent (of the unit in the last place) chosen for the quotient `N / D`. -/
def shiftOf (mb N D : Nat) : Nat := Nat.log2 (N / D) - mb

/-- Round `N / D` units to the nearest code, ties to even; codes are not limited in size. -/
def rne (mb N D : Nat) : Nat :=
  let s := shiftOf mb N D
  let D' := D * 2 ^ s
  let m := N / D'
  let r := N % D'
  let up := if D' < 2 * r ∨ (2 * r = D' ∧ m % 2 = 1) then 1 else 0
  s * 2 ^ mb + (m + up)

/-- Integer square root, from the bit `2^k` downwards: the largest `r' ≥ r` reachable with
`r' * r' ≤ n`. -/
def isqrtFrom (n : Nat) : Nat → Nat → Nat
  | 0, r => r
  | k + 1, r => isqrtFrom n k (if (r + 2 ^ k) * (r + 2 ^ k) ≤ n then r + 2 ^ k else r)

/-- Integer square root. -/
def isqrt (n : Nat) : Nat := isqrtFrom n (Nat.log2 n / 2 + 1) 0

/-- Round the integer quotient `N / D` to an integer, ties to even. -/
def rneInt (N D : Nat) : Nat :=
  let m := N / D
  let r := N % D
  if D < 2 * r ∨ (2 * r = D ∧ m % 2 = 1) then m + 1 else m

namespace Fmt
variable {w : Nat} (F : Fmt w)

/-! ## Decoding -/

def bias : Nat := 2 ^ (F.eb - 1) - 1

/-- One is `2 ^ scale` units. -/
def scale : Nat := F.bias + F.mb - 1

/-- The code of infinity; larger codes are NaNs. -/
def infCode : Nat := (2 ^ F.eb - 1) * 2 ^ F.mb

/-- Sign bit. -/
def neg (_ : Fmt w) (x : BitVec w) : Bool := x.msb

/-- The bit pattern without the sign. -/
def code (_ : Fmt w) (x : BitVec w) : Nat := x.toNat % 2 ^ (w - 1)

def isNaN (x : BitVec w) : Bool := decide (F.infCode < F.code x)
def isInf (x : BitVec w) : Bool := decide (F.code x = F.infCode)
def isFinite (x : BitVec w) : Bool := decide (F.code x < F.infCode)
def isZero (x : BitVec w) : Bool := decide (F.code x = 0)

/-- The value of a finite number in units. -/
def units (x : BitVec w) : Int :=
  if F.neg x then -(mag F.mb (F.code x) : Int) else (mag F.mb (F.code x) : Int)

/-- A key that orders all numbers including the infinities (both zeros have key 0). -/
def key (x : BitVec w) : Int := if F.neg x then -(F.code x : Int) else (F.code x : Int)

/-! ## Encoding -/

/-- The pattern with the given sign and code. -/
def pack (_ : Fmt w) (s : Bool) (c : Nat) : BitVec w :=
  BitVec.ofNat w (if s then c + 2 ^ (w - 1) else c)

def posZero : BitVec w := F.pack false 0
def posInf : BitVec w := F.pack false F.infCode
/-- The default NaN of x86 (sign bit set, quiet, no payload). -/
def defaultNaN : BitVec w := F.pack true (F.infCode + 2 ^ (F.mb - 1))

/-- A NaN operand made quiet. -/
def quiet (x : BitVec w) : BitVec w := x ||| BitVec.ofNat w (2 ^ (F.mb - 1))

/-- Sign and rounded magnitude of `N / D` units; overflow gives infinity. -/
def packRnd (s : Bool) (N D : Nat) : BitVec w := F.pack s (min F.infCode (rne F.mb N D))

/-! ## Comparison -/

def ltb (x y : BitVec w) : Bool := !F.isNaN x && !F.isNaN y && decide (F.key x < F.key y)
def leb (x y : BitVec w) : Bool := !F.isNaN x && !F.isNaN y && decide (F.key x ≤ F.key y)
def eqb (x y : BitVec w) : Bool := !F.isNaN x && !F.isNaN y && decide (F.key x = F.key y)

/-! ## Sign operations -/

def signBit (_ : Fmt w) : BitVec w := BitVec.ofNat w (2 ^ (w - 1))

def negate (x : BitVec w) : BitVec w := x ^^^ F.signBit
def fabs (x : BitVec w) : BitVec w := x &&& ~~~F.signBit

/-! ## Arithmetic -/

/-- Result of an operation with a NaN operand (Intel SDM vol. 1 table 4-7): the first NaN operand,
quiet. -/
def nan2 (x y : BitVec w) : BitVec w := if F.isNaN x then F.quiet x else F.quiet y

def add (x y : BitVec w) : BitVec w :=
  if F.isNaN x || F.isNaN y then F.nan2 x y
  else if F.isInf x then (if F.isInf y && (F.neg x != F.neg y) then F.defaultNaN else x)
  else if F.isInf y then y
  else
    let z := F.units x + F.units y
    if z = 0 then F.pack (F.neg x && F.neg y) 0 else F.packRnd (decide (z < 0)) z.natAbs 1

def sub (x y : BitVec w) : BitVec w :=
  if F.isNaN x || F.isNaN y then F.nan2 x y else F.add x (F.negate y)

def mul (x y : BitVec w) : BitVec w :=
  let s := F.neg x != F.neg y
  if F.isNaN x || F.isNaN y then F.nan2 x y
  else if F.isInf x || F.isInf y then
    (if F.isZero x || F.isZero y then F.defaultNaN else F.pack s F.infCode)
  else F.packRnd s (mag F.mb (F.code x) * mag F.mb (F.code y)) (2 ^ F.scale)

def div (x y : BitVec w) : BitVec w :=
  let s := F.neg x != F.neg y
  if F.isNaN x || F.isNaN y then F.nan2 x y
  else if F.isInf x then (if F.isInf y then F.defaultNaN else F.pack s F.infCode)
  else if F.isInf y then F.pack s 0
  else if F.isZero y then (if F.isZero x then F.defaultNaN else F.pack s F.infCode)
  else F.packRnd s (mag F.mb (F.code x) * 2 ^ F.scale) (mag F.mb (F.code y))

/-- Fused multiply-add `x * y + z` with one rounding. -/
def fma (x y z : BitVec w) : BitVec w :=
  let s := F.neg x != F.neg y
  if F.isNaN x || F.isNaN y then F.nan2 x y
  else if F.isNaN z then F.quiet z
  else if F.isInf x || F.isInf y then
    (if F.isZero x || F.isZero y then F.defaultNaN
     else if F.isInf z && (F.neg z != s) then F.defaultNaN
     else F.pack s F.infCode)
  else if F.isInf z then z
  else
    let v := F.units x * F.units y + F.units z * 2 ^ F.scale
    if v = 0 then F.pack (s && F.neg z) 0
    else F.packRnd (decide (v < 0)) v.natAbs (2 ^ F.scale)

def sqrt (x : BitVec w) : BitVec w :=
  if F.isNaN x then F.quiet x
  else if F.isZero x then x
  else if F.neg x then F.defaultNaN
  else if F.isInf x then x
  else
    let q := mag F.mb (F.code x) * 2 ^ F.scale
    let r := isqrt q
    F.packRnd false (2 * r + (if r * r = q then 0 else 1)) 2

/-! ## Minimum and maximum -/

/-- `maxps`, `maxpd`: the second operand if a NaN is involved or both are equal. -/
def maxps (x y : BitVec w) : BitVec w := if F.ltb y x then x else y
/-- `minps`, `minpd`. -/
def minps (x y : BitVec w) : BitVec w := if F.ltb x y then x else y
/-- `std::max(x, y)` -/
def stdMax (x y : BitVec w) : BitVec w := if F.ltb x y then y else x
/-- `std::min(x, y)` -/
def stdMin (x y : BitVec w) : BitVec w := if F.ltb y x then y else x

/-! ## Conversions -/

/-- Rounding modes of `roundps`; `away` (half away from zero) is C's `round`. -/
inductive Mode where
  | nearest | down | up | zero | away
deriving DecidableEq

/-- Round `mag` units (`D` units are one) to an integer; `s` is the sign. -/
def roundMag (m : Mode) (s : Bool) (N D : Nat) : Nat :=
  match m with
  | .nearest => rneInt N D
  | .zero => N / D
  | .down => if s then (N + D - 1) / D else N / D
  | .up => if s then N / D else (N + D - 1) / D
  | .away => (2 * N + D) / (2 * D)

/-- `roundps`, `roundpd`, `floor`, `ceil`: round to an integral floating point number, keeping the
sign also of a zero result. -/
def roundInt (m : Mode) (x : BitVec w) : BitVec w :=
  if F.isNaN x then F.quiet x
  else if F.isInf x then x
  else
    let k := roundMag m (F.neg x) (mag F.mb (F.code x)) (2 ^ F.scale)
    F.packRnd (F.neg x) (k * 2 ^ F.scale) 1

/-- `cvttps2dq`: truncate to a 32-bit signed integer; `0x80000000` if out of range or NaN. -/
def toInt32 (x : BitVec w) : BitVec 32 :=
  if !F.isFinite x then 0x80000000#32
  else
    let k := mag F.mb (F.code x) / 2 ^ F.scale
    let v : Int := if F.neg x then -(k : Int) else k
    if v < -2147483648 ∨ 2147483647 < v then 0x80000000#32 else BitVec.ofInt 32 v

/-- The nearest number to an integer (`cvtdq2ps`; C++ `(float_type)(long)`). -/
def ofInt (v : Int) : BitVec w :=
  if v = 0 then F.posZero else F.packRnd (decide (v < 0)) (v.natAbs * 2 ^ F.scale) 1

/-- `cvtdq2ps` -/
def ofInt32 (n : BitVec 32) : BitVec w := F.ofInt n.toInt

/-- The number nearest to a rational. -/
def ofRat (q : Rat) : BitVec w :=
  if q.num = 0 then F.posZero
  else F.packRnd (decide (q.num < 0)) (q.num.natAbs * 2 ^ F.scale) q.den

end Fmt

/-- `(float)x` for a double `x` -/
def narrow (x : BitVec 64) : BitVec 32 :=
  if binary64.isNaN x then binary32.defaultNaN
  else if binary64.isInf x then binary32.pack (binary64.neg x) binary32.infCode
  else binary32.packRnd (binary64.neg x) (mag 52 (binary64.code x))
    (2 ^ (binary64.scale - binary32.scale))

/-- `(double)x` for a float `x` -/
def widen (x : BitVec 32) : BitVec 64 :=
  if binary32.isNaN x then binary64.defaultNaN
  else if binary32.isInf x then binary64.pack (binary32.neg x) binary64.infCode
  else binary64.packRnd (binary32.neg x)
    (mag 23 (binary32.code x) * 2 ^ (binary64.scale - binary32.scale)) 1

/-- A `double` literal converted to `float` (rounded twice, as C++ does). -/
def litD32 (q : Rat) : BitVec 32 := narrow (binary64.ofRat q)

end Nova.FP
