import Verif.Model.Hw

/-!
# detail/vec_math.hpp, one lane

The templates of this header are written against the interface of a vector class.  `LaneOps` is that
interface at one lane.  `vec(float)` broadcasts, so a scalar operand is the same in every lane.
Literals: `litF` for `1.0f`, `litD` for a `double` literal that is converted to `float`.
-/

namespace Nova
open FP

/-- The interface of a vector class used by the templates, one lane of `w` bits.  `&`, `|` and `^`
are the bitwise operations in every class (the members called in detail/vec_math.hpp:38-616). -/
structure LaneOps (w : Nat) where
  add : BitVec w → BitVec w → BitVec w
  sub : BitVec w → BitVec w → BitVec w
  mul : BitVec w → BitVec w → BitVec w
  div : BitVec w → BitVec w → BitVec w
  madd : BitVec w → BitVec w → BitVec w → BitVec w
  neg : BitVec w → BitVec w
  abs : BitVec w → BitVec w
  sqrt : BitVec w → BitVec w
  fastReciprocal : BitVec w → BitVec w
  round : BitVec w → BitVec w
  andnot : BitVec w → BitVec w → BitVec w
  select : BitVec w → BitVec w → BitVec w → BitVec w
  maskLt : BitVec w → BitVec w → BitVec w
  maskLe : BitVec w → BitVec w → BitVec w
  maskGt : BitVec w → BitVec w → BitVec w
  maskGe : BitVec w → BitVec w → BitVec w
  maskEq : BitVec w → BitVec w → BitVec w
  maskNeq : BitVec w → BitVec w → BitVec w
  zero : BitVec w
  one : BitVec w
  half : BitVec w
  signMask : BitVec w
  absMask : BitVec w
  expMask : BitVec w
  expMask1 : BitVec w
  /-- `truncate_to_int()` -/
  truncateToInt : BitVec w → BitVec 32
  /-- `int_vec::convert_to_float()` -/
  convertToFloat : BitVec 32 → BitVec w
  /-- `andnot` of the integer vector -/
  intAndnot : BitVec 32 → BitVec 32 → BitVec 32

namespace VecMath

/-- A literal with suffix `f` (detail/vec_math.hpp passim) -/
def litF (q : Rat) : BitVec 32 := binary32.ofRat q

/-- A `double` literal converted to `float` for the constructor `vec(float)` (vec/vec_sse.hpp:161-164) -/
def litD (q : Rat) : BitVec 32 := litD32 q

section generic
variable {w : Nat} (V : LaneOps w)

/-- `vec_sign` (detail/vec_math.hpp:39-52) -/
def vecSign (arg : BitVec w) : BitVec w :=
  let nonzero := V.maskNeq arg V.zero
  let sign := arg &&& V.signMask
  let absRet := nonzero &&& V.one
  sign ||| absRet

/-- `vec_signed_sqrt` (detail/vec_math.hpp:549-558) -/
def vecSignedSqrt (arg : BitVec w) : BitVec w :=
  let sign := arg &&& V.signMask
  let absArg := arg ^^^ sign
  let result := V.sqrt absArg
  sign ||| result

/-- `vec_select` (detail/vec_math.hpp:574-579) -/
def vecSelect (andnot : BitVec w → BitVec w → BitVec w) (lhs rhs bitmask : BitVec w) : BitVec w :=
  andnot bitmask lhs ||| (bitmask &&& rhs)

/-- `vec_undenormalize` (detail/vec_math.hpp:582-594); `minPositive` is
`std::numeric_limits<float_type>::min()` -/
def vecUndenormalize (minPositive : BitVec w) (arg : BitVec w) : BitVec w :=
  let absArg := V.abs arg
  let absArgLtMin := V.maskLt absArg minPositive
  V.select arg V.zero absArgLtMin

/-- `vec_reciprocal_newton` (detail/vec_math.hpp:596-608) -/
def vecReciprocalNewton (arg : BitVec w) : BitVec w :=
  let approx := V.fastReciprocal arg
  let diff := V.sub V.one (V.mul approx arg)
  V.madd diff approx approx

/-- `detail::softclip::operator()(vec)` (softclip.hpp:68-81); `quarter` is `0.25` -/
def softclip (quarter : BitVec w) (arg : BitVec w) : BitVec w :=
  let abs := V.abs arg
  let selecter := V.maskLt abs V.half
  let altRet := V.div (V.sub abs quarter) arg
  V.select altRet arg selecter

end generic

variable (V : LaneOps 32)

/-- `0x1.0p23f` (detail/vec_math.hpp:61) -/
def twoTo23 : BitVec 32 := litF 8388608

/-- `vec_round_float` (detail/vec_math.hpp:54-65) -/
def vecRound (arg : BitVec 32) : BitVec 32 :=
  let sign := arg &&& V.signMask
  let absArg := sign ^^^ arg
  let rounded := V.sub (V.add absArg twoTo23) twoTo23
  sign ^^^ rounded

/-- `vec_floor_float` (detail/vec_math.hpp:67-77) -/
def vecFloor (arg : BitVec 32) : BitVec 32 :=
  let rounded := vecRound V arg
  let roundedLarger := V.maskGt rounded arg
  V.sub rounded (roundedLarger &&& V.one)

/-- `vec_ceil_float` (detail/vec_math.hpp:79-89) -/
def vecCeil (arg : BitVec 32) : BitVec 32 :=
  let rounded := vecRound V arg
  let roundedSmaller := V.maskLt rounded arg
  V.add rounded (roundedSmaller &&& V.one)

/-- `ldexp_float` (detail/vec_math.hpp:91-104) -/
def ldexp (x n : BitVec 32) : BitVec 32 :=
  let exponent := V.expMask &&& x
  let xWoX := V.andnot V.expMask x
  let newExp := (n <<< 23) + exponent
  xWoX ||| newExp

/-- `frexp_float` (detail/vec_math.hpp:106-119): the significand and the exponent -/
def frexp (x : BitVec 32) : BitVec 32 × BitVec 32 :=
  let exponent := V.expMask &&& x
  let xWoX := V.andnot V.expMask x
  (xWoX ||| V.expMask1, (exponent >>> 23) - 126#32)

/-- The reduced argument of `vec_exp_float` and `vec_exp_tanh_float`
(detail/vec_math.hpp:133-137, 216-220): `x - z*0.693359375f - z*(-2.12194440e-4f)` -/
def expReduce (x z : BitVec 32) : BitVec 32 :=
  let x := V.sub x (V.mul z (litF 0.693359375))
  V.sub x (V.mul z (litF (-2.12194440e-4)))

/-- `round(VecType(1.44269504088896341f) * x)` (detail/vec_math.hpp:134, 217) -/
def expScale (x : BitVec 32) : BitVec 32 := V.round (V.mul (litF 1.44269504088896341) x)

/-- The polynomial of `vec_exp_float` (detail/vec_math.hpp:140-146) and of `vec_exp_tanh_float`
(detail/vec_math.hpp:223-229); `one` is `gen_one()` in the former and `1.f` in the latter. -/
def expPoly (one x : BitVec 32) : BitVec 32 :=
  V.add one (V.mul x (V.add (litF 1.00000035762786865234375)
    (V.mul x (V.add (litF 0.4999996721744537353515625)
    (V.mul x (V.add (litF 0.16665561497211456298828125)
    (V.mul x (V.add (litF 4.167006909847259521484375e-2)
    (V.mul x (V.add (litF 8.420792408287525177001953125e-3)
    (V.mul x (litF 1.386119984090328216552734375e-3))))))))))))

/-- `std::numeric_limits<float>::max()` (detail/vec_math.hpp:154) -/
def fltMax : BitVec 32 := 0x7f7fffff#32

/-- `maxlogf` (detail/vec_math.hpp:152) -/
def maxlogf : BitVec 32 := litF 88.72283905206835
/-- `minlogf` (detail/vec_math.hpp:153) -/
def minlogf : BitVec 32 := litF (-88)

/-- The value of `approx` in `vec_exp_float` (detail/vec_math.hpp:132-149) -/
def expApprox (arg : BitVec 32) : BitVec 32 :=
  let z := expScale V arg
  let n := V.truncateToInt z
  let x := expReduce V arg z
  let p := expPoly V V.one x
  ldexp V p n

/-- `vec_exp_float` (detail/vec_math.hpp:122-164) -/
def vecExp (arg : BitVec 32) : BitVec 32 :=
  let approx := expApprox V arg
  let tooLarge := V.maskGt arg maxlogf
  let tooSmall := V.maskLt arg minlogf
  let ret := V.select approx fltMax tooLarge
  V.select ret V.zero tooSmall

/-- The polynomial of `vec_log_float` (detail/vec_math.hpp:182-191) -/
def logPoly (x : BitVec 32) : BitVec 32 :=
  let p := V.sub (V.mul (litD 7.0376836292e-2) x) (litD 1.1514610310e-1)
  let p := V.add (V.mul p x) (litD 1.1676998740e-1)
  let p := V.sub (V.mul p x) (litD 1.2420140846e-1)
  let p := V.add (V.mul p x) (litD 1.4249322787e-1)
  let p := V.sub (V.mul p x) (litD 1.6668057665e-1)
  let p := V.add (V.mul p x) (litD 2.0000714765e-1)
  let p := V.sub (V.mul p x) (litD 2.4999993993e-1)
  let p := V.add (V.mul p x) (litD 3.3333331174e-1)
  V.mul (V.mul (V.mul p x) x) x

/-- `vec_log_float` (detail/vec_math.hpp:167-200) -/
def vecLog (arg : BitVec 32) : BitVec 32 :=
  let x := (frexp V arg).1
  let e := (frexp V arg).2
  let xSmaller := V.maskLt x (litF 0.707106781186547524)
  let e := e + xSmaller
  let xAdd := x &&& xSmaller
  let x := V.add x (V.sub xAdd V.one)
  let y := logPoly V x
  let fe := V.convertToFloat e
  let y := V.add y (V.mul fe (litD (-2.12194440e-4)))
  let y := V.sub y (V.mul (V.mul (litD 0.5) x) x)
  let z := V.add x y
  V.add z (V.mul (litD 0.693359375) fe)

/-- `vec_exp_tanh_float` (detail/vec_math.hpp:204-234) -/
def vecExpTanh (arg : BitVec 32) : BitVec 32 :=
  let z := expScale V arg
  let n := V.truncateToInt z
  let x := expReduce V arg z
  let p := expPoly V (litF 1) x
  ldexp V p n

/-- The quadrant `j` of `vec_sin_float`, `vec_cos_float`, `vec_tan_float`
(detail/vec_math.hpp:248-253, 296-301, 346-350) -/
def quadrant (absArg : BitVec 32) : BitVec 32 :=
  let y := V.mul absArg (litD 1.27323954473516268615107010698011489627567716592367)
  let j := V.truncateToInt y
  (j + 1#32) &&& ~~~1#32

/-- Argument reduction (detail/vec_math.hpp:264-268, 312-316, 357-361) -/
def reduceArg (absArg y : BitVec 32) : BitVec 32 :=
  V.sub (V.sub (V.sub absArg (V.mul y (litD 0.78515625)))
    (V.mul y (litD 2.4187564849853515625e-4))) (V.mul y (litD 3.77489497744594108e-8))

/-- `p1` (detail/vec_math.hpp:271-275, 320-324) -/
def cosPoly (z : BitVec 32) : BitVec 32 :=
  let p := V.sub (V.mul (litD 2.443315711809948e-5) z) (litD 1.388731625493765e-3)
  let p := V.add (V.mul p z) (litD 4.166664568298827e-2)
  V.add (V.sub (V.mul (V.mul p z) z) (V.mul (litF 0.5) z)) (litD 1)

/-- `p2` (detail/vec_math.hpp:278-280, 327-329) -/
def sinPoly (z base : BitVec 32) : BitVec 32 :=
  let p := V.add (V.mul (litD (-1.9515295891e-4)) z) (litD 8.3321608736e-3)
  let p := V.sub (V.mul p z) (litD 1.6666654611e-1)
  V.add (V.mul (V.mul p z) base) base

/-- `mask_eq` of the integer vector (detail/vec_math.hpp:261, 310, 354) -/
def intMaskEq (a b : BitVec 32) : BitVec 32 := maskOf (a == b)

/-- `vec_sin_float` after the sign has been removed: the approximation and the swapped sign bit
(detail/vec_math.hpp:246-283) -/
def sinAbs (absArg : BitVec 32) : BitVec 32 × BitVec 32 :=
  let j := quadrant V absArg
  let y := V.convertToFloat j
  let swapSignBit := (j &&& 4#32) <<< 29
  let polyMask := intMaskEq (j &&& 2#32) 0#32
  let base := reduceArg V absArg y
  let z := V.mul base base
  (V.select (cosPoly V z) (sinPoly V z base) polyMask, swapSignBit)

/-- `vec_sin_float` (detail/vec_math.hpp:238-285) -/
def vecSin (arg : BitVec 32) : BitVec 32 :=
  let sign := arg &&& V.signMask
  let absArg := arg &&& V.absMask
  let r := sinAbs V absArg
  r.1 ^^^ (sign ^^^ r.2)

/-- `vec_cos_float` (detail/vec_math.hpp:288-334) -/
def vecCos (arg : BitVec 32) : BitVec 32 :=
  let absArg := arg &&& V.absMask
  let j := quadrant V absArg
  let y := V.convertToFloat j
  let jm2 := j - 2#32
  let sign := (V.intAndnot jm2 4#32) <<< 29
  let polyMask := intMaskEq (jm2 &&& 2#32) 0#32
  let base := reduceArg V absArg y
  let z := V.mul base base
  let approximation := V.select (cosPoly V z) (sinPoly V z base) polyMask
  approximation ^^^ sign

/-- The polynomial of `vec_tan_float` (detail/vec_math.hpp:366-367) -/
def tanPoly (x : BitVec 32) : BitVec 32 :=
  let x2 := V.mul x x
  V.add x (V.mul (V.mul x x2) (V.add (litD 0.3333315551280975341796875)
    (V.mul x2 (V.add (litD 0.1333882510662078857421875)
    (V.mul x2 (V.add (litD 5.3409568965435028076171875e-2)
    (V.mul x2 (V.add (litD 2.443529665470123291015625e-2)
    (V.mul x2 (V.add (litD 3.1127030961215496063232421875e-3)
    (V.mul x2 (litD 9.3892104923725128173828125e-3))))))))))))

/-- `vec_tan_float` (detail/vec_math.hpp:337-374) -/
def vecTan (arg : BitVec 32) : BitVec 32 :=
  let sign := arg &&& V.signMask
  let absArg := arg &&& V.absMask
  let j := quadrant V absArg
  let y := V.convertToFloat j
  let polyMask := intMaskEq (j &&& 2#32) 0#32
  let base := reduceArg V absArg y
  let approx := tanPoly V base
  let recip := V.div (litD (-1)) approx
  let approximation := V.select recip approx polyMask
  approximation ^^^ sign

/-- The polynomial of `vec_asin_float` (detail/vec_math.hpp:397) -/
def asinPoly (x : BitVec 32) : BitVec 32 :=
  let x2 := V.mul x x
  V.add x (V.mul (V.mul x x2) (V.add (litD 0.166667520999908447265625)
    (V.mul x2 (V.add (litD 7.4953101575374603271484375e-2)
    (V.mul x2 (V.add (litD 4.54690195620059967041015625e-2)
    (V.mul x2 (V.add (litD 2.418550290167331695556640625e-2)
    (V.mul x2 (litD 4.21570129692554473876953125e-2))))))))))

/-- `vec_asin_float` (detail/vec_math.hpp:377-406) -/
def vecAsin (arg : BitVec 32) : BitVec 32 :=
  let absArg := arg &&& V.absMask
  let sign := arg &&& V.signMask
  let argGreater05 := V.maskGt absArg (litD 0.5)
  let argReduced := V.sqrt (V.mul (V.sub V.one absArg) V.half)
  let approxArg := V.select absArg argReduced argGreater05
  let approxPoly := asinPoly V approxArg
  let approxPolyReduced := V.sub (V.sub (litD 1.57079637050628662109375) approxPoly) approxPoly
  let approx := V.select approxPoly approxPolyReduced argGreater05
  let approx := approx ^^^ sign
  V.select approx V.zero (V.maskGt absArg V.one)

/-- `vec_acos_float` (detail/vec_math.hpp:415-441) -/
def vecAcos (arg : BitVec 32) : BitVec 32 :=
  let absArg := arg &&& V.absMask
  let argGreater05 := V.maskGt absArg V.half
  let asinArgGreater05 := V.sqrt (V.mul (V.sub V.one absArg) V.half)
  let asinArg := V.select arg asinArgGreater05 argGreater05
  let asin := vecAsin V asinArg
  let twoAsin := V.add asin asin
  let retM1M05 := V.sub (litD 3.1415927410125732421875) twoAsin
  let retM0505 := V.sub (litD 1.57079637050628662109375) asin
  let ret051 := twoAsin
  let retM051 := V.select retM0505 ret051 (V.maskGt arg V.half)
  let ret := V.select retM1M05 retM051 (V.maskGt arg (litD (-0.5)))
  V.select ret V.zero (V.maskGt absArg V.one)

/-- `vec_atan_float` after the sign has been removed (detail/vec_math.hpp:448-476) -/
def atanAbs (absArg : BitVec 32) : BitVec 32 :=
  let argRange0 := absArg
  let argRange1 := V.div (V.sub absArg V.one) (V.add absArg V.one)
  let argRange2 := V.div (V.neg V.one) absArg
  let offsetRange0 := V.zero
  let offsetRange1 := litD 0.78539816339744830961566084581987572104929234984377
  let offsetRange2 := litD 1.57079632679489661923132169163975144209858469968754
  let maskRange01 := V.maskGt absArg (litD 0.41421356237309504880168872420969807856967187537695)
  let maskRange12 := V.maskGt absArg (litD 2.41421356237309504880168872420969807856967187537698)
  let approxArg := V.select argRange0 (V.select argRange1 argRange2 maskRange12) maskRange01
  let approxOffset := V.select offsetRange0 (V.select offsetRange1 offsetRange2 maskRange12) maskRange01
  let x := approxArg
  let x2 := V.mul x x
  V.add (V.add approxOffset x) (V.mul (V.mul x x2) (V.add (litD (-0.333329498767852783203125))
    (V.mul x2 (V.add (litD 0.19977732002735137939453125)
    (V.mul x2 (V.add (litD (-0.1387787759304046630859375))
    (V.mul x2 (litD 8.054284751415252685546875e-2))))))))

/-- `vec_atan_float` (detail/vec_math.hpp:444-479) -/
def vecAtan (arg : BitVec 32) : BitVec 32 :=
  let signArg := arg &&& V.signMask
  let absArg := arg &&& V.absMask
  atanAbs V absArg ^^^ signArg

/-- The polynomial of `vec_tanh_float` for small values (detail/vec_math.hpp:501-512) -/
def tanhSmall (arg absArg : BitVec 32) : BitVec 32 :=
  let argSqr := V.mul absArg absArg
  let p := V.add (V.mul (litD (-5.70498872745e-3)) argSqr) (litD 2.06390887954e-2)
  let p := V.add (V.mul p argSqr) (litD (-5.37397155531e-2))
  let p := V.add (V.mul p argSqr) (litD 1.33314422036e-1)
  let p := V.add (V.mul p argSqr) (litD (-3.33332819422e-1))
  V.add (V.mul (V.mul p argSqr) arg) arg

/-- `vec_tanh_float` (detail/vec_math.hpp:482-525) -/
def vecTanh (arg : BitVec 32) : BitVec 32 :=
  let signArg := arg &&& V.signMask
  let absArg := arg ^^^ signArg
  let resultMediumAbs := V.sub V.one (V.div (litF 2) (V.add (vecExpTanh V (V.add absArg absArg)) V.one))
  let absBig := V.maskGt absArg (litF 22)
  let resultSmall := tanhSmall V arg absArg
  let absSmall := V.maskLt absArg (litF 0.625)
  let resultLmAbs := V.select resultMediumAbs V.one absBig
  let resultLm := resultLmAbs ||| signArg
  V.select resultLm resultSmall absSmall

/-- `vec_pow` (detail/vec_math.hpp:539-547) -/
def vecPow (arg1 arg2 : BitVec 32) : BitVec 32 :=
  let arg1Zero := V.maskEq arg1 V.zero
  let result := vecExp V (V.mul arg2 (vecLog V arg1))
  V.select result V.zero arg1Zero

/-- `vec_signed_pow` (detail/vec_math.hpp:527-536) -/
def vecSignedPow (arg1 arg2 : BitVec 32) : BitVec 32 :=
  let signArg1 := arg1 &&& V.signMask
  let absArg1 := arg1 ^^^ signArg1
  let result := vecPow V absArg1 arg2
  signArg1 ||| result

/-- `vec_log2`, `vec_log10` (detail/vec_math.hpp:560-572); `r` is `(float)(1.0/std::log(2.0))`,
`(float)(1.0/std::log(10.0))` -/
def vecLogBase (r : BitVec 32) (arg : BitVec 32) : BitVec 32 := V.mul (vecLog V arg) r

end VecMath
end Nova
