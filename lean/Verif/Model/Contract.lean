import Verif.Model.Lanes
import Verif.Model.Functors

/-!
# Contraction of floating-point expressions

A compiler may evaluate a product and the addition or subtraction which uses it with one rounding when the target has
fused multiply-add instructions; GCC does so by default (`-ffp-contract=fast`), across statements, and also for
`_mm_mul_ps` followed by `_mm_add_ps`, which its headers define as `*` and `+`.  The rest of the model evaluates
expressions as they are written.  Here every product may be fused with every sum or difference which uses it: an
evaluation is a list of possible results, which has one element when `c` is false (no contraction).

A product which is used elsewhere (in a product, a comparison, a conversion or a bitwise operation) is rounded there.
Every use decides on its own.
-/

namespace Nova
open FP

/-- The operand of a sum or difference: a value, or a product which has not been rounded yet. -/
inductive Operand (w : Nat) where
  | reg (x : BitVec w)
  | prod (x y : BitVec w)

namespace FP.Fmt
variable {w : Nat} (F : Fmt w)

/-- The operand as a value: the product is rounded. -/
def value : Operand w → BitVec w
  | .reg x => x
  | .prod x y => F.mul x y

/-- The possible results of `a + b`. -/
def sums (c : Bool) (a b : Operand w) : List (BitVec w) :=
  F.add (F.value a) (F.value b) ::
    if c then
      (match a with
        | .prod x y => [F.fma x y (F.value b)]
        | .reg _ => []) ++
      (match b with
        | .prod x y => [F.fma x y (F.value a)]
        | .reg _ => [])
    else []

/-- The possible results of `a - b`. -/
def diffs (c : Bool) (a b : Operand w) : List (BitVec w) :=
  F.sub (F.value a) (F.value b) ::
    if c then
      (match a with
        | .prod x y => [F.fma x y (F.negate (F.value b))]
        | .reg _ => []) ++
      (match b with
        | .prod x y => [F.fma (F.negate x) y (F.value a)]
        | .reg _ => [])
    else []

end FP.Fmt

namespace Contract
open VecMath
variable (c : Bool) (V : LaneOps 32)

/-- A sum of lanes: `operator+` (vec/vec_sse.hpp:336-352, vec/vec_avx_float.hpp:231-247) -/
abbrev add (a b : Operand 32) : List (BitVec 32) := binary32.sums c a b
/-- A difference of lanes: `operator-` (vec/vec_sse.hpp:336-353, vec/vec_avx_float.hpp:231-248) -/
abbrev sub (a b : Operand 32) : List (BitVec 32) := binary32.diffs c a b

/-- `VecMath.expReduce` (detail/vec_math.hpp:133-137, 216-220) -/
def expReduce (x : Operand 32) (z : BitVec 32) : List (BitVec 32) :=
  (sub c x (.prod z (litF 0.693359375))).flatMap fun x =>
  sub c (.reg x) (.prod z (litF (-2.12194440e-4)))

/-- `VecMath.expPoly` (detail/vec_math.hpp:140-146, 223-229) -/
def expPoly (one x : BitVec 32) : List (BitVec 32) :=
  (add c (.reg (litF 8.420792408287525177001953125e-3))
    (.prod x (litF 1.386119984090328216552734375e-3))).flatMap fun p =>
  (add c (.reg (litF 4.167006909847259521484375e-2)) (.prod x p)).flatMap fun p =>
  (add c (.reg (litF 0.16665561497211456298828125)) (.prod x p)).flatMap fun p =>
  (add c (.reg (litF 0.4999996721744537353515625)) (.prod x p)).flatMap fun p =>
  (add c (.reg (litF 1.00000035762786865234375)) (.prod x p)).flatMap fun p =>
  add c (.reg one) (.prod x p)

/-- `vec_exp_float` (detail/vec_math.hpp:122-164) -/
def vecExp (arg : Operand 32) : List (BitVec 32) :=
  let a := binary32.value arg
  let z := expScale V a
  let n := V.truncateToInt z
  (expReduce c arg z).flatMap fun x =>
  (expPoly c V.one x).map fun p =>
  let approx := ldexp V p n
  let tooLarge := V.maskGt a maxlogf
  let tooSmall := V.maskLt a minlogf
  let ret := V.select approx fltMax tooLarge
  V.select ret V.zero tooSmall

/-- The polynomial of `vec_log_float` up to its last addition (detail/vec_math.hpp:182-190) -/
def logHorner (x : BitVec 32) : List (BitVec 32) :=
  (sub c (.prod (litD 7.0376836292e-2) x) (.reg (litD 1.1514610310e-1))).flatMap fun p =>
  (add c (.prod p x) (.reg (litD 1.1676998740e-1))).flatMap fun p =>
  (sub c (.prod p x) (.reg (litD 1.2420140846e-1))).flatMap fun p =>
  (add c (.prod p x) (.reg (litD 1.4249322787e-1))).flatMap fun p =>
  (sub c (.prod p x) (.reg (litD 1.6668057665e-1))).flatMap fun p =>
  (add c (.prod p x) (.reg (litD 2.0000714765e-1))).flatMap fun p =>
  (sub c (.prod p x) (.reg (litD 2.4999993993e-1))).flatMap fun p =>
  add c (.prod p x) (.reg (litD 3.3333331174e-1))

/-- The last lines of `vec_log_float` (detail/vec_math.hpp:182-199) -/
def logTail (x fe : BitVec 32) : List (BitVec 32) :=
  (logHorner c x).flatMap fun p =>
  (add c (.prod (binary32.mul (binary32.mul p x) x) x) (.prod fe (litD (-2.12194440e-4)))).flatMap fun y =>
  (sub c (.reg y) (.prod (binary32.mul (litD 0.5) x) x)).flatMap fun y =>
  (add c (.reg x) (.reg y)).flatMap fun z =>
  add c (.reg z) (.prod (litD 0.693359375) fe)

/-- `vec_log_float` (detail/vec_math.hpp:167-200) -/
def vecLog (arg : BitVec 32) : List (BitVec 32) :=
  let x := (frexp V arg).1
  let e := (frexp V arg).2
  let xSmaller := V.maskLt x (litF 0.707106781186547524)
  let e := e + xSmaller
  let xAdd := x &&& xSmaller
  (sub c (.reg xAdd) (.reg V.one)).flatMap fun d =>
  (add c (.reg x) (.reg d)).flatMap fun x =>
  logTail c x (V.convertToFloat e)

/-- `vec_exp_tanh_float` (detail/vec_math.hpp:204-234) -/
def vecExpTanh (arg : BitVec 32) : List (BitVec 32) :=
  let z := expScale V arg
  let n := V.truncateToInt z
  (expReduce c (.reg arg) z).flatMap fun x =>
  (expPoly c (litF 1) x).map fun p => ldexp V p n

/-- `VecMath.reduceArg` (detail/vec_math.hpp:264-268, 312-316, 357-361) -/
def reduceArg (absArg y : BitVec 32) : List (BitVec 32) :=
  (sub c (.reg absArg) (.prod y (litD 0.78515625))).flatMap fun x =>
  (sub c (.reg x) (.prod y (litD 2.4187564849853515625e-4))).flatMap fun x =>
  sub c (.reg x) (.prod y (litD 3.77489497744594108e-8))

/-- `VecMath.cosPoly` (detail/vec_math.hpp:271-275, 320-324) -/
def cosPoly (z : BitVec 32) : List (BitVec 32) :=
  (sub c (.prod (litD 2.443315711809948e-5) z) (.reg (litD 1.388731625493765e-3))).flatMap fun p =>
  (add c (.prod p z) (.reg (litD 4.166664568298827e-2))).flatMap fun p =>
  (sub c (.prod (binary32.mul p z) z) (.prod (litF 0.5) z)).flatMap fun p =>
  add c (.reg p) (.reg (litD 1))

/-- `VecMath.sinPoly` (detail/vec_math.hpp:278-280, 327-329) -/
def sinPoly (z base : BitVec 32) : List (BitVec 32) :=
  (add c (.prod (litD (-1.9515295891e-4)) z) (.reg (litD 8.3321608736e-3))).flatMap fun p =>
  (sub c (.prod p z) (.reg (litD 1.6666654611e-1))).flatMap fun p =>
  add c (.prod (binary32.mul p z) base) (.reg base)

/-- `vec_sin_float` (detail/vec_math.hpp:238-285) -/
def vecSin (arg : BitVec 32) : List (BitVec 32) :=
  let sign := arg &&& V.signMask
  let absArg := arg &&& V.absMask
  let j := quadrant V absArg
  let y := V.convertToFloat j
  let swapSignBit := (j &&& 4#32) <<< 29
  let polyMask := intMaskEq (j &&& 2#32) 0#32
  (reduceArg c absArg y).flatMap fun base =>
  let z := binary32.mul base base
  (cosPoly c z).flatMap fun p1 =>
  (sinPoly c z base).map fun p2 =>
  V.select p1 p2 polyMask ^^^ (sign ^^^ swapSignBit)

/-- `vec_cos_float` (detail/vec_math.hpp:288-334) -/
def vecCos (arg : BitVec 32) : List (BitVec 32) :=
  let absArg := arg &&& V.absMask
  let j := quadrant V absArg
  let y := V.convertToFloat j
  let jm2 := j - 2#32
  let sign := (V.intAndnot jm2 4#32) <<< 29
  let polyMask := intMaskEq (jm2 &&& 2#32) 0#32
  (reduceArg c absArg y).flatMap fun base =>
  let z := binary32.mul base base
  (cosPoly c z).flatMap fun p1 =>
  (sinPoly c z base).map fun p2 =>
  V.select p1 p2 polyMask ^^^ sign

/-- `VecMath.tanPoly` (detail/vec_math.hpp:366-367) -/
def tanPoly (x : BitVec 32) : List (BitVec 32) :=
  let x2 := binary32.mul x x
  (add c (.reg (litD 3.1127030961215496063232421875e-3))
    (.prod x2 (litD 9.3892104923725128173828125e-3))).flatMap fun p =>
  (add c (.reg (litD 2.443529665470123291015625e-2)) (.prod x2 p)).flatMap fun p =>
  (add c (.reg (litD 5.3409568965435028076171875e-2)) (.prod x2 p)).flatMap fun p =>
  (add c (.reg (litD 0.1333882510662078857421875)) (.prod x2 p)).flatMap fun p =>
  (add c (.reg (litD 0.3333315551280975341796875)) (.prod x2 p)).flatMap fun p =>
  add c (.reg x) (.prod (binary32.mul x x2) p)

/-- `vec_tan_float` (detail/vec_math.hpp:337-374) -/
def vecTan (arg : BitVec 32) : List (BitVec 32) :=
  let sign := arg &&& V.signMask
  let absArg := arg &&& V.absMask
  let j := quadrant V absArg
  let y := V.convertToFloat j
  let polyMask := intMaskEq (j &&& 2#32) 0#32
  (reduceArg c absArg y).flatMap fun base =>
  (tanPoly c base).map fun approx =>
  let recip := V.div (litD (-1)) approx
  V.select recip approx polyMask ^^^ sign

/-- The inner polynomial of `VecMath.asinPoly` (detail/vec_math.hpp:397) -/
def asinInner (x2 : BitVec 32) : List (BitVec 32) :=
  (add c (.reg (litD 2.418550290167331695556640625e-2))
    (.prod x2 (litD 4.21570129692554473876953125e-2))).flatMap fun p =>
  (add c (.reg (litD 4.54690195620059967041015625e-2)) (.prod x2 p)).flatMap fun p =>
  (add c (.reg (litD 7.4953101575374603271484375e-2)) (.prod x2 p)).flatMap fun p =>
  add c (.reg (litD 0.166667520999908447265625)) (.prod x2 p)

/-- `VecMath.asinPoly` (detail/vec_math.hpp:397) -/
def asinPoly (x : BitVec 32) : List (BitVec 32) :=
  let x2 := binary32.mul x x
  (asinInner c x2).flatMap fun p => add c (.reg x) (.prod (binary32.mul x x2) p)

/-- `vec_asin_float` (detail/vec_math.hpp:377-406): no product is an operand of its other sums -/
def vecAsin (arg : BitVec 32) : List (BitVec 32) :=
  let absArg := arg &&& V.absMask
  let sign := arg &&& V.signMask
  let argGreater05 := V.maskGt absArg (litD 0.5)
  let argReduced := V.sqrt (V.mul (V.sub V.one absArg) V.half)
  let approxArg := V.select absArg argReduced argGreater05
  (asinPoly c approxArg).map fun approxPoly =>
  let approxPolyReduced := V.sub (V.sub (litD 1.57079637050628662109375) approxPoly) approxPoly
  let approx := V.select approxPoly approxPolyReduced argGreater05
  let approx := approx ^^^ sign
  V.select approx V.zero (V.maskGt absArg V.one)

/-- `vec_acos_float` (detail/vec_math.hpp:415-441) -/
def vecAcos (arg : BitVec 32) : List (BitVec 32) :=
  let absArg := arg &&& V.absMask
  let argGreater05 := V.maskGt absArg V.half
  let asinArgGreater05 := V.sqrt (V.mul (V.sub V.one absArg) V.half)
  let asinArg := V.select arg asinArgGreater05 argGreater05
  (vecAsin c V asinArg).map fun asin =>
  let twoAsin := V.add asin asin
  let retM1M05 := V.sub (litD 3.1415927410125732421875) twoAsin
  let retM0505 := V.sub (litD 1.57079637050628662109375) asin
  let ret051 := twoAsin
  let retM051 := V.select retM0505 ret051 (V.maskGt arg V.half)
  let ret := V.select retM1M05 retM051 (V.maskGt arg (litD (-0.5)))
  V.select ret V.zero (V.maskGt absArg V.one)

/-- The inner polynomial of `vec_atan_float` (detail/vec_math.hpp:470-476) -/
def atanInner (x2 : BitVec 32) : List (BitVec 32) :=
  (add c (.reg (litD (-0.1387787759304046630859375)))
    (.prod x2 (litD 8.054284751415252685546875e-2))).flatMap fun p =>
  (add c (.reg (litD 0.19977732002735137939453125)) (.prod x2 p)).flatMap fun p =>
  add c (.reg (litD (-0.333329498767852783203125))) (.prod x2 p)

/-- `vec_atan_float` after the sign has been removed (detail/vec_math.hpp:448-476) -/
def atanAbs (absArg : BitVec 32) : List (BitVec 32) :=
  let argRange0 := absArg
  let argRange1 := V.div (V.sub absArg V.one) (V.add absArg V.one)
  let argRange2 := V.div (V.neg V.one) absArg
  let offsetRange0 := V.zero
  let offsetRange1 := litD 0.78539816339744830961566084581987572104929234984377
  let offsetRange2 := litD 1.57079632679489661923132169163975144209858469968754
  let maskRange01 := V.maskGt absArg (litD 0.41421356237309504880168872420969807856967187537695)
  let maskRange12 := V.maskGt absArg (litD 2.41421356237309504880168872420969807856967187537698)
  let x := V.select argRange0 (V.select argRange1 argRange2 maskRange12) maskRange01
  let approxOffset := V.select offsetRange0 (V.select offsetRange1 offsetRange2 maskRange12) maskRange01
  let x2 := binary32.mul x x
  (atanInner c x2).flatMap fun p =>
  add c (.reg (V.add approxOffset x)) (.prod (binary32.mul x x2) p)

/-- `vec_atan_float` (detail/vec_math.hpp:444-479) -/
def vecAtan (arg : BitVec 32) : List (BitVec 32) :=
  let signArg := arg &&& V.signMask
  let absArg := arg &&& V.absMask
  (atanAbs c V absArg).map fun r => r ^^^ signArg

/-- The inner polynomial of `VecMath.tanhSmall` (detail/vec_math.hpp:501-510) -/
def tanhInner (argSqr : BitVec 32) : List (BitVec 32) :=
  (add c (.prod (litD (-5.70498872745e-3)) argSqr) (.reg (litD 2.06390887954e-2))).flatMap fun p =>
  (add c (.prod p argSqr) (.reg (litD (-5.37397155531e-2)))).flatMap fun p =>
  (add c (.prod p argSqr) (.reg (litD 1.33314422036e-1))).flatMap fun p =>
  add c (.prod p argSqr) (.reg (litD (-3.33332819422e-1)))

/-- `VecMath.tanhSmall` (detail/vec_math.hpp:501-512) -/
def tanhSmall (arg absArg : BitVec 32) : List (BitVec 32) :=
  let argSqr := binary32.mul absArg absArg
  (tanhInner c argSqr).flatMap fun p => add c (.prod (binary32.mul p argSqr) arg) (.reg arg)

/-- `vec_tanh_float` (detail/vec_math.hpp:482-525) -/
def vecTanh (arg : BitVec 32) : List (BitVec 32) :=
  let signArg := arg &&& V.signMask
  let absArg := arg ^^^ signArg
  (vecExpTanh c V (V.add absArg absArg)).flatMap fun e =>
  let resultMediumAbs := V.sub V.one (V.div (litF 2) (V.add e V.one))
  let absBig := V.maskGt absArg (litF 22)
  (tanhSmall c arg absArg).map fun resultSmall =>
  let absSmall := V.maskLt absArg (litF 0.625)
  let resultLmAbs := V.select resultMediumAbs V.one absBig
  let resultLm := resultLmAbs ||| signArg
  V.select resultLm resultSmall absSmall

/-- `vec_pow` (detail/vec_math.hpp:539-547): the product `arg2 * log(arg1)` is the argument of `vec_exp_float` -/
def vecPow (arg1 arg2 : BitVec 32) : List (BitVec 32) :=
  let arg1Zero := V.maskEq arg1 V.zero
  (vecLog c V arg1).flatMap fun l =>
  (vecExp c V (.prod arg2 l)).map fun result => V.select result V.zero arg1Zero

/-- `vec_signed_pow` (detail/vec_math.hpp:527-536) -/
def vecSignedPow (arg1 arg2 : BitVec 32) : List (BitVec 32) :=
  let signArg1 := arg1 &&& V.signMask
  let absArg1 := arg1 ^^^ signArg1
  (vecPow c V absArg1 arg2).map fun result => signArg1 ||| result

/-- `vec_log2`, `vec_log10` (detail/vec_math.hpp:560-572): a product, for the caller to round -/
def vecLogBase (r : BitVec 32) (arg : BitVec 32) : List (Operand 32) := (vecLog c V arg).map fun l => .prod l r

/-- A product and the sum that uses it where the source calls `madd` (vec/vec_base.hpp:388-392, vec/vec_sse.hpp:374-379, vec/vec_avx_float.hpp:271-276):
the class either has one instruction for both or writes `a * b + c` -/
def madd (x y z : BitVec 32) : List (BitVec 32) :=
  V.madd x y z :: if c then add c (.prod x y) (.reg z) else []

/-- `vec_reciprocal_newton` (detail/vec_math.hpp:596-608) -/
def vecReciprocalNewton (arg : BitVec 32) : List (BitVec 32) :=
  let approx := V.fastReciprocal arg
  (sub c (.reg V.one) (.prod approx arg)).flatMap fun diff => madd c V diff approx approx

/-! ## The functors -/
section Functors
variable (A : Arith (BitVec 32)) (r2 r10 : BitVec 32)

/-- `detail::abs_log2` (simd_unit_conversion.hpp:34-41) -/
def absLog2 (x : BitVec 32) : List (Operand 32) := vecLogBase c V r2 (A.abs x)

/-- The possible results of a unary function for one element.  Where no product is an operand of a sum there is one
result, that of `UnOp.f`. -/
def unary (op : UnOp) (x : BitVec 32) : List (Except Fault (BitVec 32)) :=
  match op with
  | .reciprocal => (vecReciprocalNewton c V x).map .ok
  | .sin => (vecSin c V x).map .ok
  | .cos => (vecCos c V x).map .ok
  | .tan => (vecTan c V x).map .ok
  | .asin => (vecAsin c V x).map .ok
  | .acos => (vecAcos c V x).map .ok
  | .atan => (vecAtan c V x).map .ok
  | .tanh => (vecTanh c V x).map .ok
  | .log => (vecLog c V x).map .ok
  | .log2 => (vecLogBase c V r2 x).map fun l => .ok (binary32.value l)
  | .log10 => (vecLogBase c V r10 x).map fun l => .ok (binary32.value l)
  | .exp => (vecExp c V (.reg x)).map .ok
  -- simd_unit_conversion.hpp:43-51
  | .midi2freq => (vecPow c V (A.lit 2) (A.mul (A.sub x (A.lit 69)) (A.lit 0.083333333333))).map fun p =>
      .ok (A.mul (A.lit 440) p)
  -- simd_unit_conversion.hpp:53-60
  | .freq2midi => (absLog2 c V A r2 (A.mul x (A.lit 0.0022727272727))).flatMap fun l =>
      (add c (.prod (binary32.value l) (A.lit 12)) (.reg (A.lit 69))).map .ok
  -- simd_unit_conversion.hpp:62-69
  | .midi2ratio => (vecPow c V (A.lit 2) (A.mul x (A.lit 0.083333333333))).map .ok
  -- simd_unit_conversion.hpp:71-78
  | .ratio2midi => (vecLogBase c V r2 x).map fun l => .ok (A.mul (A.lit 12) (binary32.value l))
  -- simd_unit_conversion.hpp:80-87
  | .oct2freq => (vecPow c V (A.lit 2) (A.sub x (A.lit 4.75))).map fun p => .ok (A.mul (A.lit 440) p)
  -- simd_unit_conversion.hpp:90-97
  | .freq2oct => (absLog2 c V A r2 (A.mul x (A.lit 0.0022727272727))).flatMap fun l =>
      (add c l (.reg (A.lit 4.75))).map .ok
  -- simd_unit_conversion.hpp:99-106
  | .amp2db => (vecLogBase c V r10 (A.abs x)).map fun l => .ok (A.mul (binary32.value l) (A.lit 20))
  -- simd_unit_conversion.hpp:108-115
  | .db2amp => (vecPow c V (A.lit 10) (A.mul x (A.lit 0.05))).map .ok
  | op => [op.f A x]

/-- The possible results of a binary function for one element -/
def binary (op : BinOp) (x y : BitVec 32) : List (BitVec 32) :=
  match op with
  | .pow => vecPow c V x y
  | .spow => vecSignedPow c V x y
  | op => [op.f A x y]

/-- The possible results of a ternary function for one element -/
def ternary (op : TerOp) (x y z : BitVec 32) : List (BitVec 32) :=
  match op with
  | .muladd => madd c V x y z
  -- simd_ternary_arithmetic.hpp:65-73
  | .ampmod => (add c (.reg A.one) (.prod y z)).map fun g => A.mul x g
  | op => [op.f A x y z]

/-- The possible results of a function of four arguments for one element -/
def quad (op : QuadOp) (x y z u : BitVec 32) : List (BitVec 32) :=
  match op with
  -- simd_mix.hpp:38-45
  | .mix => add c (.prod x y) (.prod z u)
  | op => [op.f A x y z u]

end Functors
end Contract
end Nova
