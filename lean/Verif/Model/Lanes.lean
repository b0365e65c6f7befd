import Verif.Model.Scalar
import Verif.Model.VecMath

/-!
# One lane of the arithmetic of every vector class

For every vector class: the interface used by detail/vec_math.hpp (`LaneOps`) and the functions used by
the functors of the library (`Arith`).  The instructions are `hw : Hw w`; functions delegated to
`vec_base` are those of the scalar record `S`.
-/

namespace Nova
open FP VecMath

/-! ## SSE, `vec<float>` (vec/vec_sse.hpp) -/

namespace Sse

/-- `gen_ones` (vec/vec_sse.hpp:130-135): `cmpeq(0, 0)` -/
def ones (hw : Hw 32) : BitVec 32 := maskOf (hw.eq 0#32 0#32)

/-- `gen_sign_mask` (vec/vec_sse.hpp:65-69, 90-93) -/
def signMask (sse2 : Bool) (hw : Hw 32) : BitVec 32 :=
  if sse2 then ((ones hw) >>> 31) <<< 31 else 0x80000000#32
/-- `gen_abs_mask` (vec/vec_sse.hpp:71-75, 95-98) -/
def absMask (sse2 : Bool) (hw : Hw 32) : BitVec 32 :=
  if sse2 then ((ones hw) <<< 1) >>> 1 else 0x7fffffff#32
/-- `gen_one` (vec/vec_sse.hpp:77-81, 100-103) -/
def one (sse2 : Bool) (hw : Hw 32) : BitVec 32 :=
  if sse2 then ((ones hw) >>> 25) <<< 23 else litF 1
/-- `gen_05` (vec/vec_sse.hpp:83-87, 105-108) -/
def half (sse2 : Bool) (hw : Hw 32) : BitVec 32 :=
  if sse2 then ((ones hw) >>> 26) <<< 24 else litF 0.5

/-- The build: `__SSE2__`, `__SSE4_1__`, `__FMA__` (vec/vec_sse.hpp:25, 34, 38, 64, 372) -/
structure Flags where
  sse2 : Bool
  sse41 : Bool
  fma : Bool
deriving DecidableEq

/-- `select` (vec/vec_sse.hpp:428-436): `blendvps` looks at the top bit of the mask -/
def select (sse41 : Bool) (lhs rhs bitmask : BitVec 32) : BitVec 32 :=
  if sse41 then (if bitmask.msb then rhs else lhs)
  else vecSelect (fun a b => ~~~a &&& b) lhs rhs bitmask

/-- `vec<float>` of SSE without `round` (vec/vec_sse.hpp:110-150, 336-470, 668-682; vec/vec_int_sse2.hpp) -/
def pre (f : Flags) (hw : Hw 32) : LaneOps 32 where
  add := hw.add
  sub := hw.sub
  mul := hw.mul
  div := hw.div
  madd a b c := if f.fma then hw.fma a b c else hw.add (hw.mul a b) c
  neg x := x ^^^ signMask f.sse2 hw
  abs x := absMask f.sse2 hw &&& x
  sqrt := hw.sqrt
  fastReciprocal := hw.rcp
  round := hw.roundInt .nearest
  andnot a b := ~~~a &&& b
  select := select f.sse41
  maskLt a b := maskOf (hw.lt a b)
  maskLe a b := maskOf (hw.le a b)
  maskGt a b := maskOf (hw.lt b a)
  maskGe a b := maskOf (hw.le b a)
  maskEq a b := maskOf (hw.eq a b)
  maskNeq a b := maskOf (!hw.eq a b)
  zero := 0#32
  one := one f.sse2 hw
  half := half f.sse2 hw
  signMask := signMask f.sse2 hw
  absMask := absMask f.sse2 hw
  expMask := 0x7F800000#32
  expMask1 := 0x3F000000#32
  truncateToInt := hw.toInt32
  convertToFloat := hw.ofInt32
  intAndnot a b := ~~~a &&& b

/-- `round` (vec/vec_sse.hpp:483-490) -/
def round (f : Flags) (hw : Hw 32) (x : BitVec 32) : BitVec 32 :=
  if f.sse41 then hw.roundInt .nearest x else vecRound (pre f hw) x

/-- The interface with the `round` of the class (vec/vec_sse.hpp:483-490) -/
def ops (f : Flags) (hw : Hw 32) : LaneOps 32 := { pre f hw with round := round f hw }

/-- `floor` (vec/vec_sse.hpp:498-505) -/
def floor (f : Flags) (hw : Hw 32) (x : BitVec 32) : BitVec 32 :=
  if f.sse41 then hw.roundInt .down x else vecFloor (ops f hw) x

/-- `ceil` (vec/vec_sse.hpp:507-514) -/
def ceil (f : Flags) (hw : Hw 32) (x : BitVec 32) : BitVec 32 :=
  if f.sse41 then hw.roundInt .up x else vecCeil (ops f hw) x

/-- The functions of `vec<float>` (vec/vec_sse.hpp:336-626).  `r2`, `r10` are the factors of `log2`
and `log10`. -/
def arith (f : Flags) (hw : Hw 32) (r2 r10 : BitVec 32) (S : Arith (BitVec 32)) :
    Arith (BitVec 32) :=
  let V := ops f hw
  { zero := V.zero
    one := V.one
    lit := S.lit
    add := V.add
    sub := V.sub
    mul := V.mul
    div := V.div
    madd := V.madd
    max_ := hw.max
    min_ := hw.min
    lt := fun x y => V.maskLt x y &&& V.one
    le := fun x y => V.maskLe x y &&& V.one
    gt := fun x y => V.maskGt x y &&& V.one
    ge := fun x y => V.maskGe x y &&& V.one
    eq := fun x y => V.maskEq x y &&& V.one
    ne := fun x y => V.maskNeq x y &&& V.one
    less := S.less
    abs := V.abs
    sign := vecSign V
    square := fun x => V.mul x x
    cube := fun x => V.mul x (V.mul x x)
    reciprocal := vecReciprocalNewton V
    undenormalize := vecUndenormalize V (Scalar.minPositive binary32)
    round := round f hw
    floor := floor f hw
    ceil := ceil f hw
    frac := fun x => V.sub x (floor f hw x)
    trunc := fun x => if f.sse41 then .ok (hw.roundInt .zero x) else S.trunc x
    sin := if f.sse2 then vecSin V else S.sin
    cos := if f.sse2 then vecCos V else S.cos
    tan := if f.sse2 then vecTan V else S.tan
    asin := if f.sse2 then vecAsin V else S.asin
    acos := if f.sse2 then vecAcos V else S.acos
    atan := if f.sse2 then vecAtan V else S.atan
    tanh := if f.sse2 then vecTanh V else S.tanh
    log := if f.sse2 then vecLog V else S.log
    log2 := if f.sse2 then vecLogBase V r2 else S.log2
    log10 := if f.sse2 then vecLogBase V r10 else S.log10
    exp := if f.sse2 then vecExp V else S.exp
    signedSqrt := vecSignedSqrt V
    pow := if f.sse2 then vecPow V else S.pow
    signedPow := if f.sse2 then vecSignedPow V else S.signedPow
    softclip := VecMath.softclip V (litF 0.25) }

end Sse

/-! ## AVX, `vec<float>` (vec/vec_avx_float.hpp) -/

namespace AvxF

/-- `vec<float>` of AVX (vec/vec_avx_float.hpp:55-105, 231-400, 483-495; vec/vec_int_avx.hpp).  `>` and
`>=` use the predicates NLE and NLT. -/
def ops (fma : Bool) (hw : Hw 32) : LaneOps 32 where
  add := hw.add
  sub := hw.sub
  mul := hw.mul
  div := hw.div
  madd a b c := if fma then hw.fma a b c else hw.add (hw.mul a b) c
  neg x := x ^^^ 0x80000000#32
  abs x := 0x7fffffff#32 &&& x
  sqrt := hw.sqrt
  fastReciprocal := hw.rcp
  round := hw.roundInt .nearest
  andnot a b := ~~~a &&& b
  select lhs rhs bitmask := if bitmask.msb then rhs else lhs
  maskLt a b := maskOf (hw.lt a b)
  maskLe a b := maskOf (hw.le a b)
  maskGt a b := maskOf (!hw.le a b)
  maskGe a b := maskOf (!hw.lt a b)
  maskEq a b := maskOf (hw.eq a b)
  maskNeq a b := maskOf (!hw.eq a b)
  zero := 0#32
  one := litF 1
  half := litF 0.5
  signMask := 0x80000000#32
  absMask := 0x7fffffff#32
  expMask := 0x7F800000#32
  expMask1 := 0x3F000000#32
  truncateToInt := hw.toInt32
  convertToFloat := hw.ofInt32
  intAndnot a b := ~~~a &&& b

/-- `gen_ones` (vec/vec_avx_float.hpp:95-100) -/
def genOnes (hw : Hw 32) : BitVec 32 := maskOf (hw.eq 0#32 0#32)

/-- The functions of `vec<float>` (vec/vec_avx_float.hpp:231-480) -/
def arith (fma : Bool) (hw : Hw 32) (r2 r10 : BitVec 32) (S : Arith (BitVec 32)) :
    Arith (BitVec 32) :=
  let V := ops fma hw
  { zero := V.zero
    one := V.one
    lit := S.lit
    add := V.add
    sub := V.sub
    mul := V.mul
    div := V.div
    madd := V.madd
    max_ := hw.max
    min_ := hw.min
    lt := fun x y => V.maskLt x y &&& V.one
    le := fun x y => V.maskLe x y &&& V.one
    gt := fun x y => V.maskGt x y &&& V.one
    ge := fun x y => V.maskGe x y &&& V.one
    eq := fun x y => V.maskEq x y &&& V.one
    ne := fun x y => V.maskNeq x y &&& V.one
    less := S.less
    abs := V.abs
    sign := vecSign V
    square := fun x => V.mul x x
    cube := fun x => V.mul (V.mul x x) x
    reciprocal := vecReciprocalNewton V
    undenormalize := vecUndenormalize V (Scalar.minPositive binary32)
    round := hw.roundInt .nearest
    floor := hw.roundInt .down
    ceil := hw.roundInt .up
    frac := fun x => V.sub x (hw.roundInt .down x)
    trunc := fun x => .ok (hw.roundInt .zero x)
    sin := vecSin V
    cos := vecCos V
    tan := vecTan V
    asin := vecAsin V
    acos := vecAcos V
    atan := vecAtan V
    tanh := vecTanh V
    log := vecLog V
    log2 := vecLogBase V r2
    log10 := vecLogBase V r10
    exp := vecExp V
    signedSqrt := vecSignedSqrt V
    pow := vecPow V
    signedPow := vecSignedPow V
    softclip := VecMath.softclip V (litF 0.25) }

end AvxF

/-! ## SSE2 and AVX, `vec<double>` (vec/vec_sse2.hpp, vec/vec_avx_double.hpp) -/

namespace Dbl

/-- `_mm_cmpeq_epi32(0, 0)`, `_mm_cmpeq_epi64(0, 0)` (vec/vec_sse2.hpp:58-78) -/
def ones : BitVec 64 := BitVec.allOnes 64

/-- `gen_ones` (vec/vec_sse2.hpp:95-100, vec/vec_avx_double.hpp:89-94): `cmpeq(0, 0)` -/
def genOnes (hw : Hw 64) : BitVec 64 := maskOf (hw.eq 0#64 0#64)

/-- The build: AVX or SSE2 (vec.hpp:39-43); `__SSE4_1__`; `__FMA__` (vec/vec_sse2.hpp:28-34) -/
structure Flags where
  avx : Bool
  sse41 : Bool
  fma : Bool
deriving DecidableEq

/-- `gen_sign_mask` (vec/vec_sse2.hpp:58-67, vec/vec_avx_double.hpp:54-57) -/
def signMask (avx : Bool) : BitVec 64 :=
  if avx then 0x8000000000000000#64 else (ones >>> 63) <<< 63

/-- `gen_abs_mask` (vec/vec_sse2.hpp:69-78, vec/vec_avx_double.hpp:59-62) -/
def absMask (avx : Bool) : BitVec 64 :=
  if avx then 0x7fffffffffffffff#64 else (ones <<< 1) >>> 1

/-- `vec<double>` (vec/vec_sse2.hpp:58-100, 231-395; vec/vec_avx_double.hpp:54-95, 212-358).  There is no
integer vector; `expMask`, `expMask1`, `truncateToInt`, `convertToFloat`, `intAndnot` do not exist, and
`andnot` does not exist with AVX. -/
def ops (f : Flags) (hw : Hw 64) : LaneOps 64 where
  add := hw.add
  sub := hw.sub
  mul := hw.mul
  div := hw.div
  madd a b c := if f.fma then hw.fma a b c else hw.add (hw.mul a b) c
  neg x := hw.sub 0#64 x
  abs x := absMask f.avx &&& x
  sqrt := hw.sqrt
  fastReciprocal := hw.rcp
  round := hw.roundInt .nearest
  andnot a b := ~~~a &&& b
  select lhs rhs bitmask :=
    if f.avx || f.sse41 then (if bitmask.msb then rhs else lhs)
    else vecSelect (fun a b => ~~~a &&& b) lhs rhs bitmask
  maskLt a b := maskOf (hw.lt a b)
  maskLe a b := maskOf (hw.le a b)
  maskGt a b := if f.avx then maskOf (!hw.le a b) else maskOf (hw.lt b a)
  maskGe a b := if f.avx then maskOf (!hw.lt a b) else maskOf (hw.le b a)
  maskEq a b := maskOf (hw.eq a b)
  maskNeq a b := maskOf (!hw.eq a b)
  zero := 0#64
  one := binary64.ofRat 1
  half := binary64.ofRat 0.5
  signMask := signMask f.avx
  absMask := absMask f.avx
  expMask := 0
  expMask1 := 0
  truncateToInt := fun _ => 0
  convertToFloat := fun _ => 0
  intAndnot := fun _ _ => 0

/-- The functions of `vec<double>` (vec/vec_sse2.hpp:231-425, vec/vec_avx_double.hpp:212-390) -/
def arith (f : Flags) (hw : Hw 64) (S : Arith (BitVec 64)) : Arith (BitVec 64) :=
  let V := ops f hw
  let vecRounds := f.avx || f.sse41
  { zero := V.zero
    one := V.one
    lit := S.lit
    add := V.add
    sub := V.sub
    mul := V.mul
    div := V.div
    madd := V.madd
    max_ := hw.max
    min_ := hw.min
    lt := fun x y => V.maskLt x y &&& V.one
    le := fun x y => V.maskLe x y &&& V.one
    gt := fun x y => V.maskGt x y &&& V.one
    ge := fun x y => V.maskGe x y &&& V.one
    eq := fun x y => V.maskEq x y &&& V.one
    ne := fun x y => V.maskNeq x y &&& V.one
    less := S.less
    abs := V.abs
    sign := vecSign V
    square := fun x => V.mul x x
    cube := fun x => V.mul x (V.mul x x)
    reciprocal := S.reciprocal
    undenormalize := vecUndenormalize V (Scalar.minPositive binary64)
    round := if vecRounds then hw.roundInt .nearest else S.round
    floor := if vecRounds then hw.roundInt .down else S.floor
    ceil := if vecRounds then hw.roundInt .up else S.ceil
    frac := fun x => V.sub x (if vecRounds then hw.roundInt .down x else S.floor x)
    trunc := fun x => if vecRounds then .ok (hw.roundInt .zero x) else S.trunc x
    sin := S.sin
    cos := S.cos
    tan := S.tan
    asin := S.asin
    acos := S.acos
    atan := S.atan
    tanh := S.tanh
    log := S.log
    log2 := S.log2
    log10 := S.log10
    exp := S.exp
    signedSqrt := vecSignedSqrt V
    pow := S.pow
    signedPow := S.signedPow
    softclip := VecMath.softclip V (binary64.ofRat 0.25) }

end Dbl

/-! ## NEON, `vec<float>` (vec/vec_neon.hpp) -/

namespace Neon

/-- `vdivq_f32` (vec/vec_neon.hpp:248-253) -/
def div (hw : Hw 32) (lhs rhs : BitVec 32) : BitVec 32 :=
  let reciprocal := hw.rcp rhs
  let reciprocal := hw.mul reciprocal (hw.recps rhs reciprocal)
  hw.mul lhs reciprocal

/-- `reciprocal` (vec/vec_neon.hpp:262-267) -/
def reciprocal (hw : Hw 32) (arg : BitVec 32) : BitVec 32 :=
  let r := hw.rcp arg
  hw.mul r (hw.recps arg r)

/-- `vec<float>` of NEON (vec/vec_neon.hpp:64-115, 284-400, 459-490; vec/vec_int_neon.hpp).  `select`
passes its operands to `vbslq_f32` in the order `lhs, rhs`; `andnot` complements its second operand. -/
def pre (hw : Hw 32) : LaneOps 32 where
  add := hw.add
  sub := hw.sub
  mul := hw.mul
  div := div hw
  madd a b c := hw.mla c b a
  neg x := hw.sub 0#32 x
  abs x := x &&& 0x7fffffff#32
  sqrt x := hw.mul x (hw.rsqrt x)
  fastReciprocal := hw.rcp
  round := hw.roundInt .nearest
  andnot a b := a &&& ~~~b
  select lhs rhs bitmask := (bitmask &&& lhs) ||| (~~~bitmask &&& rhs)
  maskLt a b := maskOf (hw.lt a b)
  maskLe a b := maskOf (hw.le a b)
  maskGt a b := maskOf (hw.lt b a)
  maskGe a b := maskOf (hw.le b a)
  maskEq a b := maskOf (hw.eq a b)
  maskNeq a b := ~~~maskOf (hw.eq a b)
  zero := 0#32
  one := litF 1
  half := litF 0.5
  signMask := 0x80000000#32
  absMask := 0x7fffffff#32
  expMask := 0x7F800000#32
  expMask1 := 0x3F000000#32
  truncateToInt := hw.toInt32
  convertToFloat := hw.ofInt32
  intAndnot a b := a &&& ~~~b

/-- The interface with the `round` of the class (vec/vec_neon.hpp:404-407). -/
def ops (hw : Hw 32) : LaneOps 32 := { pre hw with round := vecRound (pre hw) }

/-- The functions of `vec<float>` (vec/vec_neon.hpp:246-480).  There is no `undenormalize`; the field is
not used. -/
def arith (hw : Hw 32) (S : Arith (BitVec 32)) : Arith (BitVec 32) :=
  let V := ops hw
  { zero := V.zero
    one := V.one
    lit := S.lit
    add := V.add
    sub := V.sub
    mul := V.mul
    div := V.div
    madd := V.madd
    max_ := hw.max
    min_ := hw.min
    lt := fun x y => V.maskLt x y &&& V.one
    le := fun x y => V.maskLe x y &&& V.one
    gt := fun x y => V.maskGt x y &&& V.one
    ge := fun x y => V.maskGe x y &&& V.one
    eq := fun x y => V.maskEq x y &&& V.one
    ne := fun x y => V.maskNeq x y &&& V.one
    less := S.less
    abs := V.abs
    sign := vecSign V
    square := fun x => V.mul x x
    cube := fun x => V.mul x (V.mul x x)
    reciprocal := reciprocal hw
    undenormalize := S.undenormalize
    round := vecRound V
    floor := vecFloor V
    ceil := vecCeil V
    frac := fun x => V.sub x (vecFloor V x)
    trunc := S.trunc
    sin := S.sin
    cos := S.cos
    tan := S.tan
    asin := S.asin
    acos := S.acos
    atan := S.atan
    tanh := S.tanh
    log := S.log
    log2 := S.log2
    log10 := S.log10
    exp := S.exp
    signedSqrt := vecSignedSqrt V
    pow := S.pow
    signedPow := S.signedPow
    softclip := S.softclip }

end Neon

/-! ## Altivec, `vec<float>` (vec/vec_altivec.hpp) -/

namespace Altivec

/-- `vec_mul` (vec/vec_altivec.hpp:226-229): a fused multiplication and addition of zero -/
def mul (hw : Hw 32) (lhs rhs : BitVec 32) : BitVec 32 := hw.fma lhs rhs 0#32

/-- `vec_reciprocal` (vec/vec_altivec.hpp:231-240) -/
def reciprocal (hw : Hw 32) (arg : BitVec 32) : BitVec 32 :=
  let estimate := hw.rcp arg
  hw.fma (hw.nmsub estimate arg (litF 1)) estimate estimate

/-- `vec_rsqrt` (vec/vec_altivec.hpp:395-409) -/
def rsqrt (hw : Hw 32) (arg : BitVec 32) : BitVec 32 :=
  let estimate := hw.rsqrt arg
  let estimateSquared := hw.fma estimate estimate 0#32
  let halfEstimate := hw.fma estimate (litF 0.5) 0#32
  hw.fma (hw.nmsub arg estimateSquared (litF 1)) halfEstimate estimate

/-- `vec<float>` of Altivec (vec/vec_altivec.hpp:74-122, 224-440, 466-480; vec/vec_int_altivec.hpp).
`andnot` is `vec_andc`, which complements its second operand; the integer lanes are unsigned. -/
def pre (hw : Hw 32) : LaneOps 32 where
  add := hw.add
  sub := hw.sub
  mul := mul hw
  div a b := mul hw a (reciprocal hw b)
  madd := hw.fma
  neg x := x ^^^ 0x80000000#32
  abs x := x &&& 0x7fffffff#32
  sqrt x := mul hw x (rsqrt hw x)
  fastReciprocal := hw.rcp
  round := hw.roundInt .nearest
  andnot a b := a &&& ~~~b
  select lhs rhs bitmask := (~~~bitmask &&& lhs) ||| (bitmask &&& rhs)
  maskLt a b := maskOf (hw.lt a b)
  maskLe a b := maskOf (hw.le a b)
  maskGt a b := maskOf (hw.lt b a)
  maskGe a b := maskOf (hw.le b a)
  maskEq a b := maskOf (hw.eq a b)
  maskNeq a b := ~~~maskOf (hw.eq a b)
  zero := 0#32
  one := litF 1
  half := litF 0.5
  signMask := 0x80000000#32
  absMask := 0x7fffffff#32
  expMask := 0x7F800000#32
  expMask1 := 0x3F000000#32
  truncateToInt := hw.toUInt32
  convertToFloat := hw.ofUInt32
  intAndnot a b := a &&& ~~~b

/-- The interface with the `round` of the class (vec/vec_altivec.hpp:444-448). -/
def ops (hw : Hw 32) : LaneOps 32 := { pre hw with round := vecRound (pre hw) }

/-- The functions of `vec<float>` (vec/vec_altivec.hpp:224-590).  There is no `undenormalize`; the field is
not used. -/
def arith (hw : Hw 32) (S : Arith (BitVec 32)) : Arith (BitVec 32) :=
  let V := ops hw
  { zero := V.zero
    one := V.one
    lit := S.lit
    add := V.add
    sub := V.sub
    mul := V.mul
    div := V.div
    madd := V.madd
    max_ := hw.max
    min_ := hw.min
    lt := fun x y => V.maskLt x y &&& V.one
    le := fun x y => V.maskLe x y &&& V.one
    gt := fun x y => V.maskGt x y &&& V.one
    ge := fun x y => V.maskGe x y &&& V.one
    eq := fun x y => V.maskEq x y &&& V.one
    ne := fun x y => V.maskNeq x y &&& V.one
    less := S.less
    abs := V.abs
    sign := vecSign V
    square := fun x => V.mul x x
    cube := fun x => V.mul x (V.mul x x)
    reciprocal := reciprocal hw
    undenormalize := S.undenormalize
    round := vecRound V
    floor := hw.roundInt .down
    ceil := hw.roundInt .up
    frac := fun x => V.sub x (hw.roundInt .down x)
    trunc := fun x => .ok (hw.ofUInt32 (hw.toUInt32 x))
    sin := S.sin
    cos := S.cos
    tan := S.tan
    asin := S.asin
    acos := S.acos
    atan := S.atan
    tanh := S.tanh
    log := S.log
    log2 := S.log2
    log10 := S.log10
    exp := S.exp
    signedSqrt := S.signedSqrt
    pow := S.pow
    signedPow := S.signedPow
    softclip := S.softclip }

end Altivec

/-! ## simd_utils.hpp: constants of the SSE helper functions -/

namespace SimdUtils

/-- `_mm_cmpeq_epi32(x, x)` (simd_utils.hpp:39-65) -/
def ones : BitVec 32 := BitVec.allOnes 32
/-- `gen_sign_mask` (simd_utils.hpp:39-44, 71-76) -/
def signMask (sse2 : Bool) : BitVec 32 := if sse2 then (ones >>> 31) <<< 31 else 0x80000000#32
/-- `gen_abs_mask` (simd_utils.hpp:46-51, 78-83) -/
def absMask (sse2 : Bool) : BitVec 32 := if sse2 then (ones <<< 1) >>> 1 else 0x7fffffff#32
/-- `gen_one` (simd_utils.hpp:53-58, 85-88) -/
def one (sse2 : Bool) : BitVec 32 := if sse2 then (ones >>> 25) <<< 23 else litF 1
/-- `gen_05` (simd_utils.hpp:60-65, 90-93) -/
def half (sse2 : Bool) : BitVec 32 := if sse2 then (ones >>> 26) <<< 24 else litF 0.5
/-- `gen_025` (simd_utils.hpp:97-100) -/
def quarter : BitVec 32 := litF 0.25

end SimdUtils

/-! ## No instruction set (vec/vec_generic.hpp:119-187): every function is the scalar one -/

/-- `gen_ones` (vec/vec_generic.hpp:115-118): the number 1.0, not a mask -/
def genericOnes {w : Nat} (F : Fmt w) : BitVec w := F.ofInt 1

/-- `select` (vec/vec_generic.hpp:154-162) -/
def genericSelect {w : Nat} (F : Fmt w) (lhs rhs bitmask : BitVec w) : BitVec w :=
  if !F.eqb bitmask F.posZero then rhs else lhs

end Nova
