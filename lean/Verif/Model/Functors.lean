import Verif.Model.Unroll

/-!
# The functors and the public `*_vec`, `*_vec_simd`, `*_vec_simd<n>` functions

Every functor is a template over the argument type; it is modelled by a function of the `Arith`
record.  The scalar functions instantiate it with the scalar record `A`, the SIMD functions with
`I.lane`.  `NOVA_SIMD_DEFINE_UNARY_WRAPPER` … `NOVA_SIMD_DEFINE_4ARY_WRAPPER`
(detail/define_macros.hpp:172-281) generate the three public functions of every functor.
-/

namespace Nova
variable {α : Type}

/-! ## Functors -/

namespace Functor
variable (A : Arith α)

/-- detail::abs_log2 (simd_unit_conversion.hpp:34-41) -/
def absLog2 (arg : α) : α := A.log2 (A.abs arg)

/-- detail::midi2freq (simd_unit_conversion.hpp:43-51) -/
def midi2freq (midi : α) : α :=
  A.mul (A.lit 440) (A.pow (A.lit 2) (A.mul (A.sub midi (A.lit 69)) (A.lit 0.083333333333)))

/-- detail::freq2midi (simd_unit_conversion.hpp:53-60) -/
def freq2midi (freq : α) : α :=
  A.add (A.mul (absLog2 A (A.mul freq (A.lit 0.0022727272727))) (A.lit 12)) (A.lit 69)

/-- detail::midi2ratio (simd_unit_conversion.hpp:62-69) -/
def midi2ratio (midi : α) : α := A.pow (A.lit 2) (A.mul midi (A.lit 0.083333333333))

/-- detail::ratio2midi (simd_unit_conversion.hpp:71-78) -/
def ratio2midi (ratio : α) : α := A.mul (A.lit 12) (A.log2 ratio)

/-- detail::oct2freq (simd_unit_conversion.hpp:80-87) -/
def oct2freq (note : α) : α := A.mul (A.lit 440) (A.pow (A.lit 2) (A.sub note (A.lit 4.75)))

/-- detail::freq2oct (simd_unit_conversion.hpp:90-97) -/
def freq2oct (freq : α) : α := A.add (absLog2 A (A.mul freq (A.lit 0.0022727272727))) (A.lit 4.75)

/-- detail::amp2db (simd_unit_conversion.hpp:99-106) -/
def amp2db (amp : α) : α := A.mul (A.log10 (A.abs amp)) (A.lit 20)

/-- detail::db2amp (simd_unit_conversion.hpp:108-115) -/
def db2amp (db : α) : α := A.pow (A.lit 10) (A.mul db (A.lit 0.05))

/-- detail::clip2 (simd_binary_arithmetic.hpp:77-86) -/
def clip2 (f limit : α) : α :=
  let neg := A.sub A.zero limit
  A.max_ neg (A.min_ f limit)

/-- detail::clip (simd_ternary_arithmetic.hpp:40-48) -/
def clip (value low high : α) : α := A.max_ (A.min_ value high) low

/-- detail::muladd (simd_ternary_arithmetic.hpp:50-63): `value * mul + add` on scalars,
`madd(value, mul, add)` on vectors -/
def muladd (value mul add : α) : α := A.madd value mul add

/-- detail::ampmod (simd_ternary_arithmetic.hpp:65-73) -/
def ampmod (signal modulator amount : α) : α :=
  A.mul signal (A.add A.one (A.mul modulator amount))

/-- detail::scaled_mix2 (simd_mix.hpp:38-45), also used by `pan2` (simd_pan.hpp) -/
def mix2 (sig0 factor0 sig1 factor1 : α) : α := A.add (A.mul sig0 factor0) (A.mul sig1 factor1)

/-- detail::sum with three arguments (simd_mix.hpp:55-59) -/
def sum3 (a b c : α) : α := A.add (A.add a b) c

/-- detail::sum with four arguments (simd_mix.hpp:61-65) -/
def sum4 (a b c d : α) : α := A.add (A.add a b) (A.add c d)

end Functor

/-! ## Names of the public functions -/

/-- The unary functions: simd_unary_arithmetic.hpp:67-79, simd_math.hpp:55-69,
simd_unit_conversion.hpp:120-130, softclip.hpp:93. -/
inductive UnOp where
  | abs | sgn | square | cube | round | frac | ceil | floor | trunc | undenormalize | reciprocal
  | sin | cos | tan | asin | acos | atan | tanh | log | log2 | log10 | exp | signedSqrt
  | midi2freq | freq2midi | midi2ratio | ratio2midi | oct2freq | freq2oct | amp2db | db2amp
  | softclip
deriving DecidableEq, Repr

/-- The functor behind a unary function (simd_unary_arithmetic.hpp:36-63, simd_math.hpp:37-69,
simd_unit_conversion.hpp:34-115, softclip.hpp:38-89) -/
def UnOp.f (A : Arith α) : UnOp → α → Except Fault α
  | abs, x => .ok (A.abs x)
  | sgn, x => .ok (A.sign x)
  | square, x => .ok (A.square x)
  | cube, x => .ok (A.cube x)
  | round, x => .ok (A.round x)
  | frac, x => .ok (A.frac x)
  | ceil, x => .ok (A.ceil x)
  | floor, x => .ok (A.floor x)
  | trunc, x => A.trunc x
  | undenormalize, x => .ok (A.undenormalize x)
  | reciprocal, x => .ok (A.reciprocal x)
  | sin, x => .ok (A.sin x)
  | cos, x => .ok (A.cos x)
  | tan, x => .ok (A.tan x)
  | asin, x => .ok (A.asin x)
  | acos, x => .ok (A.acos x)
  | atan, x => .ok (A.atan x)
  | tanh, x => .ok (A.tanh x)
  | log, x => .ok (A.log x)
  | log2, x => .ok (A.log2 x)
  | log10, x => .ok (A.log10 x)
  | exp, x => .ok (A.exp x)
  | signedSqrt, x => .ok (A.signedSqrt x)
  | midi2freq, x => .ok (Functor.midi2freq A x)
  | freq2midi, x => .ok (Functor.freq2midi A x)
  | midi2ratio, x => .ok (Functor.midi2ratio A x)
  | ratio2midi, x => .ok (Functor.ratio2midi A x)
  | oct2freq, x => .ok (Functor.oct2freq A x)
  | freq2oct, x => .ok (Functor.freq2oct A x)
  | amp2db, x => .ok (Functor.amp2db A x)
  | db2amp, x => .ok (Functor.db2amp A x)
  | softclip, x => .ok (A.softclip x)

/-- The binary functions: simd_binary_arithmetic.hpp:165-180, simd_math.hpp:90-91,
simd_mix.hpp:72. -/
inductive BinOp where
  | plus | minus | times | over | min | max | less | lessEqual | greater | greaterEqual | equal
  | notequal | clip2 | pow | spow | sum
deriving DecidableEq, Repr

/-- The functor behind a binary function (simd_binary_arithmetic.hpp:41-160, simd_math.hpp:73-88,
simd_mix.hpp:48-53) -/
def BinOp.f (A : Arith α) : BinOp → α → α → α
  | plus => A.add
  | minus => A.sub
  | times => A.mul
  | over => A.div
  | min => A.min_
  | max => A.max_
  | less => A.lt
  | lessEqual => A.le
  | greater => A.gt
  | greaterEqual => A.ge
  | equal => A.eq
  | notequal => A.ne
  | clip2 => Functor.clip2 A
  | pow => A.pow
  | spow => A.signedPow
  | sum => A.add

/-- The ternary functions: simd_ternary_arithmetic.hpp:78-80, simd_mix.hpp:73. -/
inductive TerOp where
  | clip | muladd | ampmod | sum
deriving DecidableEq, Repr

/-- The functor behind a ternary function (simd_ternary_arithmetic.hpp:40-73, simd_mix.hpp:55-59) -/
def TerOp.f (A : Arith α) : TerOp → α → α → α → α
  | clip => Functor.clip A
  | muladd => Functor.muladd A
  | ampmod => Functor.ampmod A
  | sum => Functor.sum3 A

/-- The four-argument functions: simd_mix.hpp:70, 74. -/
inductive QuadOp where
  | mix | sum
deriving DecidableEq, Repr

/-- The functor behind a four-argument function (simd_mix.hpp:38-45, 61-65) -/
def QuadOp.f (A : Arith α) : QuadOp → α → α → α → α → α
  | mix => Functor.mix2 A
  | sum => Functor.sum4 A

/-! ## The public functions -/

/-- `NAME_vec(out, arg, n)` (detail/define_macros.hpp:174-178) -/
def UnOp.vec (A : Arith α) (op : UnOp) (out arg : Nat) (n : BitVec 32) : Exec α Unit :=
  performVec1 (op.f A) out arg n

/-- `NAME_vec_simd(out, arg, n)` (detail/define_macros.hpp:180-184) -/
def UnOp.vecSimd (I : VecImpl α) (op : UnOp) (out arg : Nat) (n : BitVec 32) : Exec α Unit :=
  performVecSimd1 I (op.f I.lane) out arg n

/-- `NAME_vec_simd<n>(out, arg)` (detail/define_macros.hpp:186-190) -/
def UnOp.vecSimdN (I : VecImpl α) (op : UnOp) (N out arg : Nat) : Exec α Unit :=
  performVecSimdN1 I (op.f I.lane) N out arg

/-- `NAME_vec(out, arg1, arg2, n)` (detail/define_macros.hpp:194-198) -/
def BinOp.vec (A : Arith α) (op : BinOp) (out : Nat) (a b : SArg α) (n : BitVec 32) :
    Exec α Unit :=
  performVec2 A (op.f A) out a b n

/-- `NAME_vec_simd(out, arg1, arg2, n)` (detail/define_macros.hpp:200-204) -/
def BinOp.vecSimd (I : VecImpl α) (op : BinOp) (out : Nat) (a b : SArg α) (n : BitVec 32) :
    Exec α Unit :=
  performVecSimd2 I (op.f I.lane) out a b n

/-- `NAME_vec_simd<n>(out, arg1, arg2)` (detail/define_macros.hpp:206-210) -/
def BinOp.vecSimdN (I : VecImpl α) (op : BinOp) (N out : Nat) (a b : SArg α) : Exec α Unit :=
  performVecSimdN2 I (op.f I.lane) N out a b

/-- `NAME_vec(out, arg1, arg2, arg3, n)` (detail/define_macros.hpp:215-223) -/
def TerOp.vec (A : Arith α) (op : TerOp) (out : Nat) (a b c : SArg α) (n : BitVec 32) :
    Exec α Unit :=
  performVec3 A (op.f A) out a b c n

/-- `NAME_vec_simd(out, arg1, arg2, arg3, n)` (detail/define_macros.hpp:225-233) -/
def TerOp.vecSimd (I : VecImpl α) (op : TerOp) (out : Nat) (a b c : SArg α) (n : BitVec 32) :
    Exec α Unit :=
  performVecSimd3 I (op.f I.lane) out a b c n

/-- `NAME_vec_simd<N>(out, arg1, arg2, arg3)` (detail/define_macros.hpp:235-244) -/
def TerOp.vecSimdN (I : VecImpl α) (op : TerOp) (N out : Nat) (a b c : SArg α) : Exec α Unit :=
  performVecSimdN3 I (op.f I.lane) N out a b c

/-- `NAME_vec(out, arg1, …, arg4, n)` (detail/define_macros.hpp:248-258) -/
def QuadOp.vec (A : Arith α) (op : QuadOp) (out : Nat) (a b c d : SArg α) (n : BitVec 32) :
    Exec α Unit :=
  performVec4 A (op.f A) out a b c d n

/-- `NAME_vec_simd(out, arg1, …, arg4, n)` (detail/define_macros.hpp:260-269) -/
def QuadOp.vecSimd (I : VecImpl α) (op : QuadOp) (out : Nat) (a b c d : SArg α) (n : BitVec 32) :
    Exec α Unit :=
  performVecSimd4 I (op.f I.lane) out a b c d n

/-- `NAME_vec_simd<N>(out, arg1, …, arg4)` (detail/define_macros.hpp:271-281) -/
def QuadOp.vecSimdN (I : VecImpl α) (op : QuadOp) (N out : Nat) (a b c d : SArg α) :
    Exec α Unit :=
  performVecSimdN4 I (op.f I.lane) N out a b c d

end Nova
