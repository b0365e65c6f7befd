import Verif.Float.Format

/-!
# Floating point instructions of a processor, one lane

The vector classes are written with intrinsics.  `Hw w` is the list of the instructions they use,
as arbitrary functions; `Hw.ieee` is the processor that conforms to IEEE 754 (binary32, binary64)
in the default rounding mode with the x86 treatment of NaN operands, and with arbitrary estimate
instructions.  This file models the processor, not code in /repo.
-/

namespace Nova
open FP

/-- One lane of the instructions behind the intrinsics. -/
structure Hw (w : Nat) where
  add : BitVec w → BitVec w → BitVec w
  sub : BitVec w → BitVec w → BitVec w
  mul : BitVec w → BitVec w → BitVec w
  div : BitVec w → BitVec w → BitVec w
  /-- fused `a * b + c` (`vfmadd`, `vec_madd`) -/
  fma : BitVec w → BitVec w → BitVec w → BitVec w
  /-- fused `c - a * b` (`vec_nmsub(a, b, c)`) -/
  nmsub : BitVec w → BitVec w → BitVec w → BitVec w
  /-- `vmlaq_f32(a, b, c)` = `a + b * c` -/
  mla : BitVec w → BitVec w → BitVec w → BitVec w
  sqrt : BitVec w → BitVec w
  /-- reciprocal estimate (`rcpps`, `vrecpeq_f32`, `vec_re`) -/
  rcp : BitVec w → BitVec w
  /-- `vrecpsq_f32(a, b)` = `2 - a * b` -/
  recps : BitVec w → BitVec w → BitVec w
  /-- reciprocal square root estimate (`vrsqrteq_f32`, `vec_rsqrte`) -/
  rsqrt : BitVec w → BitVec w
  /-- ordered comparisons: false if an operand is a NaN -/
  lt : BitVec w → BitVec w → Bool
  le : BitVec w → BitVec w → Bool
  eq : BitVec w → BitVec w → Bool
  max : BitVec w → BitVec w → BitVec w
  min : BitVec w → BitVec w → BitVec w
  /-- rounding to an integral number (`roundps`; `vec_floor`, `vec_ceil`) -/
  roundInt : Fmt.Mode → BitVec w → BitVec w
  /-- conversion to a signed integer, truncating (`cvttps2dq`, `vcvtq_s32_f32`) -/
  toInt32 : BitVec w → BitVec 32
  /-- conversion to an unsigned integer, truncating and saturating (`vec_ctu`) -/
  toUInt32 : BitVec w → BitVec 32
  /-- conversion of a signed integer (`cvtdq2ps`) -/
  ofInt32 : BitVec 32 → BitVec w
  /-- conversion of an unsigned integer (`vec_ctf` on unsigned lanes) -/
  ofUInt32 : BitVec 32 → BitVec w

namespace Hw

/-- IEEE arithmetic.  The estimates are not specified by the standard: they remain arbitrary. -/
def ieee {w : Nat} (F : Fmt w) (rcp rsqrt : BitVec w → BitVec w) : Hw w where
  add := F.add
  sub := F.sub
  mul := F.mul
  div := F.div
  fma := F.fma
  nmsub a b c := F.fma (F.negate a) b c
  mla a b c := F.add a (F.mul b c)
  sqrt := F.sqrt
  rcp := rcp
  recps a b := F.sub (F.ofInt 2) (F.mul a b)
  rsqrt := rsqrt
  lt := F.ltb
  le := F.leb
  eq := F.eqb
  max := F.maxps
  min := F.minps
  roundInt := F.roundInt
  toInt32 := F.toInt32
  toUInt32 x :=
    if F.isNaN x || F.neg x then 0
    else if F.isInf x then BitVec.allOnes 32
    else BitVec.ofNat 32 (Nat.min (2 ^ 32 - 1) (mag F.mb (F.code x) / 2 ^ F.scale))
  ofInt32 := F.ofInt32
  ofUInt32 n := F.ofInt n.toNat

end Hw

/-- A lane of a comparison result. -/
def maskOf {w : Nat} (b : Bool) : BitVec w := if b then BitVec.allOnes w else 0#w

end Nova
