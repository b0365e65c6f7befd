import Verif.Lemmas.RoundLanes
import Verif.Lemmas.BitMath
import Verif.Lemmas.Witness

/-!
# Where the SIMD functions give the same numbers as the scalar ones

`Same a b`: the same bit pattern, or zeros of different sign (C++ `==` cannot tell them apart).  The tables list the
functions and arguments for which `f_vec_simd` promises the same number as `f_vec`; everything not listed uses an
approximation or an instruction that rounds differently.
-/

namespace Nova.Spec
open FP

/-- The same pattern, or both are zeros. -/
def Same {w : Nat} (F : Fmt w) (a b : BitVec w) : Prop := a = b ∨ (F.code a = 0 ∧ F.code b = 0)

/-- The vector class multiplies and adds in two rounded steps. -/
def unfused : Build32 → Bool
  | .sse _ f => !f.fma
  | .avx fma => !fma
  | .altivec => false
  | _ => true

/-- The vector class multiplies with a multiplication. -/
def multiplies : Build32 → Bool
  | .altivec => false
  | _ => true

/-- The vector class divides with a division. -/
def divides : Build32 → Bool
  | .neon => false
  | .altivec => false
  | _ => true

/-- Functions of one `float`.  `c99`: the compiler has `::round`. -/
def UnSame (b : Build32) (c99 : Bool) : UnOp → ℝ → Prop
  | .abs, _ | .sgn, _ | .softclip, _ => True
  | .square, _ | .cube, _ => multiplies b
  | .undenormalize, _ => b.hasUndenormalize
  | .round, x => c99 = true ∧ (b.roundsAll = true ∨ |x| < 2 ^ 23) ∧ ∀ k : ℤ, |x - k| ≠ 1 / 2
  | .floor, x | .ceil, x | .frac, x => b.floorsAll = true ∨ |x| < 2 ^ 23
  | .trunc, x => b ≠ .altivec ∧ |x| < 2 ^ 63
  | .signedSqrt, _ => b.exactSqrt
  | .reciprocal, _ => b = .generic
  | .sin, _ | .cos, _ | .tan, _ | .asin, _ | .acos, _ | .atan, _ | .tanh, _ | .log, _ | .log2, _ | .log10, _ | .exp, _ =>
      b.simdMath = false
  | .midi2freq, _ | .freq2midi, _ | .midi2ratio, _ | .ratio2midi, _ | .oct2freq, _ | .freq2oct, _ | .amp2db, _
  | .db2amp, _ => b.simdMath = false ∧ multiplies b

/-- Functions of two `float`s. -/
def BinSame (b : Build32) : BinOp → Prop
  | .times => multiplies b
  | .over => divides b
  | .pow | .spow => b.simdMath = false
  | _ => True

/-- Functions of three `float`s. -/
def TerSame (b : Build32) : TerOp → Prop
  | .muladd => unfused b
  | .ampmod => multiplies b
  | _ => True

/-- Functions of four `float`s. -/
def QuadSame (b : Build32) : QuadOp → Prop
  | .mix => multiplies b
  | .sum => True

/-- Functions of one `double`: everything but ties of `round` and numbers outside the range of `long`. -/
def UnSame64 : UnOp → ℝ → Prop
  | .round, x => ∀ k : ℤ, |x - k| ≠ 1 / 2
  | .trunc, x => |x| < 2 ^ 63
  | _, _ => True

/-- Functions of three `double`s: everything but the fused `muladd`. -/
def TerSame64 : Build64 → TerOp → Prop
  | .sse2 _ fma, .muladd | .avx fma, .muladd => fma = false
  | _, _ => True

end Nova.Spec
