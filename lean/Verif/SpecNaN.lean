import Verif.Model.Builds
import Verif.Model.Functors

/-!
# Where a NaN in the input is a NaN in the output

The tables list the functions for which a NaN argument always gives a NaN.  Functions of the C library are assumed to
do so (`Libm.KeepsNaN`, C99 annex F.10).
-/

namespace Nova
open FP

/-- The functions of the C library return a NaN for a NaN argument; `pow` does unless the base is 1 (or the argument NaN is
the base, about which nothing is assumed). -/
structure Libm.KeepsNaN {w : Nat} (F : Fmt w) (M : Libm w) : Prop where
  sin : ∀ x, F.isNaN x = true → F.isNaN (M.sin x) = true
  cos : ∀ x, F.isNaN x = true → F.isNaN (M.cos x) = true
  tan : ∀ x, F.isNaN x = true → F.isNaN (M.tan x) = true
  asin : ∀ x, F.isNaN x = true → F.isNaN (M.asin x) = true
  acos : ∀ x, F.isNaN x = true → F.isNaN (M.acos x) = true
  atan : ∀ x, F.isNaN x = true → F.isNaN (M.atan x) = true
  tanh : ∀ x, F.isNaN x = true → F.isNaN (M.tanh x) = true
  log : ∀ x, F.isNaN x = true → F.isNaN (M.log x) = true
  log2 : ∀ x, F.isNaN x = true → F.isNaN (M.log2 x) = true
  log10 : ∀ x, F.isNaN x = true → F.isNaN (M.log10 x) = true
  exp : ∀ x, F.isNaN x = true → F.isNaN (M.exp x) = true
  pow : ∀ x y, x ≠ F.ofInt 1 → F.isNaN y = true → F.isNaN (M.pow x y) = true

namespace Spec

/-- The vector class has its own transcendental functions. -/
def ownMath : Build32 → Bool
  | .sse _ f => f.sse2
  | .avx _ => true
  | _ => false

/-- Unary functions of `float` whose SIMD version keeps NaNs.  `sgn` never does; `trunc` does if it is an instruction (else
it is undefined, or 0 on Altivec); logarithms do where the C library computes them; what depends on `>` does not with AVX. -/
def UnKeepsNaN (b : Build32) : UnOp → Bool
  | .sgn => false
  | .trunc => match b with
    | .sse _ f => f.sse41
    | .avx _ => true
    | _ => false
  | .log | .log2 | .log10 | .freq2midi | .ratio2midi | .freq2oct | .amp2db => !ownMath b
  | .asin | .acos | .tanh | .exp | .midi2freq | .midi2ratio | .oct2freq | .db2amp => match b with
    | .avx _ => false
    | _ => true
  | _ => true

/-- Minimum and maximum of the class are ARM or PowerPC instructions. -/
def armMinMax : Build32 → Bool
  | .neon => true
  | .altivec => true
  | _ => false

/-- Binary functions: a NaN in either argument. -/
def BinKeepsNaN (b : Build32) : BinOp → Bool
  | .plus | .minus | .times | .over | .sum => true
  | .min | .max | .clip2 => armMinMax b
  | _ => false

/-- Ternary functions: a NaN in any argument. -/
def TerKeepsNaN (b : Build32) : TerOp → Bool
  | .clip => armMinMax b
  | _ => true

/-- Unary functions whose scalar version keeps NaNs; for `double` also their SIMD version, but for `trunc`. -/
def ScalarKeepsNaN : UnOp → Bool
  | .sgn | .trunc => false
  | _ => true

/-- `trunc` of `double` is an instruction. -/
def truncates : Build64 → Bool
  | .generic => false
  | .sse2 sse41 _ => sse41
  | .avx _ => true

/-- Binary functions on scalars, and on `double`. -/
def ScalarBinKeepsNaN : BinOp → Bool
  | .plus | .minus | .times | .over | .sum => true
  | _ => false

end Spec
end Nova
