import Verif.SpecSame

/-!
# What every x86 build has in common

A program is often built once for SSE2 and once for AVX, and the faster version chosen when it starts, or one machine
renders what another one must reproduce.  The tables list the functions and arguments for which two such builds write
the same bits.  Missing: `reciprocal`, which starts from an estimate that processors compute differently.
-/

namespace Nova.Spec
open FP

/-- What a build must share with another one beside the instructions of IEEE 754: the two factors of `log2` and
`log10`, which the compiler computes from `std::log`.  C library, estimates, assertions and undefined lanes may
differ. -/
def SameFactors (P P' : Platform 32) : Prop := P.r2 = P'.r2 ∧ P.r10 = P'.r10

/-- The class multiplies and adds with one rounding. -/
def fused : Build32 → Bool
  | .sse _ f => f.fma
  | .avx fma => fma
  | _ => false

/-- Two builds return the same bits for this function of one `float`. -/
def UnAlike (b b' : Build32) : UnOp → ℝ → Prop
  | .reciprocal, _ => False
  | .round, x | .floor, x | .frac, x => (b.roundsAll = true ∧ b'.roundsAll = true) ∨ |x| < 2 ^ 23
  | .ceil, x => (b.roundsAll = true ∧ b'.roundsAll = true) ∨ (|x| < 2 ^ 23 ∧ ⌈x⌉ ≠ 0)
  | .trunc, x => (b.roundsAll = true ∧ b'.roundsAll = true) ∨ (|x| < 2 ^ 63 ∧ 1 ≤ |x|)
  | _, _ => True

/-- Two builds return the same bits for this function of three `float`s. -/
def TerAlike (b b' : Build32) : TerOp → Prop
  | .muladd => fused b = fused b'
  | _ => True

end Nova.Spec
