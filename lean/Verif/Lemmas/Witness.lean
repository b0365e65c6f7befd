import Verif.Lemmas.BitMath

/-!
# Evaluating the templates on concrete patterns

The templates of detail/vec_math.hpp other than the reciprocal do not use the estimate instructions, so
their results can be computed on a platform with arbitrary ones.
-/

namespace Nova
open FP VecMath

/-- A platform for evaluation. -/
def platform0 : Platform 32 where
  M := ⟨id, id, id, id, id, id, id, id, id, id, id, fun a _ => a⟩
  rcp := id
  rsqrt := id
  r2 := 0
  r10 := 0
  c99 := true
  junk _ := 0
  ndebug := true

section
attribute [local irreducible] litD litF Fmt.add Fmt.mul Fmt.div Fmt.sub Fmt.fma Fmt.ltb Fmt.leb Fmt.eqb
  Fmt.roundInt Fmt.toInt32 Fmt.ofInt32 Fmt.sqrt

theorem avx_tanh0 (f : Bool) (P : Platform 32) (x : BitVec 32) :
    vecTanh (AvxF.ops f (P.x86 binary32)) x = vecTanh (AvxF.ops f (platform0.x86 binary32)) x := rfl

theorem sse_tanh0 (f : Sse.Flags) (P : Platform 32) (x : BitVec 32) :
    vecTanh (Sse.ops f (P.x86 binary32)) x = vecTanh (Sse.ops f (platform0.x86 binary32)) x := rfl

theorem avx_exp0 (f : Bool) (P : Platform 32) (x : BitVec 32) :
    vecExp (AvxF.ops f (P.x86 binary32)) x = vecExp (AvxF.ops f (platform0.x86 binary32)) x := rfl

theorem sse_exp0 (f : Sse.Flags) (P : Platform 32) (x : BitVec 32) :
    vecExp (Sse.ops f (P.x86 binary32)) x = vecExp (Sse.ops f (platform0.x86 binary32)) x := rfl

theorem avx_log0 (f : Bool) (P : Platform 32) (x : BitVec 32) :
    vecLog (AvxF.ops f (P.x86 binary32)) x = vecLog (AvxF.ops f (platform0.x86 binary32)) x := rfl

theorem sse_log0 (f : Sse.Flags) (P : Platform 32) (x : BitVec 32) :
    vecLog (Sse.ops f (P.x86 binary32)) x = vecLog (Sse.ops f (platform0.x86 binary32)) x := rfl

theorem avx_sin0 (f : Bool) (P : Platform 32) (x : BitVec 32) :
    vecSin (AvxF.ops f (P.x86 binary32)) x = vecSin (AvxF.ops f (platform0.x86 binary32)) x := rfl

theorem sse_sin0 (f : Sse.Flags) (P : Platform 32) (x : BitVec 32) :
    vecSin (Sse.ops f (P.x86 binary32)) x = vecSin (Sse.ops f (platform0.x86 binary32)) x := rfl

theorem avx_cos0 (f : Bool) (P : Platform 32) (x : BitVec 32) :
    vecCos (AvxF.ops f (P.x86 binary32)) x = vecCos (AvxF.ops f (platform0.x86 binary32)) x := rfl

theorem sse_cos0 (f : Sse.Flags) (P : Platform 32) (x : BitVec 32) :
    vecCos (Sse.ops f (P.x86 binary32)) x = vecCos (Sse.ops f (platform0.x86 binary32)) x := rfl

end

/-- Builds with the vector versions of the transcendental functions; the others call the C library. -/
def Build32.simdMath : Build32 → Bool
  | .sse _ f => f.sse2
  | .avx _ => true
  | _ => false

end Nova
