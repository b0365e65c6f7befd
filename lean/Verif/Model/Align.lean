import Verif.Model.Backends

/-!
# `vec<F>::is_aligned`
-/

namespace Nova

/-- `sizeof(F)` (the classes of vec.hpp:23-43) -/
def Target.elemBytes : Target → Nat
  | .genericDouble => 8
  | .sse2 => 8
  | .avxDouble => 8
  | _ => 4

/-- The primary template (vec/vec_generic.hpp:66-187) -/
def Target.isGeneric : Target → Bool
  | .genericFloat => true
  | .genericDouble => true
  | _ => false

/-- `vec<F>::is_aligned(ptr)` on a 64-bit address: vec/vec_generic.hpp:105-108 (`sizeof(float)` for every
type), vec/vec_sse.hpp:151-154, vec/vec_sse2.hpp:112-115, vec/vec_avx_float.hpp:115-118,
vec/vec_avx_double.hpp:104-107, vec/vec_neon.hpp:122-125, vec/vec_altivec.hpp:132-135
(`size * sizeof(F)`) -/
def Target.isAligned (t : Target) (ptr : BitVec 64) : Bool :=
  if t.isGeneric then ptr &&& BitVec.ofNat 64 (4 - 1) == 0#64
  else ptr &&& BitVec.ofNat 64 (t.size * t.elemBytes - 1) == 0#64

end Nova
