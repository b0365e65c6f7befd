import Verif.Model.Backends
import Verif.Model.Lanes

/-!
# Complete builds for `float` and `double`

A build chooses a vector class (vec.hpp:23-43), and with it the register layout (`Target`), the lane
arithmetic (`Model/Lanes.lean`) and the scalar arithmetic (`Model/Scalar.lean`).  `Platform` collects what
neither the text of the library nor IEEE 754 determines; the theorems hold for every platform.
-/

namespace Nova
open FP

namespace FP.Fmt
variable {w : Nat} (F : Fmt w)

/-- Maximum of the ARM and PowerPC instructions: a NaN if there is one, and +0 is above −0
(`vmaxq_f32`, `vec_max`; vec/vec_neon.hpp, vec/vec_altivec.hpp). -/
def maxArm (x y : BitVec w) : BitVec w :=
  if F.isNaN x || F.isNaN y then F.nan2 x y
  else if F.ltb y x || (F.eqb x y && F.neg y) then x else y

/-- Minimum of the ARM and PowerPC instructions (`vminq_f32`, `vec_min`). -/
def minArm (x y : BitVec w) : BitVec w :=
  if F.isNaN x || F.isNaN y then F.nan2 x y
  else if F.ltb x y || (F.eqb x y && F.neg x) then x else y

end FP.Fmt

/-- What a build does not get from the text of the library or from the standard (no code in /repo; `r2`, `r10` are the
constants of detail/vec_math.hpp:560-572, `c99` is the test of detail/math.hpp:251). -/
structure Platform (w : Nat) where
  /-- the C library -/
  M : Libm w
  /-- estimate instructions -/
  rcp : BitVec w → BitVec w
  rsqrt : BitVec w → BitVec w
  /-- `(float)(1.0/std::log(2.0))`, `(float)(1.0/std::log(10.0))` -/
  r2 : BitVec w
  r10 : BitVec w
  /-- `::round` is available (C99) -/
  c99 : Bool
  /-- lanes that intrinsics leave undefined -/
  junk : Nat → BitVec w
  ndebug : Bool

/-- x86: SSE and AVX instructions. -/
def Platform.x86 {w : Nat} (P : Platform w) (F : Fmt w) : Hw w := Hw.ieee F P.rcp P.rsqrt

/-- NEON and Altivec instructions, with subnormal numbers (an ARMv7 or a processor in non-Java mode
flushes them: see `Model/Flush`). -/
def Platform.arm {w : Nat} (P : Platform w) (F : Fmt w) : Hw w :=
  { Hw.ieee F P.rcp P.rsqrt with max := F.maxArm, min := F.minArm }

/-- Builds with a vector class for `float` (vec.hpp:23-43). -/
inductive Build32 where
  | generic
  | sse (sse3 : Bool) (f : Sse.Flags)
  | avx (fma : Bool)
  | neon
  | altivec
deriving DecidableEq

/-- Builds with a vector class for `double` (vec.hpp:23-43). -/
inductive Build64 where
  | generic
  | sse2 (sse41 fma : Bool)
  | avx (fma : Bool)
deriving DecidableEq

namespace Build32

/-- The register layout: which class vec.hpp:23-43 includes. -/
def target : Build32 → Target
  | generic => .genericFloat
  | sse sse3 f => .sse sse3 f.sse41
  | avx _ => .avxFloat
  | neon => .neon
  | altivec => .altivec

/-- The scalar functions (detail/math.hpp:165-345). -/
def scalar (P : Platform 32) : Arith (BitVec 32) := Scalar.float32 P.c99 P.M

/-- The lane functions (vec.hpp:23-43 and the class it includes). -/
def lane (P : Platform 32) : Build32 → Arith (BitVec 32)
  | generic => scalar P
  | sse _ f => Sse.arith f (P.x86 binary32) P.r2 P.r10 (scalar P)
  | avx fma => AvxF.arith fma (P.x86 binary32) P.r2 P.r10 (scalar P)
  | neon => Neon.arith (P.arm binary32) (scalar P)
  | altivec => Altivec.arith (P.arm binary32) (scalar P)

/-- The environment of a `float` build; a conversion through `float` is the identity. -/
def env (P : Platform 32) (b : Build32) : Env (BitVec 32) where
  S := scalar P
  L := b.lane P
  viaFloat := id
  junk := P.junk
  ndebug := P.ndebug

/-- The vector class (vec.hpp:23-43). -/
def vec (P : Platform 32) (b : Build32) : VecImpl (BitVec 32) := b.target.vec (b.env P)

end Build32

namespace Build64

/-- The register layout: which class vec.hpp:23-43 includes. -/
def target : Build64 → Target
  | generic => .genericDouble
  | sse2 _ _ => .sse2
  | avx _ => .avxDouble

/-- The scalar functions (detail/math.hpp:165-345). -/
def scalar (P : Platform 64) : Arith (BitVec 64) := Scalar.float64 P.M

/-- The lane functions (vec.hpp:23-43 and the class it includes). -/
def lane (P : Platform 64) : Build64 → Arith (BitVec 64)
  | generic => scalar P
  | sse2 sse41 fma => Dbl.arith ⟨false, sse41, fma⟩ (P.x86 binary64) (scalar P)
  | avx fma => Dbl.arith ⟨true, true, fma⟩ (P.x86 binary64) (scalar P)

/-- The environment of a `double` build; `float vSlope = …` (detail/wrap_argument_vector.hpp:94-95)
converts to `float` and back. -/
def env (P : Platform 64) (b : Build64) : Env (BitVec 64) where
  S := scalar P
  L := b.lane P
  viaFloat x := widen (narrow x)
  junk := P.junk
  ndebug := P.ndebug

/-- The vector class (vec.hpp:23-43). -/
def vec (P : Platform 64) (b : Build64) : VecImpl (BitVec 64) := b.target.vec (b.env P)

end Build64

end Nova
