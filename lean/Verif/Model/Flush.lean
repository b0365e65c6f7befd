import Verif.Model.Builds

/-!
# Flushing subnormal numbers to zero

Processors can be told to treat subnormal operands as zeros ("denormals are zero", `daz`) and to replace subnormal
results by zeros ("flush to zero", `ftz`): MXCSR on x86, FPSCR on ARM (always on for the NEON unit of ARMv7), the NJ bit
of Altivec's VSCR.  Audio programs usually do so.  The instructions whose lanes are modelled in `Lanes` are taken from an
`Hw`; here is what such a processor's `Hw` does, relative to the `Hw` that keeps subnormals.  Processors differ in one
point: a result that is rounded up to the least normal number is kept (x86) or flushed (ARM), so this is left open.
-/

namespace Nova
open FP

namespace FP.Fmt
variable {w : Nat} (F : Fmt w)

/-- A nonzero number whose exponent field is zero. -/
def Subnormal (x : BitVec w) : Prop := F.code x ≠ 0 ∧ F.code x < 2 ^ F.mb

instance (x : BitVec w) : Decidable (F.Subnormal x) := by unfold Subnormal; infer_instance

/-- A zero of the same sign in place of a subnormal number. -/
def flush (x : BitVec w) : BitVec w := if F.Subnormal x then F.pack (F.neg x) 0 else x

/-- An operand as the instruction sees it. -/
def operand (daz : Bool) (x : BitVec w) : BitVec w := if daz then F.flush x else x

/-- What becomes of the result `r`: it is replaced by a zero if it is subnormal, perhaps also if it is the least normal
number, and kept otherwise. -/
def FlushTo (ftz : Bool) (r r' : BitVec w) : Prop :=
  (r' = r ∧ (ftz = true → ¬ F.Subnormal r)) ∨ (ftz = true ∧ F.code r ≤ 2 ^ F.mb ∧ r' = F.pack (F.neg r) 0)

end FP.Fmt

/-- `hw` is the hardware `base` with the given flags.  `vmlaq_f32` rounds twice, so it flushes the product, too.
Conversions to integers and the estimates are not affected by the results' flag; the estimates are arbitrary in `base`
anyway. -/
structure Hw.Flushing {w : Nat} (F : Fmt w) (daz ftz : Bool) (base hw : Hw w) : Prop where
  add : ∀ x y, F.FlushTo ftz (base.add (F.operand daz x) (F.operand daz y)) (hw.add x y)
  sub : ∀ x y, F.FlushTo ftz (base.sub (F.operand daz x) (F.operand daz y)) (hw.sub x y)
  mul : ∀ x y, F.FlushTo ftz (base.mul (F.operand daz x) (F.operand daz y)) (hw.mul x y)
  div : ∀ x y, F.FlushTo ftz (base.div (F.operand daz x) (F.operand daz y)) (hw.div x y)
  fma : ∀ x y z, F.FlushTo ftz (base.fma (F.operand daz x) (F.operand daz y) (F.operand daz z)) (hw.fma x y z)
  nmsub : ∀ x y z, F.FlushTo ftz (base.nmsub (F.operand daz x) (F.operand daz y) (F.operand daz z)) (hw.nmsub x y z)
  mla : ∀ a b c, hw.mla a b c = hw.add a (hw.mul b c)
  sqrt : ∀ x, F.FlushTo ftz (base.sqrt (F.operand daz x)) (hw.sqrt x)
  lt : ∀ x y, hw.lt x y = base.lt (F.operand daz x) (F.operand daz y)
  le : ∀ x y, hw.le x y = base.le (F.operand daz x) (F.operand daz y)
  eq : ∀ x y, hw.eq x y = base.eq (F.operand daz x) (F.operand daz y)
  max : ∀ x y, hw.max x y = base.max (F.operand daz x) (F.operand daz y)
  min : ∀ x y, hw.min x y = base.min (F.operand daz x) (F.operand daz y)
  roundInt : ∀ m x, hw.roundInt m x = base.roundInt m (F.operand daz x)
  toInt32 : ∀ x, hw.toInt32 x = base.toInt32 (F.operand daz x)
  toUInt32 : ∀ x, hw.toUInt32 x = base.toUInt32 (F.operand daz x)
  ofInt32 : hw.ofInt32 = base.ofInt32
  ofUInt32 : hw.ofUInt32 = base.ofUInt32

/-- Both flags set, results rounded up to the least normal number kept: what x86 does. -/
def Hw.flushed {w : Nat} (F : Fmt w) (base : Hw w) : Hw w where
  add x y := F.flush (base.add (F.flush x) (F.flush y))
  sub x y := F.flush (base.sub (F.flush x) (F.flush y))
  mul x y := F.flush (base.mul (F.flush x) (F.flush y))
  div x y := F.flush (base.div (F.flush x) (F.flush y))
  fma x y z := F.flush (base.fma (F.flush x) (F.flush y) (F.flush z))
  nmsub x y z := F.flush (base.nmsub (F.flush x) (F.flush y) (F.flush z))
  mla a b c := F.flush (base.add (F.flush a) (F.flush (F.flush (base.mul (F.flush b) (F.flush c)))))
  sqrt x := F.flush (base.sqrt (F.flush x))
  rcp x := base.rcp x
  recps x y := base.recps x y
  rsqrt x := base.rsqrt x
  lt x y := base.lt (F.flush x) (F.flush y)
  le x y := base.le (F.flush x) (F.flush y)
  eq x y := base.eq (F.flush x) (F.flush y)
  max x y := base.max (F.flush x) (F.flush y)
  min x y := base.min (F.flush x) (F.flush y)
  roundInt m x := base.roundInt m (F.flush x)
  toInt32 x := base.toInt32 (F.flush x)
  toUInt32 x := base.toUInt32 (F.flush x)
  ofInt32 := base.ofInt32
  ofUInt32 := base.ofUInt32

namespace Build32

/-- The instructions of a build with subnormal numbers. -/
def hw (P : Platform 32) : Build32 → Hw 32
  | generic | sse _ _ | avx _ => P.x86 binary32
  | neon | altivec => P.arm binary32

/-- The lane functions on other hardware: `Build32.lane` with `hw` in place of its instructions (same sources:
vec/vec_sse.hpp, vec/vec_avx_float.hpp, vec/vec_neon.hpp, vec/vec_altivec.hpp).  The generic class consists of scalar
code, which is not affected. -/
def laneOn (P : Platform 32) (h : Hw 32) : Build32 → Arith (BitVec 32)
  | generic => scalar P
  | sse _ f => Sse.arith f h P.r2 P.r10 (scalar P)
  | avx fma => AvxF.arith fma h P.r2 P.r10 (scalar P)
  | neon => Neon.arith h (scalar P)
  | altivec => Altivec.arith h (scalar P)

/-- The environment of a build on other hardware. -/
def envOn (P : Platform 32) (h : Hw 32) (b : Build32) : Env (BitVec 32) := { b.env P with L := b.laneOn P h }

/-- The vector class on other hardware. -/
def vecOn (P : Platform 32) (h : Hw 32) (b : Build32) : VecImpl (BitVec 32) := b.target.vec (b.envOn P h)

end Build32

namespace Build64

/-- The lane functions of `double` on other hardware (vec/vec_sse2.hpp, vec/vec_avx_double.hpp). -/
def laneOn (P : Platform 64) (h : Hw 64) : Build64 → Arith (BitVec 64)
  | generic => scalar P
  | sse2 sse41 fma => Dbl.arith ⟨false, sse41, fma⟩ h (scalar P)
  | avx fma => Dbl.arith ⟨true, true, fma⟩ h (scalar P)

/-- The environment of a build on other hardware. -/
def envOn (P : Platform 64) (h : Hw 64) (b : Build64) : Env (BitVec 64) := { b.env P with L := b.laneOn P h }

/-- The vector class on other hardware. -/
def vecOn (P : Platform 64) (h : Hw 64) (b : Build64) : VecImpl (BitVec 64) := b.target.vec (b.envOn P h)

end Build64

end Nova
