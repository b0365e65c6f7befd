import Verif.Model.Backends
import Verif.Model.Unroll

/-!
# simd_memory.hpp: filling, copying and accumulating buffers

`addvec` with a slope (simd_memory.hpp:370-376, 458-471, 486-492) is not modelled: the scalar version
assigns to a `const` parameter and the SIMD versions call `vec::set` with one argument, so neither can
be instantiated.
-/

namespace Nova
variable {α ρ : Type}

/-- `assert(n)` (simd_memory.hpp:45, 195, 219) -/
def assertNonzero (E : Env α) (n : BitVec 32) : Exec α Unit :=
  if n = 0 ∧ E.ndebug = false then Exec.fail .assertion else pure ()

/-- `std::memset(dest, 0, n*sizeof(F))` (simd_memory.hpp:39): all bytes zero is the number `+0` -/
def memsetZero (A : Arith α) (dest n : Nat) : Exec α Unit := fun m =>
  if m.allocated dest n then
    .ok ((), fun a => if dest ≤ a ∧ a < dest + n then some A.zero else m a)
  else .error (.oob dest)

/-- `std::memcpy(dest, src, n*sizeof(F))` (simd_memory.hpp:273): undefined for overlapping regions -/
def memcpy (dest src n : Nat) : Exec α Unit := fun m =>
  if m.allocated dest n ∧ m.allocated src n then
    if n = 0 ∨ dest + n ≤ src ∨ src + n ≤ dest then
      .ok ((), fun a => if dest ≤ a ∧ a < dest + n then m (src + (a - dest)) else m a)
    else .error .overlap
  else .error (.oob dest)

/-- The template recursion `mp_iteration` of `detail::setvec`, `set_ramp`, `copyvec`, `addvec`
(simd_memory.hpp:63-80, 160-187, 278-313, 381-427) and `pan2` (simd_pan.hpp:61-108): one execution of the body, then the same template for
`n - vec<F>::size` with all pointers advanced by `vec<F>::size`.  `off` is the displacement of the
pointers, `r` are the reference parameters.  The specialisation for 0 does nothing; when `N` is not a
multiple of the size it is never reached and the program does not compile. -/
def unrollTmpl (I : VecImpl α) (body : Nat → ρ → Exec α ρ) (N off : Nat) (r : ρ) : Exec α ρ :=
  if N = 0 then pure r
  else if _h : N < I.size then Exec.fail .illFormed
  else do
    let r ← body off r
    unrollTmpl I body (N - I.size) (off + I.size) r
termination_by N
decreasing_by have := I.size_pos; omega

/-- `n /= per_loop; do { run; pointers += per_loop; } while (--n);` (simd_memory.hpp:321-328, 434-441,
simd_pan.hpp:116-122) -/
def cachelineLoop (I : VecImpl α) (run : Nat → ρ → Exec α ρ) (n : BitVec 32) (r : ρ) : Exec α ρ := do
  let unroll := n / BitVec.ofNat 32 I.perLine
  let (_, r) ← doWhile (fun (s : Nat × ρ) => do
      let (off, r) := s
      let r ← run off r
      pure (off + I.perLine, r)) unroll (0, r)
  pure r

/-! ## zerovec, setvec -/

/-- `zerovec` (simd_memory.hpp:36-40) -/
def zerovec (E : Env α) (dest : Nat) (n : BitVec 32) : Exec α Unit := memsetZero E.S dest n.toNat

/-- `setvec` (simd_memory.hpp:42-49) -/
def setvec (E : Env α) (dest : Nat) (f : α) (n : BitVec 32) : Exec α Unit := do
  assertNonzero E n
  let _ ← doWhile (fun dest => do
      write dest f
      pure (dest + 1)) n dest
  pure ()

/-- `detail::store_aligned<aligned>` (simd_memory.hpp:54-61) -/
def storeAlignedIf (I : VecImpl α) (aligned : Bool) (value : I.V) (dest : Nat) : Exec α Unit :=
  if aligned then I.storeAligned value dest else I.store value dest

/-- `if (src_aligned) val.load_aligned(src); else val.load(src);` (simd_memory.hpp:286-289, 298-301) -/
def loadAlignedIf (I : VecImpl α) (aligned : Bool) (src : Nat) : Exec α I.V :=
  if aligned then I.loadAligned src else I.load src

/-- body of `detail::setvec::mp_iteration` (simd_memory.hpp:68-72) -/
def setvecBody (I : VecImpl α) (aligned : Bool) (dst : Nat) (val : I.V) (off : Nat) (_ : Unit) :
    Exec α Unit :=
  storeAlignedIf I aligned val (dst + off)

/-- `detail::setvec_simd` (simd_memory.hpp:82-94) -/
def detailSetvecSimd (I : VecImpl α) (aligned : Bool) (dest : Nat) (val : I.V) (n : BitVec 32) :
    Exec α Unit :=
  cachelineLoop I (unrollTmpl I (setvecBody I aligned dest val) I.perLine) n ()

/-- `detail::setvec<F, n, aligned>::mp_iteration` (simd_memory.hpp:63-80) -/
def detailSetvecN (I : VecImpl α) (aligned : Bool) (N dest : Nat) (val : I.V) : Exec α Unit :=
  unrollTmpl I (setvecBody I aligned dest val) N 0 ()

/-- `zerovec_simd` / `zerovec_na_simd` (simd_memory.hpp:98-103, 112-117) -/
def zerovecSimd (I : VecImpl α) (aligned : Bool) (dest : Nat) (n : BitVec 32) : Exec α Unit :=
  detailSetvecSimd I aligned dest I.clear n

/-- `zerovec_simd<n>` / `zerovec_na_simd<n>` (simd_memory.hpp:105-110, 119-124) -/
def zerovecSimdN (I : VecImpl α) (aligned : Bool) (N dest : Nat) : Exec α Unit :=
  detailSetvecN I aligned N dest I.clear

/-- `setvec_simd` / `setvec_na_simd` (simd_memory.hpp:128-133, 142-147) -/
def setvecSimd (I : VecImpl α) (aligned : Bool) (dest : Nat) (f : α) (n : BitVec 32) : Exec α Unit :=
  detailSetvecSimd I aligned dest (I.setVec f) n

/-- `setvec_simd<n>` / `setvec_na_simd<n>` (simd_memory.hpp:135-140, 149-154) -/
def setvecSimdN (I : VecImpl α) (aligned : Bool) (N dest : Nat) (f : α) : Exec α Unit :=
  detailSetvecN I aligned N dest (I.setVec f)

/-! ## set_slope_vec, set_exp_vec -/

/-- `set_ramp::slope_mp_iteration` (simd_memory.hpp:165-170) -/
def slopeBody (I : VecImpl α) (dst : Nat) (vslope : I.V) (off : Nat) (vbase : I.V) : Exec α I.V := do
  I.storeAligned vbase (dst + off)
  pure (VecImpl.zip I.lane.add vbase vslope)

/-- `set_ramp::exp_mp_iteration` (simd_memory.hpp:172-177) -/
def expBody (I : VecImpl α) (dst : Nat) (vcurve : I.V) (off : Nat) (vbase : I.V) : Exec α I.V := do
  I.storeAligned vbase (dst + off)
  pure (VecImpl.zip I.lane.mul vbase vcurve)

/-- `set_slope_vec` (simd_memory.hpp:192-199) -/
def setSlopeVec (E : Env α) (dest : Nat) (f slope : α) (n : BitVec 32) : Exec α Unit := do
  assertNonzero E n
  let _ ← doWhile (fun (s : Nat × α) => do
      let (dest, f) := s
      write dest f
      pure (dest + 1, E.S.add f slope)) n (dest, f)
  pure ()

/-- `set_slope_vec_simd` (simd_memory.hpp:201-214): `vslope` is computed in scalar arithmetic from the
size; the return value of `set_slope` is not used -/
def setSlopeVecSimd (E : Env α) (I : VecImpl α) (dest : Nat) (f slope : α) (n : BitVec 32) :
    Exec α Unit := do
  let vbase := (I.setSlope f slope).1
  let vslope := I.setVec (E.S.mul (E.S.lit I.size) slope)
  let _ ← cachelineLoop I (unrollTmpl I (slopeBody I dest vslope) I.perLine) n vbase
  pure ()

/-- `set_exp_vec` (simd_memory.hpp:216-223) -/
def setExpVec (E : Env α) (dest : Nat) (f curve : α) (n : BitVec 32) : Exec α Unit := do
  assertNonzero E n
  let _ ← doWhile (fun (s : Nat × α) => do
      let (dest, f) := s
      write dest f
      pure (dest + 1, E.S.mul f curve)) n (dest, f)
  pure ()

/-- `detail::pow_i<Exponent>` (simd_memory.hpp:227-245); exponent 0 is not used (the recursion would
not end) -/
def powI (A : Arith α) (base : α) : Nat → α
  | 0 => A.one
  | 1 => base
  | k + 2 => A.mul base (powI A base (k + 1))

/-- `set_exp_vec_simd` (simd_memory.hpp:255-267) -/
def setExpVecSimd (E : Env α) (I : VecImpl α) (dest : Nat) (f curve : α) (n : BitVec 32) :
    Exec α Unit := do
  let vcurve := I.setVec (powI E.S curve I.size)
  let vbase := (I.setExp f curve).1
  let _ ← cachelineLoop I (unrollTmpl I (expBody I dest vcurve) I.perLine) n vbase
  pure ()

/-! ## copyvec -/

/-- `copyvec` (simd_memory.hpp:270-274) -/
def copyvec (dest src : Nat) (n : BitVec 32) : Exec α Unit := memcpy dest src n.toNat

/-- `detail::copyvec::mp_iteration` with a loaded value (simd_memory.hpp:294-305); `src` already
points one vector ahead -/
def copyvecBody (I : VecImpl α) (srcAligned dstAligned : Bool) (dst src off : Nat) (loaded : I.V) :
    Exec α I.V := do
  let val ← loadAlignedIf I srcAligned (src + I.size + off)
  storeAlignedIf I dstAligned loaded (dst + off)
  pure val

/-- `detail::copyvec::mp_iteration(dst, src)` (simd_memory.hpp:283-292).  The specialisation for 0
has no such member. -/
def copyvecRun (I : VecImpl α) (srcAligned dstAligned : Bool) (dst src N off : Nat) (_ : Unit) :
    Exec α Unit :=
  if N = 0 then Exec.fail .illFormed else do
    let val ← loadAlignedIf I srcAligned (src + off)
    let _ ← unrollTmpl I (copyvecBody I srcAligned dstAligned dst src) N off val
    pure ()

/-- The functions `copyvec_aa_simd`, `copyvec_na_simd`, `copyvec_an_simd`, `copyvec_nn_simd` are
generated with these parameters (simd_memory.hpp:337-340): the first letter is the source, the second
the destination. -/
structure CopyVariant where
  srcAligned : Bool
  dstAligned : Bool
deriving DecidableEq, Repr

/-- `copyvec_aa` (simd_memory.hpp:337) -/
def CopyVariant.aa : CopyVariant := ⟨true, true⟩
/-- `copyvec_na` (simd_memory.hpp:338) -/
def CopyVariant.na : CopyVariant := ⟨false, true⟩
/-- `copyvec_an` (simd_memory.hpp:339) -/
def CopyVariant.an : CopyVariant := ⟨true, false⟩
/-- `copyvec_nn` (simd_memory.hpp:340) -/
def CopyVariant.nn : CopyVariant := ⟨false, false⟩

/-- `COPYVEC_FUNCTION`, run-time size (simd_memory.hpp:317-329) -/
def copyvecSimd' (I : VecImpl α) (v : CopyVariant) (dest src : Nat) (n : BitVec 32) : Exec α Unit :=
  cachelineLoop I (copyvecRun I v.srcAligned v.dstAligned dest src I.perLine) n ()

/-- `COPYVEC_FUNCTION`, compile-time size (simd_memory.hpp:331-335) -/
def copyvecSimdN' (I : VecImpl α) (v : CopyVariant) (N dest src : Nat) : Exec α Unit :=
  copyvecRun I v.srcAligned v.dstAligned dest src N 0 ()

/-- `copyvec_simd` (simd_memory.hpp:342-346) -/
def copyvecSimd (I : VecImpl α) (dest src : Nat) (n : BitVec 32) : Exec α Unit :=
  copyvecSimd' I .aa dest src n

/-- `copyvec_simd<n>` (simd_memory.hpp:348-352) -/
def copyvecSimdN (I : VecImpl α) (N dest src : Nat) : Exec α Unit := copyvecSimdN' I .aa N dest src

/-! ## addvec -/

/-- `addvec(out, in, n)` (simd_memory.hpp:354-360) -/
def addvec (E : Env α) (out inp : Nat) (n : BitVec 32) : Exec α Unit := do
  let _ ← doWhile (fun (s : Nat × Nat) => do
      let (out, inp) := s
      let x ← read inp
      let y ← read out
      write out (E.S.add y x)
      pure (out + 1, inp + 1)) n (out, inp)
  pure ()

/-- `addvec(out, c, n)` (simd_memory.hpp:362-368) -/
def addvecConst (E : Env α) (out : Nat) (c : α) (n : BitVec 32) : Exec α Unit := do
  let _ ← doWhile (fun out => do
      let y ← read out
      write out (E.S.add y c)
      pure (out + 1)) n out
  pure ()

/-- `detail::addvec::mp_iteration(dst, src)` (simd_memory.hpp:386-394) -/
def addvecBody (I : VecImpl α) (dst src off : Nat) (_ : Unit) : Exec α Unit := do
  let v1 ← I.loadAligned (dst + off)
  let v2 ← I.loadAligned (src + off)
  I.storeAligned (VecImpl.zip I.lane.add v1 v2) (dst + off)

/-- `detail::addvec::mp_iteration(dst, vec)` (simd_memory.hpp:396-403) -/
def addvecConstBody (I : VecImpl α) (dst : Nat) (inp : I.V) (off : Nat) (_ : Unit) : Exec α Unit := do
  let v1 ← I.loadAligned (dst + off)
  I.storeAligned (VecImpl.zip I.lane.add v1 inp) (dst + off)

/-- `addvec_simd(out, in, n)` (simd_memory.hpp:431-442) -/
def addvecSimd (I : VecImpl α) (out inp : Nat) (n : BitVec 32) : Exec α Unit :=
  cachelineLoop I (unrollTmpl I (addvecBody I out inp) I.perLine) n ()

/-- `addvec_simd(out, c, n)` (simd_memory.hpp:444-456) -/
def addvecConstSimd (I : VecImpl α) (out : Nat) (c : α) (n : BitVec 32) : Exec α Unit :=
  cachelineLoop I (unrollTmpl I (addvecConstBody I out (I.setVec c)) I.perLine) n ()

/-- `addvec_simd<n>(out, in)` (simd_memory.hpp:473-477) -/
def addvecSimdN (I : VecImpl α) (N out inp : Nat) : Exec α Unit :=
  unrollTmpl I (addvecBody I out inp) N 0 ()

/-- `addvec_simd<n>(out, c)` (simd_memory.hpp:479-484) -/
def addvecConstSimdN (I : VecImpl α) (N out : Nat) (c : α) : Exec α Unit :=
  unrollTmpl I (addvecConstBody I out (I.setVec c)) N 0 ()

end Nova
