import Verif.Model.AlignedAlloc
import Verif.Model.Align

/-!
# benchmarks/malloc_aligned.hpp: the other implementations, and which one a build gets

The functions of the system are parameters (`Lib`); what their documentation promises is `Lib.Documented`.
-/

namespace Nova.Alloc

/-- The predefined macros that matter (vec.hpp:23-43, benchmarks/malloc_aligned.hpp:37-106).  `posix` stands for
`_POSIX_C_SOURCE >= 200112L || _XOPEN_SOURCE >= 600`. -/
structure Macros where
  posix : Bool
  apple : Bool
  tbb : Bool
  neon : Bool
  altivec : Bool
  avx : Bool
  sse : Bool
  sse2 : Bool
  sse3 : Bool
  sse41 : Bool
deriving DecidableEq, Repr

/-- What compilers guarantee: AVX implies SSE2, SSE2 implies SSE; NEON, Altivec and SSE exclude each
other (no code in /repo). -/
structure Macros.Possible (c : Macros) : Prop where
  avx_sse2 : c.avx → c.sse2
  sse2_sse : c.sse2 → c.sse
  neon_altivec : ¬ (c.neon ∧ c.altivec)
  neon_sse : ¬ (c.neon ∧ c.sse)
  altivec_sse : ¬ (c.altivec ∧ c.sse)

/-- `vec<float>` (vec.hpp:23-37) -/
def Macros.float (c : Macros) : Target :=
  if c.neon then .neon
  else if c.altivec then .altivec
  else if c.avx then .avxFloat
  else if c.sse then .sse c.sse3 c.sse41
  else .genericFloat

/-- `vec<double>` (vec.hpp:23, 39-43) -/
def Macros.double (c : Macros) : Target :=
  if c.avx then .avxDouble
  else if c.sse2 then .sse2
  else .genericDouble

/-- The implementations of `malloc_aligned` (benchmarks/malloc_aligned.hpp:37-138). -/
inductive Branch where
  | posix | apple | sse2 | tbb | portable
deriving DecidableEq, Repr

/-- benchmarks/malloc_aligned.hpp:37, 62, 78, 92, 106 -/
def Macros.branch (c : Macros) : Branch :=
  if c.posix then .posix
  else if c.apple then .apple
  else if c.sse2 then .sse2
  else if c.tbb then .tbb
  else .portable

/-- The allocation functions of the system, called in benchmarks/malloc_aligned.hpp:50, 69, 84, 97, 113. -/
structure Lib where
  /-- `posix_memalign(&ret, alignment, size)`; `none` for a status other than 0 -/
  posixMemalign : (alignment size : Addr) → Option Addr
  /-- `malloc(size)` -/
  malloc : (size : Addr) → Addr
  /-- `_mm_malloc(size, alignment)` -/
  mmMalloc : (size alignment : Addr) → Addr
  /-- `tbb::cache_aligned_allocator<T>::allocate(n)` for `n * sizeof(T)` equal to `size`; `none` is an exception -/
  tbbAllocate : (size : Nat) → Option Addr

/-- `malloc_aligned(nbytes)` (benchmarks/malloc_aligned.hpp:47-55, 67-70, 82-85, 94-98, 111-127): the pointer and the
memory afterwards; `none` is an exception.  `malloc_memory_alignment` is 64.  The allocator of the TBB branch is one for
`void*`, so that `nbytes` is a number of pointers. -/
def mallocOn (b : Branch) (l : Lib) (nbytes : Addr) (m : Bytes) : Option (Addr × Bytes) :=
  match b with
  | .posix =>
    match l.posixMemalign 64 nbytes with
    | some ret => some (ret, m)
    | none => some (0, m)
  | .apple => some (l.malloc nbytes, m)
  | .sse2 => some (l.mmMalloc nbytes 64, m)
  | .tbb =>
    match l.tbbAllocate (nbytes.toNat * 8) with
    | some ret => some (ret, m)
    | none => none
  | .portable => some (mallocAligned l.malloc nbytes m)

/-- `calloc_aligned(nbytes)` (benchmarks/malloc_aligned.hpp:140-146) -/
def callocOn (b : Branch) (l : Lib) (nbytes : Addr) (m : Bytes) : Option (Addr × Bytes) :=
  match mallocOn b l nbytes m with
  | none => none
  | some (ret, m) => some (ret, if ret ≠ 0 then memset0 m ret nbytes else m)

/-- `free_aligned(ptr)` (benchmarks/malloc_aligned.hpp:57-60, 72-75, 87-90, 100-104, 129-134): the address that is passed
to the `free` function of the system -/
def freeOn (b : Branch) (m : Bytes) (ptr : Addr) : Addr :=
  match b with
  | .portable => freeAligned m ptr
  | _ => ptr

end Nova.Alloc
