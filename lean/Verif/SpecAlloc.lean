import Verif.Model.AllocPlatforms

/-!
# What the allocation functions of the system promise
-/

namespace Nova.Alloc

/-- A block of `size` bytes at `p`: not null, inside the address space. -/
def IsBlock (p : Addr) (size : Nat) : Prop := p ≠ 0 ∧ p.toNat + size < 2 ^ 64

/-- The documented behaviour of the system's functions.  `malloc` of Apple's systems returns multiples of 16 bytes
(the comment in benchmarks/malloc_aligned.hpp:66); elsewhere nothing is assumed about `malloc`'s alignment.  TBB
allocates at multiples of the cache line size, at least 64. -/
structure Lib.Documented (l : Lib) (apple : Bool) : Prop where
  posix : ∀ al size p, l.posixMemalign al size = some p → p ≠ 0 → IsBlock p size.toNat ∧ al.toNat ∣ p.toNat
  malloc : ∀ size, l.malloc size ≠ 0 → IsBlock (l.malloc size) size.toNat
  mallocApple : apple = true → ∀ size, 16 ∣ (l.malloc size).toNat
  mm : ∀ size al, l.mmMalloc size al ≠ 0 → IsBlock (l.mmMalloc size al) size.toNat ∧ al.toNat ∣ (l.mmMalloc size al).toNat
  tbb : ∀ size p, l.tbbAllocate size = some p → IsBlock p size ∧ 64 ∣ p.toNat

/-- The index of the element at byte address `p` in the element-wise memory of the vector calls. -/
def elemIndex (t : Target) (p : Addr) : Nat := p.toNat / t.elemBytes

/-- The address may be passed to the aligned functions of the vector class. -/
def Suits (t : Target) (p : Addr) : Prop := t.elemBytes ∣ p.toNat ∧ t.align ∣ elemIndex t p

/-- The compiler may use the instructions of the vector class. -/
def HasInstructions (c : Macros) : Target → Prop
  | .genericFloat => True
  | .genericDouble => True
  | .sse sse3 sse41 => c.sse = true ∧ (sse3 = true → c.sse3 = true) ∧ (sse41 = true → c.sse41 = true)
  | .sse2 => c.sse2 = true
  | .avxFloat => c.avx = true
  | .avxDouble => c.avx = true
  | .neon => c.neon = true
  | .altivec => c.altivec = true

end Nova.Alloc
