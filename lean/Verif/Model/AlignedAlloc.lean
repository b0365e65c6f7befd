/-!
# benchmarks/malloc_aligned.hpp: the portable implementation, the allocator and the smart pointer

Addresses and `std::size_t` have 64 bits; memory is a function from addresses to bytes.  `malloc` is an arbitrary
function from sizes to addresses, 0 is the null pointer.
-/

namespace Nova.Alloc

abbrev Addr := BitVec 64
abbrev Bytes := Addr → BitVec 8

/-- `*(void **) a = v` (benchmarks/malloc_aligned.hpp:122), little endian -/
def store64 (m : Bytes) (a v : Addr) : Bytes :=
  fun x => if (x - a).toNat < 8 then v.extractLsb' (8 * (x - a).toNat) 8 else m x

/-- `*(void **) a` (benchmarks/malloc_aligned.hpp:132) -/
def load64 (m : Bytes) (a : Addr) : Addr :=
  m (a + 7) ++ m (a + 6) ++ m (a + 5) ++ m (a + 4) ++ m (a + 3) ++ m (a + 2) ++ m (a + 1) ++ m a

/-- The size that is passed to `malloc` (benchmarks/malloc_aligned.hpp:113); `VECTORALIGNMENT` is 128, `sizeof(void *)`
is 8. -/
def requested (nbytes : Addr) : Addr := nbytes + (128 / 8 - 1) + 8

/-- `malloc_aligned` (benchmarks/malloc_aligned.hpp:111-127): the pointer and the memory afterwards -/
def mallocAligned (malloc : Addr → Addr) (nbytes : Addr) (m : Bytes) : Addr × Bytes :=
  let vec := malloc (requested nbytes)
  if vec ≠ 0 then
    let alignment := (vec + 8) &&& (128 / 8 - 1)
    let ret := vec + 8 + (if alignment = 0 then 0 else 128 / 8 - alignment)
    (ret, store64 m (ret - 8) vec)
  else (0, m)

/-- `free_aligned` (benchmarks/malloc_aligned.hpp:129-134): the address that is passed to `free` -/
def freeAligned (m : Bytes) (ptr : Addr) : Addr := load64 m (ptr - 8)

/-- `std::memset(ret, 0, nbytes)` (benchmarks/malloc_aligned.hpp:144) -/
def memset0 (m : Bytes) (ret n : Addr) : Bytes := fun x => if (x - ret).toNat < n.toNat then 0 else m x

/-- `calloc_aligned` (benchmarks/malloc_aligned.hpp:140-146) -/
def callocAligned (malloc : Addr → Addr) (nbytes : Addr) (m : Bytes) : Addr × Bytes :=
  let r := mallocAligned malloc nbytes m
  if r.1 ≠ 0 then (r.1, memset0 r.2 r.1 nbytes) else r

/-- `malloc_aligned<T>(n)` (benchmarks/malloc_aligned.hpp:148-152); `size` is `sizeof(T)` -/
def mallocAlignedT (malloc : Addr → Addr) (size n : Addr) (m : Bytes) : Addr × Bytes :=
  mallocAligned malloc (n * size) m

/-- `aligned_allocator<T>::allocate(n)` (benchmarks/malloc_aligned.hpp:190-197); `none` is `std::bad_alloc` -/
def allocate (malloc : Addr → Addr) (size n : Addr) (m : Bytes) : Option (Addr × Bytes) :=
  let r := mallocAlignedT malloc size n m
  if r.1 = 0 then none else some r

/-- `aligned_allocator<T>::max_size()` (benchmarks/malloc_aligned.hpp:204-207) -/
def maxSize (size : Addr) : Addr := (-1) / size

/-- `operator!=`, `operator==` of allocators, which have no state (benchmarks/malloc_aligned.hpp:221-231) -/
def allocNe : Bool := true
def allocEq : Bool := !allocNe

/-! ## `aligned_storage_ptr` -/

/-- What can go wrong with heap blocks and objects: undefined behaviour of `free`, and of C++ outside the lifetime of an
object (no code in /repo). -/
inductive HeapFault where
  /-- `free_aligned` of an address that is not an allocated block -/
  | badFree (p : Nat)
  /-- use of an object that does not exist -/
  | badObject (i : Nat)
deriving DecidableEq, Repr

/-- The allocated blocks, and the `ptr` member of every existing smart pointer
(benchmarks/malloc_aligned.hpp:289-290; 0 is null). -/
structure Heap where
  live : Nat → Bool
  obj : Nat → Option Nat

/-- What a program does: the members of `aligned_storage_ptr` (benchmarks/malloc_aligned.hpp:239-287). -/
inductive Op where
  /-- `malloc_aligned` returns the block `p` -/
  | malloc (p : Nat)
  /-- `aligned_storage_ptr<T> i(p)` -/
  | create (i p : Nat)
  /-- the implicit copy constructor: `aligned_storage_ptr<T> i(j)` -/
  | copy (i j : Nat)
  /-- the end of the scope of `i` -/
  | destroy (i : Nat)
  /-- `i.reset(p)` or `i = p` -/
  | reset (i p : Nat)
  /-- `i.swap(j)` -/
  | swap (i j : Nat)
deriving DecidableEq, Repr

/-- `free_aligned(p)` (benchmarks/malloc_aligned.hpp:57-60, 72-75, 87-90, 100-104, 129-134) -/
def free (p : Nat) (h : Heap) : Except HeapFault Heap :=
  if h.live p then .ok { h with live := fun q => if q = p then false else h.live q } else .error (.badFree p)

/-- `if (managed && ptr) free_aligned(ptr);` (benchmarks/malloc_aligned.hpp:245-246, 251-252) -/
def release (managed : Bool) (p : Nat) (h : Heap) : Except HeapFault Heap :=
  if managed && p != 0 then free p h else .ok h

/-- The object `i` gets the value `v`: `ptr = p;` (benchmarks/malloc_aligned.hpp:240, 253, 285-286) -/
def Heap.set (h : Heap) (i : Nat) (v : Option Nat) : Heap :=
  { h with obj := fun k => if k = i then v else h.obj k }

def Heap.get (h : Heap) (i : Nat) : Except HeapFault Nat :=
  match h.obj i with
  | some p => .ok p
  | none => .error (.badObject i)

/-- `aligned_storage_ptr` (benchmarks/malloc_aligned.hpp:235-291): constructor 239-241, destructor 243-247, `reset`
249-254, `operator=(T *)` 271-275, `swap` 282-287; the copy constructor is the implicit one. -/
def step (managed : Bool) (h : Heap) : Op → Except HeapFault Heap
  | .malloc p => .ok { h with live := fun q => if q = p then true else h.live q }
  | .create i p => .ok (h.set i (some p))
  | .copy i j => do
    let p ← h.get j
    return h.set i (some p)
  | .destroy i => do
    let p ← h.get i
    let h ← release managed p h
    return h.set i none
  | .reset i p => do
    let old ← h.get i
    let h ← release managed old h
    return h.set i (some p)
  | .swap i j => do
    let p ← h.get i
    let q ← h.get j
    let h := h.set i (some q)
    return h.set j (some p)

/-- A history of a program that uses benchmarks/malloc_aligned.hpp:235-291. -/
def run (managed : Bool) (h : Heap) : List Op → Except HeapFault Heap
  | [] => .ok h
  | op :: ops => do
    let h ← step managed h op
    run managed h ops

/-- Nothing allocated, no objects. -/
def Heap.empty : Heap := ⟨fun _ => false, fun _ => none⟩

end Nova.Alloc
