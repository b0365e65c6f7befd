/-!
# benchmarks/cache_aligned_array.hpp: `aligned_array<T, N>`

Blocks of `N` elements are numbered, block 0 is the null pointer (never allocated).  An object is the `elems` pointer.
Element types have trivial destructors; `zero` is `T()`.
-/

namespace Nova.Array

inductive ArrayFault where
  /-- access to an element of a block that is not allocated (null or dangling pointer) -/
  | badAccess (p : Nat)
  /-- `free_aligned` of something that is not an allocated block -/
  | badFree (p : Nat)
  /-- use of an object that does not exist -/
  | badObject (i : Nat)
  /-- the exception of `at` -/
  | outOfRange
deriving DecidableEq, Repr

structure State (N : Nat) (α : Type) where
  live : Nat → Bool
  mem : Nat → Fin N → α
  obj : Nat → Option Nat

abbrev M := Except ArrayFault

variable {N : Nat} {α : Type}

def State.read (h : State N α) (p : Nat) (k : Fin N) : M α :=
  if h.live p then .ok (h.mem p k) else .error (.badAccess p)

def State.write (h : State N α) (p : Nat) (k : Fin N) (v : α) : M (State N α) :=
  if h.live p then .ok { h with mem := fun q l => if q = p ∧ l = k then v else h.mem q l } else .error (.badAccess p)

def State.elems (h : State N α) (i : Nat) : M Nat :=
  match h.obj i with
  | some p => .ok p
  | none => .error (.badObject i)

def State.set (h : State N α) (i : Nat) (v : Option Nat) : State N α :=
  { h with obj := fun k => if k = i then v else h.obj k }

/-- A loop over all elements in order (benchmarks/cache_aligned_array.hpp:54-55, 61-62, and the algorithms of the
standard library). -/
def forAll (l : List (Fin N)) (h : State N α) (body : State N α → Fin N → M (State N α)) : M (State N α) :=
  l.foldlM body h

/-- `std::fill_n`, and the loop of the constructor: assigns `v` to all elements
(benchmarks/cache_aligned_array.hpp:54-55, 61-62, 183-186) -/
def fill (h : State N α) (p : Nat) (v : α) : M (State N α) :=
  forAll (List.finRange N) h fun h k => h.write p k v

/-- `std::copy(rhs.begin(), rhs.end(), begin())` (benchmarks/cache_aligned_array.hpp:170-180) -/
def copy (h : State N α) (p q : Nat) : M (State N α) :=
  forAll (List.finRange N) h fun h k => do
    let v ← h.read q k
    h.write p k v

/-- `std::swap_ranges(begin(), end(), y.begin())` (benchmarks/cache_aligned_array.hpp:158-160) -/
def swapRanges (h : State N α) (p q : Nat) : M (State N α) :=
  forAll (List.finRange N) h fun h k => do
    let a ← h.read p k
    let b ← h.read q k
    let h ← h.write p k b
    h.write q k a

/-- What a program does with arrays; `p` is the block that `malloc_aligned` returns, 0 if it fails
(benchmarks/cache_aligned_array.hpp:51-193). -/
inductive Op (α : Type) where
  | create (i p : Nat)
  | copyCtor (i j p : Nat)
  | assign (i j : Nat)
  | at (i k : Nat) (v : α)
  | fill (i : Nat) (v : α)
  | swap (i j : Nat)
  | destroy (i : Nat)

/-- `malloc_aligned` returns `p` (benchmarks/cache_aligned_array.hpp:53, 60). -/
def malloc (h : State N α) (p : Nat) : State N α :=
  if p = 0 then h else { h with live := fun q => if q = p then true else h.live q }

/-- One operation (benchmarks/cache_aligned_array.hpp): constructor 51-56, copy constructor 58-64, destructor 66-71,
`operator=` 170-180, `x.at(k) = v` 127 with 189-193, `assign` 183-186, `swap` 158-160. -/
def step (zero : α) (h : State N α) : Op α → M (State N α)
  | .create i p => do
    let h ← Nova.Array.fill (malloc h p) p zero
    return h.set i (some p)
  | .copyCtor i j p => do
    let q ← h.elems j
    let h ← Nova.Array.fill (malloc h p) p zero
    let h ← copy h p q
    return h.set i (some p)
  | .assign i j => do
    let p ← h.elems i
    let q ← h.elems j
    copy h p q
  | .at i k v => do
    let p ← h.elems i
    if hk : k < N then h.write p ⟨k, hk⟩ v else .error .outOfRange
  | .fill i v => do
    let p ← h.elems i
    Nova.Array.fill h p v
  | .swap i j => do
    let p ← h.elems i
    let q ← h.elems j
    swapRanges h p q
  | .destroy i => do
    let p ← h.elems i
    if h.live p then
      return { h with live := fun q => if q = p then false else h.live q }.set i none
    else .error (.badFree p)

/-- A history of a program that uses benchmarks/cache_aligned_array.hpp:51-193. -/
def run (zero : α) (h : State N α) : List (Op α) → M (State N α)
  | [] => .ok h
  | op :: ops => do
    let h ← step zero h op
    run zero h ops

/-- Nothing allocated; the contents of unallocated blocks are arbitrary. -/
def State.empty (junk : Nat → Fin N → α) : State N α := ⟨fun _ => false, junk, fun _ => none⟩

/-- `operator==` (benchmarks/cache_aligned_array.hpp:319-322): `std::equal` -/
def equal (eq : α → α → Bool) (x y : List α) : Bool := (x.zip y).all fun p => eq p.1 p.2

/-- `operator<` (benchmarks/cache_aligned_array.hpp:323-326): `std::lexicographical_compare` -/
def less (lt : α → α → Bool) : List α → List α → Bool
  | _, [] => false
  | [], _ :: _ => true
  | a :: x, b :: y => if lt a b then true else if lt b a then false else less lt x y

/-- `operator!=`, `>`, `<=`, `>=` (benchmarks/cache_aligned_array.hpp:327-342) -/
def notEqual (eq : α → α → Bool) (x y : List α) : Bool := !equal eq x y
def greater (lt : α → α → Bool) (x y : List α) : Bool := less lt y x
def lessEqual (lt : α → α → Bool) (x y : List α) : Bool := !less lt y x
def greaterEqual (lt : α → α → Bool) (x y : List α) : Bool := !less lt x y

end Nova.Array
