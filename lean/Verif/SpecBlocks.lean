import Mathlib.Algebra.Ring.Basic
import Verif.Laws

/-!
# Vocabulary for processing a buffer in blocks
-/

namespace Nova.Spec
variable {α : Type}

/-- A block of a buffer: the index of its first element and its number of elements. -/
abbrev Block := Nat × BitVec 32

/-- Element `i` belongs to the block. -/
def Block.Has (b : Block) (i : Nat) : Prop := b.1 ≤ i ∧ i < b.1 + b.2.toNat

/-- The blocks are non-empty, do not overlap, and together make up the elements `0, …, N-1`.  Nothing
is said about their order. -/
structure Cuts (bs : List Block) (N : Nat) : Prop where
  nonempty : ∀ b ∈ bs, 0 < b.2.toNat
  inside : ∀ b ∈ bs, b.1 + b.2.toNat ≤ N
  disjoint : bs.Pairwise fun b c => ∀ i, b.Has i → ¬ c.Has i
  cover : ∀ i, i < N → ∃ b ∈ bs, b.Has i

/-- One call per block, in the order of the list. -/
def inOrder (call : Nat → BitVec 32 → Exec α Unit) : List Block → Exec α Unit
  | [] => pure ()
  | b :: bs => do
      call b.1 b.2
      inOrder call bs

/-- The argument of the call on the block that starts at element `o`: pointers are advanced, a ramp starts
with the value `r base slope o`. -/
def argFrom (r : α → α → Nat → α) (o : Nat) : SArg α → SArg α
  | .ptr p => .ptr (p + o)
  | .scalar c => .scalar c
  | .ramp b s => .ramp (r b s o) s

/-- Element `o` of a ramp, in exact arithmetic. -/
def exactRamp [CommRing α] (base slope : α) (o : Nat) : α := base + o * slope

/-- The argument is a buffer or a number. -/
def Steady : SArg α → Prop
  | .ramp _ _ => False
  | _ => True

/-- An input buffer is the output buffer or does not overlap it. -/
def Apart (out n : Nat) : SArg α → Prop
  | .ptr p => p = out ∨ p + n ≤ out ∨ out + n ≤ p
  | _ => True

end Nova.Spec
