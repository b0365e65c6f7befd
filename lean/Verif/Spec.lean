import Verif.Base

/-!
# Specification vocabulary

Used by the statements of the properties.  Nothing here refers to the model of the code.
-/

namespace Nova.Spec
variable {α : Type}

/-- The memory `m` with the buffer `out[0..n)` overwritten by `y 0, …, y (n-1)`. -/
def overwrite (m : Mem α) (out n : Nat) (y : Nat → α) : Mem α := fun a =>
  if out ≤ a ∧ a < out + n then some (y (a - out)) else m a

/-- The buffer `p[0..n)` is allocated and holds `x 0, …, x (n-1)`. -/
def Holds (m : Mem α) (p n : Nat) (x : Nat → α) : Prop := ∀ i, i < n → m (p + i) = some (x i)

/-- The buffer `p[0..n)` is allocated. -/
def Allocated (m : Mem α) (p n : Nat) : Prop := ∀ i, i < n → (m (p + i)).isSome

/-- Writing `out[0..n)` in increasing order cannot disturb a later read of `p[0..n)`: the output is
the input itself, starts before it, or does not overlap it. -/
def SafePlacement (out p n : Nat) : Prop := out ≤ p ∨ p + n ≤ out

/-- The memory `m` without the cells outside `P`: any access outside `P` faults. -/
def onlyCells (m : Mem α) (P : Nat → Prop) [DecidablePred P] : Mem α := fun a =>
  if P a then m a else none

/-- The contents of a cell after a call; `none` if the call faults. -/
def cellAfter {β : Type} (call : Exec α β) (m : Mem α) (a : Nat) : Option α :=
  match call m with
  | .ok (_, m') => m' a
  | .error _ => none

end Nova.Spec
