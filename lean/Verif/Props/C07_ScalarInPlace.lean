import Verif.Props.C06_Footprint

/-!
# C07: in-place and backward-overlapping scalar calls with several arguments
-/

namespace Nova
open Spec
variable {α : Type}

/-- The argument supplies the values `x` of the memory `m` before the (scalar) call. -/
def SnapshotScalar (A : Arith α) (m : Mem α) (n : Nat) : SArg α → (Nat → α) → Prop
  | .ptr p, x => Holds m p n x
  | .scalar c, x => ∀ i, i < n → x i = c
  | .ramp b s, x => ∀ i, i < n → x i = scalarRamp A b s i

theorem scalarSupplies_of_notBefore {A : Arith α} {m : Mem α} {out n : Nat} {s : SArg α}
    {x : Nat → α} (h : SnapshotScalar A m n s x) (hb : NotBefore out s) :
    ScalarSupplies A m out n s x := by
  cases s with
  | ptr p => exact ⟨h, Or.inl hb⟩
  | scalar c => exact h
  | ramp b s => exact h

/-- Any of the two buffers may be the output buffer or start after it. -/
theorem C07_binary_scalar (A : Arith α) (op : BinOp) {m : Mem α} {out : Nat} {a b : SArg α}
    {n : BitVec 32} {x y : Nat → α} (hn : 0 < n.toNat) (hout : Allocated m out n.toNat)
    (ha : SnapshotScalar A m n.toNat a x) (oa : NotBefore out a)
    (hb : SnapshotScalar A m n.toNat b y) (ob : NotBefore out b) :
    op.vec A out a b n m = .ok ((), overwrite m out n.toNat fun i => op.f A (x i) (y i)) :=
  C02_binary_scalar A op hn hout (scalarSupplies_of_notBefore ha oa) (scalarSupplies_of_notBefore hb ob)

theorem C07_ternary_scalar (A : Arith α) (op : TerOp) {m : Mem α} {out : Nat} {a b c : SArg α}
    {n : BitVec 32} {x y z : Nat → α} (hn : 0 < n.toNat) (hout : Allocated m out n.toNat)
    (ha : SnapshotScalar A m n.toNat a x) (oa : NotBefore out a)
    (hb : SnapshotScalar A m n.toNat b y) (ob : NotBefore out b)
    (hc : SnapshotScalar A m n.toNat c z) (oc : NotBefore out c) :
    op.vec A out a b c n m
      = .ok ((), overwrite m out n.toNat fun i => op.f A (x i) (y i) (z i)) :=
  C03_ternary_scalar A op hn hout (scalarSupplies_of_notBefore ha oa)
    (scalarSupplies_of_notBefore hb ob) (scalarSupplies_of_notBefore hc oc)

theorem C07_quad_scalar (A : Arith α) (op : QuadOp) {m : Mem α} {out : Nat} {a b c d : SArg α}
    {n : BitVec 32} {x y z u : Nat → α} (hn : 0 < n.toNat) (hout : Allocated m out n.toNat)
    (ha : SnapshotScalar A m n.toNat a x) (oa : NotBefore out a)
    (hb : SnapshotScalar A m n.toNat b y) (ob : NotBefore out b)
    (hc : SnapshotScalar A m n.toNat c z) (oc : NotBefore out c)
    (hd : SnapshotScalar A m n.toNat d u) (od : NotBefore out d) :
    op.vec A out a b c d n m
      = .ok ((), overwrite m out n.toNat fun i => op.f A (x i) (y i) (z i) (u i)) :=
  C04_quad_scalar A op hn hout (scalarSupplies_of_notBefore ha oa)
    (scalarSupplies_of_notBefore hb ob) (scalarSupplies_of_notBefore hc oc)
    (scalarSupplies_of_notBefore hd od)

section examples
open Examples

/-- `minus_vec(p, p, p + 3, 10)`: the first argument is the output, the second overlaps it. -/
example : ∃ m', BinOp.minus.vec intArith 2 (.ptr 2) (.ptr 5) 10#32 (ramp 30) = .ok ((), m') ∧
    m' 4 = some (-30) :=
  ⟨_, C07_binary_scalar intArith .minus (n := 10#32) (x := fun i => 10 * ((2 + i : Nat) : Int) - 100)
      (y := fun i => 10 * ((5 + i : Nat) : Int) - 100)
      (by decide) (by unfold Allocated; decide) (by unfold SnapshotScalar Holds; decide)
      (Nat.le_refl 2) (by unfold SnapshotScalar Holds; decide) (show 2 ≤ 5 by decide), by decide⟩

end examples
end Nova
