import Verif.Props.C13_Ramps

/-!
# C13: ramp arguments in every position

In exact arithmetic a ramp is an argument that supplies `base + i*slope`, wherever it stands in a call.
-/

namespace Nova
open Spec
variable {α : Type} [CommRing α]

/-- As an argument of any SIMD function. -/
theorem C13_simd_supplies (t : Target) (E : Env α) (hE : E.Exact) (m : Mem α) (out n : Nat)
    (base slope : α) :
    SimdSupplies (t.vec E) t.align m out n (.ramp base slope) fun i => base + i * slope :=
  fun i _ => (C13_simd t E hE base slope i).symm

/-- As an argument of any scalar function. -/
theorem C13_scalar_supplies {A : Arith α} (hA : A.Exact) (m : Mem α) (out n : Nat) (base slope : α) :
    ScalarSupplies A m out n (.ramp base slope) fun i => base + i * slope :=
  fun i _ => (C13_scalar hA base slope i).symm

/-- The ramp as the first argument, for instance `minus_vec(out, slope_argument(b, s), in, n)`. -/
theorem C13_binary_first (t : Target) (E : Env α) (hE : E.Exact) (op : BinOp) {m : Mem α} {out : Nat}
    {b : SArg α} {n : BitVec 32} {y : Nat → α} {base slope : α} (hn : 0 < n.toNat)
    (hmul : t.perLine ∣ n.toNat) (hoal : t.align ∣ out) (hout : Allocated m out n.toNat)
    (hb : SimdSupplies (t.vec E) t.align m out n.toNat b y)
    (gb : ScalarSupplies E.S m out n.toNat b y) :
    op.vecSimd (t.vec E) out (.ramp base slope) b n m
      = .ok ((), overwrite m out n.toNat fun i => op.f E.L (base + i * slope) (y i)) ∧
    op.vec E.S out (.ramp base slope) b n m
      = .ok ((), overwrite m out n.toNat fun i => op.f E.S (base + i * slope) (y i)) :=
  ⟨C02_binary_simd t E op hn hmul hoal hout (C13_simd_supplies t E hE m out _ _ _) hb,
    C02_binary_scalar E.S op hn hout (C13_scalar_supplies hE.S m out _ _ _) gb⟩

/-- Ramps as the first two arguments of a ternary function. -/
theorem C13_ternary_first (t : Target) (E : Env α) (hE : E.Exact) (op : TerOp) {m : Mem α} {out : Nat}
    {c : SArg α} {n : BitVec 32} {z : Nat → α} {b1 s1 b2 s2 : α} (hn : 0 < n.toNat)
    (hmul : t.perLine ∣ n.toNat) (hoal : t.align ∣ out) (hout : Allocated m out n.toNat)
    (hc : SimdSupplies (t.vec E) t.align m out n.toNat c z)
    (gc : ScalarSupplies E.S m out n.toNat c z) :
    op.vecSimd (t.vec E) out (.ramp b1 s1) (.ramp b2 s2) c n m
      = .ok ((), overwrite m out n.toNat fun i => op.f E.L (b1 + i * s1) (b2 + i * s2) (z i)) ∧
    op.vec E.S out (.ramp b1 s1) (.ramp b2 s2) c n m
      = .ok ((), overwrite m out n.toNat fun i => op.f E.S (b1 + i * s1) (b2 + i * s2) (z i)) :=
  ⟨C03_ternary_simd t E op hn hmul hoal hout (C13_simd_supplies t E hE m out _ _ _) (C13_simd_supplies t E hE m out _ _ _) hc,
    C03_ternary_scalar E.S op hn hout (C13_scalar_supplies hE.S m out _ _ _) (C13_scalar_supplies hE.S m out _ _ _) gc⟩

/-- Ramps as the first and the third argument of a mix. -/
theorem C13_quad_first (t : Target) (E : Env α) (hE : E.Exact) (op : QuadOp) {m : Mem α} {out : Nat}
    {b d : SArg α} {n : BitVec 32} {y u : Nat → α} {b1 s1 b2 s2 : α} (hn : 0 < n.toNat)
    (hmul : t.perLine ∣ n.toNat) (hoal : t.align ∣ out) (hout : Allocated m out n.toNat)
    (hb : SimdSupplies (t.vec E) t.align m out n.toNat b y)
    (gb : ScalarSupplies E.S m out n.toNat b y)
    (hd : SimdSupplies (t.vec E) t.align m out n.toNat d u)
    (gd : ScalarSupplies E.S m out n.toNat d u) :
    op.vecSimd (t.vec E) out (.ramp b1 s1) b (.ramp b2 s2) d n m
      = .ok ((), overwrite m out n.toNat fun i => op.f E.L (b1 + i * s1) (y i) (b2 + i * s2) (u i)) ∧
    op.vec E.S out (.ramp b1 s1) b (.ramp b2 s2) d n m
      = .ok ((), overwrite m out n.toNat fun i => op.f E.S (b1 + i * s1) (y i) (b2 + i * s2) (u i)) :=
  ⟨C04_quad_simd t E op hn hmul hoal hout (C13_simd_supplies t E hE m out _ _ _) hb (C13_simd_supplies t E hE m out _ _ _) hd,
    C04_quad_scalar E.S op hn hout (C13_scalar_supplies hE.S m out _ _ _) gb (C13_scalar_supplies hE.S m out _ _ _) gd⟩

section examples
open Examples

/-- `minus_vec(out, slope_argument(100, -7), 3, 16)` -/
example : BinOp.minus.vecSimd ((Target.sse true true).vec intEnv) 4 (.ramp 100 (-7)) (.scalar 3) 16#32 (ramp 30)
    = .ok ((), overwrite (ramp 30) 4 16 fun i => 100 + i * (-7) - 3) :=
  (C13_binary_first (.sse true true) intEnv intEnv_exact .minus (by decide) (by decide) (by decide)
    (by unfold Allocated; decide) (b := .scalar 3) (y := fun _ => 3) (fun _ _ => rfl) (fun _ _ => rfl)).1

end examples
end Nova
