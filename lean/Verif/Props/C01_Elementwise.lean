import Verif.Lemmas.Buffers
import Verif.Lemmas.Backends
import Verif.Examples

/-!
# C01–C04: the buffer functions act element by element

`t` ranges over all vector classes of the library, `E` over all arithmetics, `op` over all public
functions of the arity, `m` over all memories, `n` over all sizes.
-/

namespace Nova
open Spec
variable {α : Type}

theorem processed_eq (t : Target) (E : Env α) {n : BitVec 32} (h : t.perLine ∣ n.toNat) :
    processed (t.vec E) n = n.toNat := by
  unfold processed
  rw [t.vec_perLine]
  exact Nat.div_mul_cancel h

theorem perLine_le (t : Target) (E : Env α) {n : BitVec 32} (h0 : 0 < n.toNat)
    (h : t.perLine ∣ n.toNat) : (t.vec E).perLine ≤ n.toNat := by
  rw [t.vec_perLine]; exact Nat.le_of_dvd h0 h

/-! ## C01 -/

/-- `foo_vec(out, in, n)`: element `i` of the output is the scalar function of element `i` of the
input, nothing else changes. -/
theorem C01_unary_scalar (A : Arith α) (op : UnOp) {m : Mem α} {out inp : Nat} {n : BitVec 32}
    {x y : Nat → α} (hn : 0 < n.toNat) (hout : Allocated m out n.toNat)
    (hin : Holds m inp n.toNat x) (hs : SafePlacement out inp n.toNat)
    (hf : ∀ i, i < n.toNat → op.f A (x i) = .ok (y i)) :
    op.vec A out inp n m = .ok ((), overwrite m out n.toNat y) :=
  performVec1_spec hn hout hin hs hf

/-- `foo_vec_simd(out, in, n)`: element `i` of the output is the lane function of element `i` of the
input, nothing else changes. -/
theorem C01_unary_simd (t : Target) (E : Env α) (op : UnOp) {m : Mem α} {out inp : Nat}
    {n : BitVec 32} {x y : Nat → α} (hn : 0 < n.toNat) (hmul : t.perLine ∣ n.toNat)
    (hoal : t.align ∣ out) (hial : t.align ∣ inp) (hout : Allocated m out n.toNat)
    (hin : Holds m inp n.toNat x) (hs : SafePlacement out inp n.toNat)
    (hf : ∀ i, i < n.toNat → op.f E.L (x i) = .ok (y i)) :
    op.vecSimd (t.vec E) out inp n m = .ok ((), overwrite m out n.toNat y) := by
  have hp := processed_eq t E hmul
  rw [← hp]
  apply performVecSimd1_spec (t.lawful E) (x := x) (perLine_le t E hn hmul) hoal <;> rw [hp]
  · exact hout
  · exact ⟨hial, hin, hs⟩
  · rw [t.vec_lane]; exact hf

/-- If the scalar and the lane function agree on the input values, both calls leave the same
memory. -/
theorem C01_unary_agree (t : Target) (E : Env α) (op : UnOp) {m : Mem α} {out inp : Nat}
    {n : BitVec 32} {x y : Nat → α} (hn : 0 < n.toNat) (hmul : t.perLine ∣ n.toNat)
    (hoal : t.align ∣ out) (hial : t.align ∣ inp) (hout : Allocated m out n.toNat)
    (hin : Holds m inp n.toNat x) (hs : SafePlacement out inp n.toNat)
    (hf : ∀ i, i < n.toNat → op.f E.S (x i) = .ok (y i))
    (hag : ∀ i, i < n.toNat → op.f E.L (x i) = op.f E.S (x i)) :
    op.vecSimd (t.vec E) out inp n m = op.vec E.S out inp n m := by
  rw [C01_unary_scalar E.S op hn hout hin hs hf,
    C01_unary_simd t E op hn hmul hoal hial hout hin hs (fun i hi => by rw [hag i hi, hf i hi])]

/-! ## C02 -/

theorem C02_binary_scalar (A : Arith α) (op : BinOp) {m : Mem α} {out : Nat} {a b : SArg α}
    {n : BitVec 32} {x y : Nat → α} (hn : 0 < n.toNat) (hout : Allocated m out n.toNat)
    (ha : ScalarSupplies A m out n.toNat a x) (hb : ScalarSupplies A m out n.toNat b y) :
    op.vec A out a b n m = .ok ((), overwrite m out n.toNat fun i => op.f A (x i) (y i)) :=
  performVec2_spec hn hout ha hb

theorem C02_binary_simd (t : Target) (E : Env α) (op : BinOp) {m : Mem α} {out : Nat}
    {a b : SArg α} {n : BitVec 32} {x y : Nat → α} (hn : 0 < n.toNat) (hmul : t.perLine ∣ n.toNat)
    (hoal : t.align ∣ out) (hout : Allocated m out n.toNat)
    (ha : SimdSupplies (t.vec E) t.align m out n.toNat a x)
    (hb : SimdSupplies (t.vec E) t.align m out n.toNat b y) :
    op.vecSimd (t.vec E) out a b n m
      = .ok ((), overwrite m out n.toNat fun i => op.f E.L (x i) (y i)) := by
  have hp := processed_eq t E hmul
  rw [← hp] at hout ha hb ⊢
  rw [← t.vec_lane E]
  exact performVecSimd2_spec (t.lawful E) (perLine_le t E hn hmul) hoal hout ha hb

/-! ## C03 -/

theorem C03_ternary_scalar (A : Arith α) (op : TerOp) {m : Mem α} {out : Nat} {a b c : SArg α}
    {n : BitVec 32} {x y z : Nat → α} (hn : 0 < n.toNat) (hout : Allocated m out n.toNat)
    (ha : ScalarSupplies A m out n.toNat a x) (hb : ScalarSupplies A m out n.toNat b y)
    (hc : ScalarSupplies A m out n.toNat c z) :
    op.vec A out a b c n m
      = .ok ((), overwrite m out n.toNat fun i => op.f A (x i) (y i) (z i)) :=
  performVec3_spec hn hout ha hb hc

theorem C03_ternary_simd (t : Target) (E : Env α) (op : TerOp) {m : Mem α} {out : Nat}
    {a b c : SArg α} {n : BitVec 32} {x y z : Nat → α} (hn : 0 < n.toNat)
    (hmul : t.perLine ∣ n.toNat) (hoal : t.align ∣ out) (hout : Allocated m out n.toNat)
    (ha : SimdSupplies (t.vec E) t.align m out n.toNat a x)
    (hb : SimdSupplies (t.vec E) t.align m out n.toNat b y)
    (hc : SimdSupplies (t.vec E) t.align m out n.toNat c z) :
    op.vecSimd (t.vec E) out a b c n m
      = .ok ((), overwrite m out n.toNat fun i => op.f E.L (x i) (y i) (z i)) := by
  have hp := processed_eq t E hmul
  rw [← hp] at hout ha hb hc ⊢
  rw [← t.vec_lane E]
  exact performVecSimd3_spec (t.lawful E) (perLine_le t E hn hmul) hoal hout ha hb hc

/-! ## C04 -/

theorem C04_quad_scalar (A : Arith α) (op : QuadOp) {m : Mem α} {out : Nat} {a b c d : SArg α}
    {n : BitVec 32} {x y z u : Nat → α} (hn : 0 < n.toNat) (hout : Allocated m out n.toNat)
    (ha : ScalarSupplies A m out n.toNat a x) (hb : ScalarSupplies A m out n.toNat b y)
    (hc : ScalarSupplies A m out n.toNat c z) (hd : ScalarSupplies A m out n.toNat d u) :
    op.vec A out a b c d n m
      = .ok ((), overwrite m out n.toNat fun i => op.f A (x i) (y i) (z i) (u i)) :=
  performVec4_spec hn hout ha hb hc hd

theorem C04_quad_simd (t : Target) (E : Env α) (op : QuadOp) {m : Mem α} {out : Nat}
    {a b c d : SArg α} {n : BitVec 32} {x y z u : Nat → α} (hn : 0 < n.toNat)
    (hmul : t.perLine ∣ n.toNat) (hoal : t.align ∣ out) (hout : Allocated m out n.toNat)
    (ha : SimdSupplies (t.vec E) t.align m out n.toNat a x)
    (hb : SimdSupplies (t.vec E) t.align m out n.toNat b y)
    (hc : SimdSupplies (t.vec E) t.align m out n.toNat c z)
    (hd : SimdSupplies (t.vec E) t.align m out n.toNat d u) :
    op.vecSimd (t.vec E) out a b c d n m
      = .ok ((), overwrite m out n.toNat fun i => op.f E.L (x i) (y i) (z i) (u i)) := by
  have hp := processed_eq t E hmul
  rw [← hp] at hout ha hb hc hd ⊢
  rw [← t.vec_lane E]
  exact performVecSimd4_spec (t.lawful E) (perLine_le t E hn hmul) hoal hout ha hb hc hd

/-! ## The hypotheses are satisfiable -/
section examples
open Examples

/-- `abs_vec_simd` on SSE, 16 elements, in place: `-100, -90, …, 50` become `100, 90, …, 50`. -/
example : (UnOp.abs.vecSimd ((Target.sse true true).vec intEnv) 0 0 16#32 (ramp 16))
    = .ok ((), overwrite (ramp 16) 0 16 fun i => ((10 * (i : Int) - 100).natAbs : Int)) :=
  C01_unary_simd (.sse true true) intEnv .abs (x := fun i => 10 * (i : Int) - 100)
    (by decide) (by decide) (by decide) (by decide) (by unfold Allocated; decide)
    (by unfold Holds; decide) (Or.inl (Nat.le_refl 0)) (fun _ _ => rfl)

/-- `plus_vec_simd` with a buffer and a scalar on AVX, 32 elements, disjoint output. -/
example : (BinOp.plus.vecSimd (Target.avxFloat.vec intEnv) 32 (.ptr 0) (.scalar 7) 32#32 (ramp 64))
    = .ok ((), overwrite (ramp 64) 32 32 fun i => (10 * (i : Int) - 100) + 7) :=
  C02_binary_simd .avxFloat intEnv .plus (x := fun i => 10 * (i : Int) - 100) (y := fun _ => 7)
    (by decide) (by decide) (by decide) (by unfold Allocated; decide)
    ⟨by decide, by unfold Holds; decide, Or.inr (by decide)⟩ (fun _ _ => rfl)

/-- `clip_vec_simd` on `double`, SSE2. -/
example : (TerOp.clip.vecSimd (Target.sse2.vec intEnv) 0 (.ptr 0) (.scalar (-20)) (.scalar 20) 16#32
      (ramp 16))
    = .ok ((), overwrite (ramp 16) 0 16 fun i => max (min (10 * (i : Int) - 100) 20) (-20)) :=
  C03_ternary_simd .sse2 intEnv .clip (x := fun i => 10 * (i : Int) - 100) (y := fun _ => -20)
    (z := fun _ => 20) (by decide) (by decide) (by decide) (by unfold Allocated; decide)
    ⟨by decide, by unfold Holds; decide, Or.inl (by decide)⟩ (fun _ _ => rfl) (fun _ _ => rfl)

/-- `mix_vec_simd` with two buffers and two gains on NEON. -/
example : (QuadOp.mix.vecSimd (Target.neon.vec intEnv) 1 (.ptr 1) (.scalar 2) (.ptr 17) (.scalar 3)
      16#32 (ramp 40))
    = .ok ((), overwrite (ramp 40) 1 16 fun i =>
        (10 * ((1 + i : Nat) : Int) - 100) * 2 + (10 * ((17 + i : Nat) : Int) - 100) * 3) :=
  C04_quad_simd .neon intEnv .mix (x := fun i => 10 * ((1 + i : Nat) : Int) - 100)
    (y := fun _ => 2) (z := fun i => 10 * ((17 + i : Nat) : Int) - 100) (u := fun _ => 3)
    (by decide) (by decide) (by decide) (by unfold Allocated; decide)
    ⟨by decide, by unfold Holds; decide, Or.inl (by decide)⟩ (fun _ _ => rfl)
    ⟨by decide, by unfold Holds; decide, Or.inl (by decide)⟩ (fun _ _ => rfl)

end examples

end Nova
