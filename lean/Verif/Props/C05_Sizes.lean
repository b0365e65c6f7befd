import Verif.Props.C01_Elementwise

/-!
# C05, C09: compile-time sizes, and sizes that are not a multiple of the loop granule
-/

namespace Nova
open Spec
variable {α : Type}

/-! ## C05 -/

/-- `foo_vec_simd<N>(out, in)` for every positive multiple `N` of the vector size. -/
theorem C05_unary_compileTime (t : Target) (E : Env α) (op : UnOp) {m : Mem α} {out inp N : Nat}
    {x y : Nat → α} (hN : 0 < N) (hmul : t.size ∣ N) (hoal : t.align ∣ out) (hial : t.align ∣ inp)
    (hout : Allocated m out N) (hin : Holds m inp N x) (hs : SafePlacement out inp N)
    (hf : ∀ i, i < N → op.f E.L (x i) = .ok (y i)) :
    op.vecSimdN (t.vec E) N out inp m = .ok ((), overwrite m out N y) := by
  obtain ⟨J, hJ⟩ := hmul
  have hNJ : N = J * (t.vec E).size := by rw [hJ, t.vec_size, Nat.mul_comm]
  subst hNJ
  rw [← t.vec_lane E] at hf
  exact performVecSimdN1_spec (t.lawful E) (Nat.pos_of_mul_pos_right hN) hoal hout
    ⟨hial, hin, hs⟩ hf

/-- The compile-time and the run-time version leave the same memory and neither faults. -/
theorem C05_unary (t : Target) (E : Env α) (op : UnOp) {m : Mem α} {out inp : Nat} {n : BitVec 32}
    {x y : Nat → α} (hn : 0 < n.toNat) (hmul : t.perLine ∣ n.toNat)
    (hoal : t.align ∣ out) (hial : t.align ∣ inp) (hout : Allocated m out n.toNat)
    (hin : Holds m inp n.toNat x) (hs : SafePlacement out inp n.toNat)
    (hf : ∀ i, i < n.toNat → op.f E.L (x i) = .ok (y i)) :
    ∃ m', op.vecSimdN (t.vec E) n.toNat out inp m = .ok ((), m') ∧
      op.vecSimd (t.vec E) out inp n m = .ok ((), m') :=
  ⟨_, C05_unary_compileTime t E op hn (Nat.dvd_trans t.size_dvd hmul) hoal hial hout hin hs hf,
    C01_unary_simd t E op hn hmul hoal hial hout hin hs hf⟩

theorem C05_binary_compileTime (t : Target) (E : Env α) (op : BinOp) {m : Mem α} {out N : Nat}
    {a b : SArg α} {x y : Nat → α} (hN : 0 < N) (hmul : t.size ∣ N) (hoal : t.align ∣ out)
    (hout : Allocated m out N)
    (ha : SimdSupplies (t.vec E) t.align m out N a x)
    (hb : SimdSupplies (t.vec E) t.align m out N b y) :
    op.vecSimdN (t.vec E) N out a b m
      = .ok ((), overwrite m out N fun i => op.f E.L (x i) (y i)) := by
  obtain ⟨J, hJ⟩ := hmul
  have hNJ : N = J * (t.vec E).size := by rw [hJ, t.vec_size, Nat.mul_comm]
  subst hNJ
  rw [← t.vec_lane E]
  exact performVecSimdN2_spec (t.lawful E) (Nat.pos_of_mul_pos_right hN) hoal hout ha hb

theorem C05_binary (t : Target) (E : Env α) (op : BinOp) {m : Mem α} {out : Nat}
    {a b : SArg α} {n : BitVec 32} {x y : Nat → α} (hn : 0 < n.toNat)
    (hmul : t.perLine ∣ n.toNat) (hoal : t.align ∣ out) (hout : Allocated m out n.toNat)
    (ha : SimdSupplies (t.vec E) t.align m out n.toNat a x)
    (hb : SimdSupplies (t.vec E) t.align m out n.toNat b y) :
    ∃ m', op.vecSimdN (t.vec E) n.toNat out a b m = .ok ((), m') ∧
      op.vecSimd (t.vec E) out a b n m = .ok ((), m') :=
  ⟨_, C05_binary_compileTime t E op hn (Nat.dvd_trans t.size_dvd hmul) hoal hout ha hb,
    C02_binary_simd t E op hn hmul hoal hout ha hb⟩

theorem C05_ternary_compileTime (t : Target) (E : Env α) (op : TerOp) {m : Mem α} {out N : Nat}
    {a b c : SArg α} {x y z : Nat → α} (hN : 0 < N) (hmul : t.size ∣ N) (hoal : t.align ∣ out)
    (hout : Allocated m out N)
    (ha : SimdSupplies (t.vec E) t.align m out N a x)
    (hb : SimdSupplies (t.vec E) t.align m out N b y)
    (hc : SimdSupplies (t.vec E) t.align m out N c z) :
    op.vecSimdN (t.vec E) N out a b c m
      = .ok ((), overwrite m out N fun i => op.f E.L (x i) (y i) (z i)) := by
  obtain ⟨J, hJ⟩ := hmul
  have hNJ : N = J * (t.vec E).size := by rw [hJ, t.vec_size, Nat.mul_comm]
  subst hNJ
  rw [← t.vec_lane E]
  exact performVecSimdN3_spec (t.lawful E) (Nat.pos_of_mul_pos_right hN) hoal hout ha hb hc

theorem C05_ternary (t : Target) (E : Env α) (op : TerOp) {m : Mem α} {out : Nat}
    {a b c : SArg α} {n : BitVec 32} {x y z : Nat → α} (hn : 0 < n.toNat)
    (hmul : t.perLine ∣ n.toNat) (hoal : t.align ∣ out) (hout : Allocated m out n.toNat)
    (ha : SimdSupplies (t.vec E) t.align m out n.toNat a x)
    (hb : SimdSupplies (t.vec E) t.align m out n.toNat b y)
    (hc : SimdSupplies (t.vec E) t.align m out n.toNat c z) :
    ∃ m', op.vecSimdN (t.vec E) n.toNat out a b c m = .ok ((), m') ∧
      op.vecSimd (t.vec E) out a b c n m = .ok ((), m') :=
  ⟨_, C05_ternary_compileTime t E op hn (Nat.dvd_trans t.size_dvd hmul) hoal hout ha hb hc,
    C03_ternary_simd t E op hn hmul hoal hout ha hb hc⟩

theorem C05_quad_compileTime (t : Target) (E : Env α) (op : QuadOp) {m : Mem α} {out N : Nat}
    {a b c d : SArg α} {x y z u : Nat → α} (hN : 0 < N) (hmul : t.size ∣ N) (hoal : t.align ∣ out)
    (hout : Allocated m out N)
    (ha : SimdSupplies (t.vec E) t.align m out N a x)
    (hb : SimdSupplies (t.vec E) t.align m out N b y)
    (hc : SimdSupplies (t.vec E) t.align m out N c z)
    (hd : SimdSupplies (t.vec E) t.align m out N d u) :
    op.vecSimdN (t.vec E) N out a b c d m
      = .ok ((), overwrite m out N fun i => op.f E.L (x i) (y i) (z i) (u i)) := by
  obtain ⟨J, hJ⟩ := hmul
  have hNJ : N = J * (t.vec E).size := by rw [hJ, t.vec_size, Nat.mul_comm]
  subst hNJ
  rw [← t.vec_lane E]
  exact performVecSimdN4_spec (t.lawful E) (Nat.pos_of_mul_pos_right hN) hoal hout ha hb hc hd

theorem C05_quad (t : Target) (E : Env α) (op : QuadOp) {m : Mem α} {out : Nat}
    {a b c d : SArg α} {n : BitVec 32} {x y z u : Nat → α} (hn : 0 < n.toNat)
    (hmul : t.perLine ∣ n.toNat) (hoal : t.align ∣ out) (hout : Allocated m out n.toNat)
    (ha : SimdSupplies (t.vec E) t.align m out n.toNat a x)
    (hb : SimdSupplies (t.vec E) t.align m out n.toNat b y)
    (hc : SimdSupplies (t.vec E) t.align m out n.toNat c z)
    (hd : SimdSupplies (t.vec E) t.align m out n.toNat d u) :
    ∃ m', op.vecSimdN (t.vec E) n.toNat out a b c d m = .ok ((), m') ∧
      op.vecSimd (t.vec E) out a b c d n m = .ok ((), m') :=
  ⟨_, C05_quad_compileTime t E op hn (Nat.dvd_trans t.size_dvd hmul) hoal hout ha hb hc hd,
    C04_quad_simd t E op hn hmul hoal hout ha hb hc hd⟩

/-! ## C09

`n / t.perLine * t.perLine` elements are processed, the rest of the output is not touched. -/

theorem C09_unary (t : Target) (E : Env α) (op : UnOp) {m : Mem α} {out inp : Nat}
    {n : BitVec 32} {x y : Nat → α} (hn : t.perLine ≤ n.toNat)
    (hoal : t.align ∣ out) (hial : t.align ∣ inp)
    (hout : Allocated m out (n.toNat / t.perLine * t.perLine))
    (hin : Holds m inp (n.toNat / t.perLine * t.perLine) x)
    (hs : SafePlacement out inp (n.toNat / t.perLine * t.perLine))
    (hf : ∀ i, i < n.toNat / t.perLine * t.perLine → op.f E.L (x i) = .ok (y i)) :
    ∃ m', op.vecSimd (t.vec E) out inp n m = .ok ((), m') ∧
      (∀ i, i < n.toNat / t.perLine * t.perLine → m' (out + i) = some (y i)) ∧
      (∀ a, a < out ∨ out + n.toNat / t.perLine * t.perLine ≤ a → m' a = m a) := by
  have hp : processed (t.vec E) n = n.toNat / t.perLine * t.perLine := by
    unfold processed; rw [t.vec_perLine]
  rw [← hp] at hout hin hs hf ⊢
  rw [← t.vec_lane E] at hf
  exact ⟨_, performVecSimd1_spec (t.lawful E) (by rw [t.vec_perLine]; exact hn) hoal hout
    ⟨hial, hin, hs⟩ hf, fun i hi => overwrite_inside hi, fun a ha => overwrite_outside ha⟩

theorem C09_binary (t : Target) (E : Env α) (op : BinOp) {m : Mem α} {out : Nat}
    {a b : SArg α} {n : BitVec 32} {x y : Nat → α} (hn : t.perLine ≤ n.toNat)
    (hoal : t.align ∣ out) (hout : Allocated m out (n.toNat / t.perLine * t.perLine))
    (ha : SimdSupplies (t.vec E) t.align m out (n.toNat / t.perLine * t.perLine) a x)
    (hb : SimdSupplies (t.vec E) t.align m out (n.toNat / t.perLine * t.perLine) b y) :
    ∃ m', op.vecSimd (t.vec E) out a b n m = .ok ((), m') ∧
      (∀ i, i < n.toNat / t.perLine * t.perLine →
        m' (out + i) = some (op.f E.L (x i) (y i))) ∧
      (∀ a, a < out ∨ out + n.toNat / t.perLine * t.perLine ≤ a → m' a = m a) := by
  have hp : processed (t.vec E) n = n.toNat / t.perLine * t.perLine := by
    unfold processed; rw [t.vec_perLine]
  rw [← hp] at hout ha hb ⊢
  rw [← t.vec_lane E]
  exact ⟨_, performVecSimd2_spec (t.lawful E) (by rw [t.vec_perLine]; exact hn) hoal hout
    ha hb, fun i hi => overwrite_inside hi, fun a ha => overwrite_outside ha⟩

theorem C09_ternary (t : Target) (E : Env α) (op : TerOp) {m : Mem α} {out : Nat}
    {a b c : SArg α} {n : BitVec 32} {x y z : Nat → α} (hn : t.perLine ≤ n.toNat)
    (hoal : t.align ∣ out) (hout : Allocated m out (n.toNat / t.perLine * t.perLine))
    (ha : SimdSupplies (t.vec E) t.align m out (n.toNat / t.perLine * t.perLine) a x)
    (hb : SimdSupplies (t.vec E) t.align m out (n.toNat / t.perLine * t.perLine) b y)
    (hc : SimdSupplies (t.vec E) t.align m out (n.toNat / t.perLine * t.perLine) c z) :
    ∃ m', op.vecSimd (t.vec E) out a b c n m = .ok ((), m') ∧
      (∀ i, i < n.toNat / t.perLine * t.perLine →
        m' (out + i) = some (op.f E.L (x i) (y i) (z i))) ∧
      (∀ a, a < out ∨ out + n.toNat / t.perLine * t.perLine ≤ a → m' a = m a) := by
  have hp : processed (t.vec E) n = n.toNat / t.perLine * t.perLine := by
    unfold processed; rw [t.vec_perLine]
  rw [← hp] at hout ha hb hc ⊢
  rw [← t.vec_lane E]
  exact ⟨_, performVecSimd3_spec (t.lawful E) (by rw [t.vec_perLine]; exact hn) hoal hout
    ha hb hc, fun i hi => overwrite_inside hi, fun a ha => overwrite_outside ha⟩

theorem C09_quad (t : Target) (E : Env α) (op : QuadOp) {m : Mem α} {out : Nat}
    {a b c d : SArg α} {n : BitVec 32} {x y z u : Nat → α} (hn : t.perLine ≤ n.toNat)
    (hoal : t.align ∣ out) (hout : Allocated m out (n.toNat / t.perLine * t.perLine))
    (ha : SimdSupplies (t.vec E) t.align m out (n.toNat / t.perLine * t.perLine) a x)
    (hb : SimdSupplies (t.vec E) t.align m out (n.toNat / t.perLine * t.perLine) b y)
    (hc : SimdSupplies (t.vec E) t.align m out (n.toNat / t.perLine * t.perLine) c z)
    (hd : SimdSupplies (t.vec E) t.align m out (n.toNat / t.perLine * t.perLine) d u) :
    ∃ m', op.vecSimd (t.vec E) out a b c d n m = .ok ((), m') ∧
      (∀ i, i < n.toNat / t.perLine * t.perLine →
        m' (out + i) = some (op.f E.L (x i) (y i) (z i) (u i))) ∧
      (∀ a, a < out ∨ out + n.toNat / t.perLine * t.perLine ≤ a → m' a = m a) := by
  have hp : processed (t.vec E) n = n.toNat / t.perLine * t.perLine := by
    unfold processed; rw [t.vec_perLine]
  rw [← hp] at hout ha hb hc hd ⊢
  rw [← t.vec_lane E]
  exact ⟨_, performVecSimd4_spec (t.lawful E) (by rw [t.vec_perLine]; exact hn) hoal hout
    ha hb hc hd, fun i hi => overwrite_inside hi, fun a ha => overwrite_outside ha⟩

/-! ## The hypotheses are satisfiable -/
section examples
open Examples

/-- `square_vec_simd<12>` on SSE: 12 is a multiple of the vector size but not of the granule. -/
example : (UnOp.square.vecSimdN ((Target.sse true true).vec intEnv) 12 0 0 (ramp 12))
    = .ok ((), overwrite (ramp 12) 0 12 fun i => (10 * (i : Int) - 100) * (10 * (i : Int) - 100)) :=
  C05_unary_compileTime (.sse true true) intEnv .square (x := fun i => 10 * (i : Int) - 100)
    (by decide) (by decide) (by decide) (by decide) (by unfold Allocated; decide)
    (by unfold Holds; decide) (Or.inl (Nat.le_refl 0)) (fun _ _ => rfl)

example : ∃ m', BinOp.times.vecSimdN (Target.avxFloat.vec intEnv) 32 32 (.ptr 0) (.scalar 7) (ramp 64)
      = .ok ((), m') ∧
    BinOp.times.vecSimd (Target.avxFloat.vec intEnv) 32 (.ptr 0) (.scalar 7) 32#32 (ramp 64)
      = .ok ((), m') :=
  C05_binary .avxFloat intEnv .times (n := 32#32) (x := fun i => 10 * (i : Int) - 100)
    (y := fun _ => 7) (by decide) (by decide) (by decide) (by unfold Allocated; decide)
    ⟨by decide, by unfold Holds; decide, Or.inr (by decide)⟩ (fun _ _ => rfl)

/-- 23 elements with SSE: 16 are processed, the seven others keep their values. -/
example : ∃ m', UnOp.abs.vecSimd ((Target.sse false false).vec intEnv) 0 0 23#32 (ramp 23)
      = .ok ((), m') ∧
    (∀ i, i < 16 → m' (0 + i) = some ((10 * (i : Int) - 100).natAbs : Int)) ∧
    (∀ a, a < 0 ∨ 0 + 16 ≤ a → m' a = ramp 23 a) :=
  C09_unary (.sse false false) intEnv .abs (n := 23#32) (x := fun i => 10 * (i : Int) - 100)
    (by decide) (by decide) (by decide) (by unfold Allocated; decide) (by unfold Holds; decide)
    (Or.inl (Nat.le_refl 0)) (fun _ _ => rfl)

end examples

end Nova
