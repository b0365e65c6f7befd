import Verif.Props.C56_Meaning
import Verif.Props.C01_Elementwise

/-!
# C56 for whole calls
-/

namespace Nova
open Spec

/-! ## The calls

Every element written by `foo_vec` and `foo_vec_simd` has the meaning of `foo` at the corresponding
input elements. -/

theorem C56_unary_vec {A : Arith ℝ} (h : A.Real) (op : UnOp) {m : Mem ℝ} {out inp : Nat}
    {n : BitVec 32} {x : Nat → ℝ} (hn : 0 < n.toNat) (hout : Allocated m out n.toNat)
    (hin : Holds m inp n.toNat x) (hs : SafePlacement out inp n.toNat)
    (hx : ∀ i, i < n.toNat → UnDomain op (x i)) :
    ∃ y, op.vec A out inp n m = .ok ((), overwrite m out n.toNat y) ∧
      ∀ i, i < n.toNat → UnMeans op (x i) (y i) := by
  have hy : ∀ i, ∃ y, i < n.toNat → op.f A (x i) = .ok y ∧ UnMeans op (x i) y := fun i => by
    by_cases hi : i < n.toNat
    · obtain ⟨y, hy⟩ := C56_unary h op (x i) (hx i hi)
      exact ⟨y, fun _ => hy⟩
    · exact ⟨0, fun h => absurd h hi⟩
  choose y hy using hy
  exact ⟨y, C01_unary_scalar A op hn hout hin hs fun i hi => (hy i hi).1, fun i hi => (hy i hi).2⟩

theorem C56_unary_simd (t : Target) (E : Env ℝ) (h : E.L.Real) (op : UnOp) {m : Mem ℝ}
    {out inp : Nat} {n : BitVec 32} {x : Nat → ℝ} (hn : 0 < n.toNat) (hmul : t.perLine ∣ n.toNat)
    (hoal : t.align ∣ out) (hial : t.align ∣ inp) (hout : Allocated m out n.toNat)
    (hin : Holds m inp n.toNat x) (hs : SafePlacement out inp n.toNat)
    (hx : ∀ i, i < n.toNat → UnDomain op (x i)) :
    ∃ y, op.vecSimd (t.vec E) out inp n m = .ok ((), overwrite m out n.toNat y) ∧
      ∀ i, i < n.toNat → UnMeans op (x i) (y i) := by
  have hy : ∀ i, ∃ y, i < n.toNat → op.f E.L (x i) = .ok y ∧ UnMeans op (x i) y := fun i => by
    by_cases hi : i < n.toNat
    · obtain ⟨y, hy⟩ := C56_unary h op (x i) (hx i hi)
      exact ⟨y, fun _ => hy⟩
    · exact ⟨0, fun h => absurd h hi⟩
  choose y hy using hy
  exact ⟨y, C01_unary_simd t E op hn hmul hoal hial hout hin hs fun i hi => (hy i hi).1,
    fun i hi => (hy i hi).2⟩

theorem C56_binary_vec {A : Arith ℝ} (h : A.Real) (op : BinOp) {m : Mem ℝ} {out : Nat}
    {a b : SArg ℝ} {n : BitVec 32} {x y : Nat → ℝ} (hn : 0 < n.toNat)
    (hout : Allocated m out n.toNat) (ha : ScalarSupplies A m out n.toNat a x)
    (hb : ScalarSupplies A m out n.toNat b y) (hd : ∀ i, i < n.toNat → BinDomain op (x i) (y i)) :
    ∃ z, op.vec A out a b n m = .ok ((), overwrite m out n.toNat z) ∧
      ∀ i, i < n.toNat → BinMeans op (x i) (y i) (z i) :=
  ⟨_, C02_binary_scalar A op hn hout ha hb, fun i hi => C56_binary h op _ _ (hd i hi)⟩

theorem C56_binary_simd (t : Target) (E : Env ℝ) (h : E.L.Real) (op : BinOp) {m : Mem ℝ}
    {out : Nat} {a b : SArg ℝ} {n : BitVec 32} {x y : Nat → ℝ} (hn : 0 < n.toNat)
    (hmul : t.perLine ∣ n.toNat) (hoal : t.align ∣ out) (hout : Allocated m out n.toNat)
    (ha : SimdSupplies (t.vec E) t.align m out n.toNat a x)
    (hb : SimdSupplies (t.vec E) t.align m out n.toNat b y)
    (hd : ∀ i, i < n.toNat → BinDomain op (x i) (y i)) :
    ∃ z, op.vecSimd (t.vec E) out a b n m = .ok ((), overwrite m out n.toNat z) ∧
      ∀ i, i < n.toNat → BinMeans op (x i) (y i) (z i) :=
  ⟨_, C02_binary_simd t E op hn hmul hoal hout ha hb, fun i hi => C56_binary h op _ _ (hd i hi)⟩

theorem C56_ternary_vec {A : Arith ℝ} (h : A.Real) (op : TerOp) {m : Mem ℝ} {out : Nat}
    {a b c : SArg ℝ} {n : BitVec 32} {x y z : Nat → ℝ} (hn : 0 < n.toNat)
    (hout : Allocated m out n.toNat) (ha : ScalarSupplies A m out n.toNat a x)
    (hb : ScalarSupplies A m out n.toNat b y) (hc : ScalarSupplies A m out n.toNat c z)
    (hd : ∀ i, i < n.toNat → TerDomain op (x i) (y i) (z i)) :
    ∃ u, op.vec A out a b c n m = .ok ((), overwrite m out n.toNat u) ∧
      ∀ i, i < n.toNat → TerMeans op (x i) (y i) (z i) (u i) :=
  ⟨_, C03_ternary_scalar A op hn hout ha hb hc, fun i hi => C56_ternary h op _ _ _ (hd i hi)⟩

theorem C56_ternary_simd (t : Target) (E : Env ℝ) (h : E.L.Real) (op : TerOp) {m : Mem ℝ}
    {out : Nat} {a b c : SArg ℝ} {n : BitVec 32} {x y z : Nat → ℝ} (hn : 0 < n.toNat)
    (hmul : t.perLine ∣ n.toNat) (hoal : t.align ∣ out) (hout : Allocated m out n.toNat)
    (ha : SimdSupplies (t.vec E) t.align m out n.toNat a x)
    (hb : SimdSupplies (t.vec E) t.align m out n.toNat b y)
    (hc : SimdSupplies (t.vec E) t.align m out n.toNat c z)
    (hd : ∀ i, i < n.toNat → TerDomain op (x i) (y i) (z i)) :
    ∃ u, op.vecSimd (t.vec E) out a b c n m = .ok ((), overwrite m out n.toNat u) ∧
      ∀ i, i < n.toNat → TerMeans op (x i) (y i) (z i) (u i) :=
  ⟨_, C03_ternary_simd t E op hn hmul hoal hout ha hb hc,
    fun i hi => C56_ternary h op _ _ _ (hd i hi)⟩

theorem C56_quad_vec {A : Arith ℝ} (h : A.Real) (op : QuadOp) {m : Mem ℝ} {out : Nat}
    {a b c d : SArg ℝ} {n : BitVec 32} {x y z u : Nat → ℝ} (hn : 0 < n.toNat)
    (hout : Allocated m out n.toNat) (ha : ScalarSupplies A m out n.toNat a x)
    (hb : ScalarSupplies A m out n.toNat b y) (hc : ScalarSupplies A m out n.toNat c z)
    (hd : ScalarSupplies A m out n.toNat d u) :
    ∃ v, op.vec A out a b c d n m = .ok ((), overwrite m out n.toNat v) ∧
      ∀ i, i < n.toNat → QuadMeans op (x i) (y i) (z i) (u i) (v i) :=
  ⟨_, C04_quad_scalar A op hn hout ha hb hc hd, fun _ _ => C56_quad h op _ _ _ _⟩

theorem C56_quad_simd (t : Target) (E : Env ℝ) (h : E.L.Real) (op : QuadOp) {m : Mem ℝ}
    {out : Nat} {a b c d : SArg ℝ} {n : BitVec 32} {x y z u : Nat → ℝ} (hn : 0 < n.toNat)
    (hmul : t.perLine ∣ n.toNat) (hoal : t.align ∣ out) (hout : Allocated m out n.toNat)
    (ha : SimdSupplies (t.vec E) t.align m out n.toNat a x)
    (hb : SimdSupplies (t.vec E) t.align m out n.toNat b y)
    (hc : SimdSupplies (t.vec E) t.align m out n.toNat c z)
    (hd : SimdSupplies (t.vec E) t.align m out n.toNat d u) :
    ∃ v, op.vecSimd (t.vec E) out a b c d n m = .ok ((), overwrite m out n.toNat v) ∧
      ∀ i, i < n.toNat → QuadMeans op (x i) (y i) (z i) (u i) (v i) :=
  ⟨_, C04_quad_simd t E op hn hmul hoal hout ha hb hc hd, fun _ _ => C56_quad h op _ _ _ _⟩

/-! ## The hypotheses are satisfiable -/
section examples

/-- A call: `log2_vec` of a buffer holding `1, 2, 3`. -/
example : ∃ y, UnOp.log2.vec realArith 0 0 3#32
      (fun a => if a < 3 then some ((a : ℝ) + 1) else none)
      = .ok ((), overwrite (fun a => if a < 3 then some ((a : ℝ) + 1) else none) 0 3 y) ∧
    ∀ i, i < 3 → (2 : ℝ) ^ y i = (i : ℝ) + 1 :=
  C56_unary_vec realArith_real .log2 (by decide)
    (fun i hi => by
      have : 0 + i < 3 := by rw [Nat.zero_add]; exact hi
      rw [if_pos this]; rfl)
    (fun i hi => by
      have : 0 + i < 3 := by rw [Nat.zero_add]; exact hi
      rw [if_pos this, Nat.zero_add])
    (Or.inl (Nat.le_refl 0)) (fun i _ => by change (0 : ℝ) < i + 1; positivity)

end examples

end Nova
