import Mathlib.Data.Fintype.Order
import Verif.Lemmas.Folds
import Verif.Props.C30_InRegister

/-!
# C27, C28, C29: horizontal functions over buffers

`Holds m inp n x` says the buffer contains `x 0, …, x (n-1)`; results are compared with the finite sum,
and with the largest / smallest element (`IsGreatest`, `IsLeast`) of `Elems x n`.
-/

namespace Nova
open Spec
variable {α : Type}

/-- The values in a buffer of `n` elements. -/
def Elems (x : Nat → α) (n : Nat) : Set α := {y | ∃ i, i < n ∧ y = x i}

theorem Target.size_small (t : Target) : t.size < 2 ^ 32 := by cases t <;> simp [Target.size]

theorem Target.vec_size_small (t : Target) (E : Env α) : (t.vec E).size < 2 ^ 32 := by
  rw [t.vec_size]; exact t.size_small

/-- The hypotheses on a SIMD call of a function that reads one buffer: aligned, and the number of
elements is a positive multiple of the vector size. -/
structure SimdInput (t : Target) (m : Mem α) (inp : Nat) (n : BitVec 32) (x : Nat → α) : Prop where
  pos : 0 < n.toNat
  mult : t.size ∣ n.toNat
  aligned : t.align ∣ inp
  holds : Holds m inp n.toNat x

section
variable {t : Target} {m : Mem α} {inp : Nat} {n : BitVec 32} {x : Nat → α}

theorem SimdInput.le (h : SimdInput t m inp n x) (E : Env α) : (t.vec E).size ≤ n.toNat := by
  rw [t.vec_size]; exact Nat.le_of_dvd h.pos h.mult

theorem SimdInput.div_mul (h : SimdInput t m inp n x) (E : Env α) :
    n.toNat / (t.vec E).size * (t.vec E).size = n.toNat := by
  rw [t.vec_size]; exact Nat.div_mul_cancel h.mult

theorem SimdInput.fold {σ : Type} (h : SimdInput t m inp n x) (E : Env α)
    (f : σ → (t.vec E).V → σ) (init : σ) :
    foldVecSimd (t.vec E) f init inp n m
      = .ok (foldSeq f init (fun j l => x (j * (t.vec E).size + l)) (n.toNat / (t.vec E).size), m) :=
  foldVecSimd_ok (t.lawful E) h.aligned (t.vec_size_small E) (h.le E) h.holds

end

/-! ## C27 -/

theorem C27_scalar [CommRing α] (E : Env α) (hE : E.Exact) {m : Mem α} {inp : Nat} {n : BitVec 32}
    {x : Nat → α} (hn : 0 < n.toNat) (hx : Holds m inp n.toNat x) :
    horizontalSumVec E inp n m = .ok (∑ i ∈ Finset.range n.toNat, x i, m) := by
  unfold horizontalSumVec
  rw [foldVec_ok hn hx, foldSeq_add hE.S.add, hE.S.zero, zero_add]

theorem simd_sum [CommRing α] {t : Target} {E : Env α} (hE : E.Exact) {m : Mem α} {inp : Nat}
    {n : BitVec 32} {x : Nat → α} (h : SimdInput t m inp n x) :
    (t.vec E).horizontalSum (foldSeq (VecImpl.zip (t.vec E).lane.add) ((t.vec E).setVec E.S.zero)
      (fun j l => x (j * (t.vec E).size + l)) (n.toNat / (t.vec E).size))
      = ∑ i ∈ Finset.range n.toNat, x i := by
  rw [C30_sum t E hE]
  have hz : ∀ l, (t.vec E).setVec E.S.zero l = 0 := fun l => by
    rw [(t.lawful E).setVec, hE.S.zero]
  have hadd : ∀ a b, (t.vec E).lane.add a b = a + b := by rw [t.lane_eq]; exact hE.L.add
  have := sum_lanes (fun _ : Fin (t.vec E).size => (0 : α)) x (n.toNat / (t.vec E).size)
  rw [h.div_mul E, Finset.sum_const_zero, zero_add] at this
  rw [← this]
  refine Finset.sum_congr rfl fun l _ => ?_
  refine (foldSeq_lane _ _ _ _ l).trans ?_
  rw [foldSeq_add hadd, hz]

theorem C27_simd [CommRing α] (t : Target) (E : Env α) (hE : E.Exact) {m : Mem α} {inp : Nat}
    {n : BitVec 32} {x : Nat → α} (h : SimdInput t m inp n x) :
    horizontalSumVecSimd E (t.vec E) inp n m = .ok (∑ i ∈ Finset.range n.toNat, x i, m) := by
  unfold horizontalSumVecSimd
  rw [Exec.bind_ok (h.fold E _ _), simd_sum hE h]
  rfl

/-! ## C28: the scalar maximum and minimum -/
section order
variable [LinearOrder α]

/-- What `horizontal_max_vec` computes: the largest of the elements *and* `numeric_limits<F>::min()`. -/
theorem C28_max_exact (E : Env α) (hE : E.Ordered) (lim : Limits α) {m : Mem α} {inp : Nat}
    {n : BitVec 32} {x : Nat → α} (hn : 0 < n.toNat) (hx : Holds m inp n.toNat x) :
    ∃ r, horizontalMaxVec E lim inp n m = .ok (r, m) ∧
      IsGreatest (insert lim.min (Elems x n.toNat)) r :=
  ⟨_, foldVec_ok hn hx, foldSeq_max (stdMax_eq hE.S) _ _ _⟩

/-- What `horizontal_min_vec` computes: the smallest of the elements *and* `numeric_limits<F>::min()`. -/
theorem C28_min_exact (E : Env α) (hE : E.Ordered) (lim : Limits α) {m : Mem α} {inp : Nat}
    {n : BitVec 32} {x : Nat → α} (hn : 0 < n.toNat) (hx : Holds m inp n.toNat x) :
    ∃ r, horizontalMinVec E lim inp n m = .ok (r, m) ∧
      IsLeast (insert lim.min (Elems x n.toNat)) r :=
  ⟨_, foldVec_ok hn hx, foldSeq_min (stdMin_eq hE.S) _ _ _⟩

theorem greatest_of_insert {c r : α} {T : Set α} (h : IsGreatest (insert c T) r) (hc : ∃ y ∈ T, c ≤ y) :
    IsGreatest T r := by
  obtain ⟨y, hy, hcy⟩ := hc
  refine ⟨?_, fun z hz => h.2 (Or.inr hz)⟩
  rcases h.1 with rfl | h1
  · have := h.2 (Or.inr hy)
    rwa [le_antisymm hcy this]
  · exact h1

theorem least_of_insert {c r : α} {T : Set α} (h : IsLeast (insert c T) r) (hc : ∃ y ∈ T, y ≤ c) :
    IsLeast T r := by
  obtain ⟨y, hy, hcy⟩ := hc
  refine ⟨?_, fun z hz => h.2 (Or.inr hz)⟩
  rcases h.1 with rfl | h1
  · have := h.2 (Or.inr hy)
    rwa [le_antisymm this hcy]
  · exact h1

/-- `horizontal_max_vec` returns the largest element if that is at least `numeric_limits<F>::min()`.
The full property (no such condition) is refuted by `C28_max_false`. -/
theorem C28_max_partial (E : Env α) (hE : E.Ordered) (lim : Limits α) {m : Mem α} {inp : Nat}
    {n : BitVec 32} {x : Nat → α} (hn : 0 < n.toNat) (hx : Holds m inp n.toNat x)
    (h : ∃ i, i < n.toNat ∧ lim.min ≤ x i) :
    ∃ r, horizontalMaxVec E lim inp n m = .ok (r, m) ∧ IsGreatest (Elems x n.toNat) r := by
  obtain ⟨r, h1, h2⟩ := C28_max_exact E hE lim hn hx
  obtain ⟨i, hi, hle⟩ := h
  exact ⟨r, h1, greatest_of_insert h2 ⟨_, ⟨i, hi, rfl⟩, hle⟩⟩

/-- `horizontal_min_vec` returns the smallest element if that is at most `numeric_limits<F>::min()`. -/
theorem C28_min_partial (E : Env α) (hE : E.Ordered) (lim : Limits α) {m : Mem α} {inp : Nat}
    {n : BitVec 32} {x : Nat → α} (hn : 0 < n.toNat) (hx : Holds m inp n.toNat x)
    (h : ∃ i, i < n.toNat ∧ x i ≤ lim.min) :
    ∃ r, horizontalMinVec E lim inp n m = .ok (r, m) ∧ IsLeast (Elems x n.toNat) r := by
  obtain ⟨r, h1, h2⟩ := C28_min_exact E hE lim hn hx
  obtain ⟨i, hi, hle⟩ := h
  exact ⟨r, h1, least_of_insert h2 ⟨_, ⟨i, hi, rfl⟩, hle⟩⟩

/-- The property fails for *every* buffer whose elements are all below `numeric_limits<F>::min()`
(for `float`: every buffer of zeros and negative numbers): the result is not an element. -/
theorem C28_max_false (E : Env α) (hE : E.Ordered) (lim : Limits α) {m : Mem α} {inp : Nat}
    {n : BitVec 32} {x : Nat → α} (hn : 0 < n.toNat) (hx : Holds m inp n.toNat x)
    (h : ∀ i, i < n.toNat → x i < lim.min) :
    horizontalMaxVec E lim inp n m = .ok (lim.min, m) ∧ ¬ IsGreatest (Elems x n.toNat) lim.min := by
  obtain ⟨r, h1, h2⟩ := C28_max_exact E hE lim hn hx
  have hr : r = lim.min := by
    rcases h2.1 with e | ⟨i, hi, e⟩
    · exact e
    · have := h2.2 (Or.inl rfl)
      exact absurd (h i hi) (not_lt.mpr (e ▸ this))
  rw [← hr]
  refine ⟨hr ▸ h1, ?_⟩
  rintro ⟨⟨i, hi, e⟩, _⟩
  exact absurd (h i hi) (by rw [← e, hr]; exact lt_irrefl _)

/-- The property fails for *every* buffer whose elements are all above `numeric_limits<F>::min()`
(for `float`: every buffer of ordinary positive numbers): the result is not an element. -/
theorem C28_min_false (E : Env α) (hE : E.Ordered) (lim : Limits α) {m : Mem α} {inp : Nat}
    {n : BitVec 32} {x : Nat → α} (hn : 0 < n.toNat) (hx : Holds m inp n.toNat x)
    (h : ∀ i, i < n.toNat → lim.min < x i) :
    horizontalMinVec E lim inp n m = .ok (lim.min, m) ∧ ¬ IsLeast (Elems x n.toNat) lim.min := by
  obtain ⟨r, h1, h2⟩ := C28_min_exact E hE lim hn hx
  have hr : r = lim.min := by
    rcases h2.1 with e | ⟨i, hi, e⟩
    · exact e
    · have := h2.2 (Or.inl rfl)
      exact absurd (h i hi) (not_lt.mpr (e ▸ this))
  rw [← hr]
  refine ⟨hr ▸ h1, ?_⟩
  rintro ⟨⟨i, hi, e⟩, _⟩
  exact absurd (h i hi) (by rw [← e, hr]; exact lt_irrefl _)

/-- `horizontal_minmax_vec`: the minimum is right if some element is at most `numeric_limits<F>::max()`
(always, for finite numbers); the maximum has the defect of `horizontal_max_vec`. -/
theorem C28_minmax (E : Env α) (hE : E.Ordered) (lim : Limits α) {m : Mem α} {inp : Nat}
    {n : BitVec 32} {x : Nat → α} (hn : 0 < n.toNat) (hx : Holds m inp n.toNat x)
    (hmax : ∃ i, i < n.toNat ∧ x i ≤ lim.max) :
    ∃ rmin rmax, horizontalMinmaxVec E lim inp n m = .ok ((rmin, rmax), m) ∧
      IsLeast (Elems x n.toNat) rmin ∧ IsGreatest (insert lim.min (Elems x n.toNat)) rmax := by
  have h : horizontalMinmaxVec E lim inp n m
      = .ok ((foldSeq (Neon.stdMin E.S) lim.max x n.toNat, foldSeq (Neon.stdMax E.S) lim.min x n.toNat),
        m) := by
    unfold horizontalMinmaxVec
    rw [Exec.bind_ok (foldVec_ok hn hx), foldSeq_prod]
    rfl
  obtain ⟨i, hi, hle⟩ := hmax
  exact ⟨_, _, h, least_of_insert (foldSeq_min (stdMin_eq hE.S) _ _ _) ⟨_, ⟨i, hi, rfl⟩, hle⟩,
    foldSeq_max (stdMax_eq hE.S) _ _ _⟩

/-- `horizontal_maxsum_vec` -/
theorem C28_maxsum [CommRing α] (E : Env α) (hE : E.Ordered) (hX : E.Exact) (lim : Limits α)
    {m : Mem α} {inp : Nat} {n : BitVec 32} {x : Nat → α} (hn : 0 < n.toNat)
    (hx : Holds m inp n.toNat x) :
    ∃ rmax, horizontalMaxsumVec E lim inp n m
        = .ok ((rmax, ∑ i ∈ Finset.range n.toNat, x i), m) ∧
      IsGreatest (insert lim.min (Elems x n.toNat)) rmax := by
  refine ⟨_, ?_, foldSeq_max (stdMax_eq hE.S) _ _ _⟩
  unfold horizontalMaxsumVec
  rw [foldVec_ok hn hx, foldSeq_prod (Neon.stdMax E.S) E.S.add, foldSeq_add hX.S.add, hX.S.zero,
    zero_add]

/-! ## C29 -/

theorem simd_max {t : Target} {E : Env α} (hE : E.Ordered) {m : Mem α} {inp : Nat}
    {n : BitVec 32} {x : Nat → α} (h : SimdInput t m inp n x) (c : α) :
    (t.vec E).horizontalMax (foldSeq (VecImpl.zip (t.vec E).lane.max_) ((t.vec E).setVec c)
      (fun j l => x (j * (t.vec E).size + l)) (n.toNat / (t.vec E).size))
      = foldSeq (Neon.stdMax E.S) c x n.toNat := by
  refine IsGreatest.unique ?_ (foldSeq_max (stdMax_eq hE.S) _ _ _)
  have hmax : ∀ a b, (t.vec E).lane.max_ a b = max a b := by rw [t.lane_eq]; exact hE.L.max_
  have h1 := greatest_iUnion (fun l => (congrArg _ (foldSeq_lane (t.vec E).lane.max_ ((t.vec E).setVec c)
    (fun j l => x (j * (t.vec E).size + l)) (n.toNat / (t.vec E).size) l)).mpr
    (foldSeq_max hmax _ _ _)) (C30_max t E hE
      (foldSeq (VecImpl.zip (t.vec E).lane.max_) ((t.vec E).setVec c)
      (fun j l => x (j * (t.vec E).size + l)) (n.toNat / (t.vec E).size)))
  rw [iUnion_lanes (t.vec E).size_pos, h.div_mul E] at h1
  have : Set.range ((t.vec E).setVec c) = {c} := by
    have hc : (t.vec E).setVec c = fun _ => c := funext ((t.lawful E).setVec c)
    rw [hc]
    have : Nonempty (Fin (t.vec E).size) := ⟨⟨0, (t.vec E).size_pos⟩⟩
    exact Set.range_const
  rw [this, Set.singleton_union] at h1
  exact h1

theorem simd_min {t : Target} {E : Env α} (hE : E.Ordered) {m : Mem α} {inp : Nat}
    {n : BitVec 32} {x : Nat → α} (h : SimdInput t m inp n x) (c : α) :
    (t.vec E).horizontalMin (foldSeq (VecImpl.zip (t.vec E).lane.min_) ((t.vec E).setVec c)
      (fun j l => x (j * (t.vec E).size + l)) (n.toNat / (t.vec E).size))
      = foldSeq (Neon.stdMin E.S) c x n.toNat := by
  refine IsLeast.unique ?_ (foldSeq_min (stdMin_eq hE.S) _ _ _)
  have hmin : ∀ a b, (t.vec E).lane.min_ a b = min a b := by rw [t.lane_eq]; exact hE.L.min_
  have h1 := least_iUnion (fun l => (congrArg _ (foldSeq_lane (t.vec E).lane.min_ ((t.vec E).setVec c)
    (fun j l => x (j * (t.vec E).size + l)) (n.toNat / (t.vec E).size) l)).mpr
    (foldSeq_min hmin _ _ _)) (C30_min t E hE
      (foldSeq (VecImpl.zip (t.vec E).lane.min_) ((t.vec E).setVec c)
      (fun j l => x (j * (t.vec E).size + l)) (n.toNat / (t.vec E).size)))
  rw [iUnion_lanes (t.vec E).size_pos, h.div_mul E] at h1
  have : Set.range ((t.vec E).setVec c) = {c} := by
    have hc : (t.vec E).setVec c = fun _ => c := funext ((t.lawful E).setVec c)
    rw [hc]
    have : Nonempty (Fin (t.vec E).size) := ⟨⟨0, (t.vec E).size_pos⟩⟩
    exact Set.range_const
  rw [this, Set.singleton_union] at h1
  exact h1

variable (t : Target) (E : Env α) (hE : E.Ordered) (lim : Limits α) {m : Mem α} {inp : Nat}
  {n : BitVec 32} {x : Nat → α} (h : SimdInput t m inp n x)
include hE h

theorem C29_max : horizontalMaxVecSimd (t.vec E) lim inp n m = horizontalMaxVec E lim inp n m := by
  unfold horizontalMaxVecSimd horizontalMaxVec
  rw [Exec.bind_ok (h.fold E _ _), simd_max hE h, foldVec_ok h.pos h.holds]
  rfl

theorem C29_min : horizontalMinVecSimd (t.vec E) lim inp n m = horizontalMinVec E lim inp n m := by
  unfold horizontalMinVecSimd horizontalMinVec
  rw [Exec.bind_ok (h.fold E _ _), simd_min hE h, foldVec_ok h.pos h.holds]
  rfl

theorem C29_minmax :
    horizontalMinmaxVecSimd (t.vec E) lim inp n m = horizontalMinmaxVec E lim inp n m := by
  unfold horizontalMinmaxVecSimd horizontalMinmaxVec
  rw [Exec.bind_ok (h.fold E _ _), Exec.bind_ok (foldVec_ok h.pos h.holds), foldSeq_prod, foldSeq_prod]
  show Except.ok ((_, _), m) = Except.ok ((_, _), m)
  rw [simd_max hE h, simd_min hE h]

theorem C29_maxsum [CommRing α] (hX : E.Exact) :
    horizontalMaxsumVecSimd E (t.vec E) lim inp n m = horizontalMaxsumVec E lim inp n m := by
  unfold horizontalMaxsumVecSimd horizontalMaxsumVec
  rw [Exec.bind_ok (h.fold E _ _), foldVec_ok h.pos h.holds, foldSeq_prod,
    foldSeq_prod (Neon.stdMax E.S) E.S.add, foldSeq_add hX.S.add]
  show Except.ok ((_, _), m) = Except.ok ((_, _), m)
  rw [simd_max hE h, simd_sum hX h, hX.S.zero, zero_add]

omit hE [LinearOrder α] in
theorem C29_sum [CommRing α] (hX : E.Exact) :
    horizontalSumVecSimd E (t.vec E) inp n m = horizontalSumVec E inp n m := by
  rw [C27_simd t E hX h, C27_scalar E hX h.pos h.holds]

end order

/-! ## The hypotheses are satisfiable -/
section examples
open Examples

/-- 16 elements: -100, -90, …, 50 -/
theorem ramp16_input (t : Target) (ht : t.size ∣ 16) :
    SimdInput t (ramp 16) 0 16 (fun i => 10 * (i : Int) - 100) :=
  ⟨by decide, ht, dvd_zero _, fun i hi => by
    simp only [ramp, Nat.zero_add]
    exact if_pos hi⟩

example : horizontalSumVecSimd intEnv (Target.avxFloat.vec intEnv) 0 16 (ramp 16)
    = .ok (-400, ramp 16) :=
  C27_simd .avxFloat intEnv intEnv_exact (ramp16_input _ (by decide))

/-- Ten elements from -100 to -10, with `numeric_limits::min() = 1`: the "maximum" is 1. -/
example : horizontalMaxVec intEnv ⟨1, 1000⟩ 0 10 (ramp 16) = .ok (1, ramp 16) :=
  (C28_max_false intEnv intEnv_ordered ⟨1, 1000⟩ (x := fun i => 10 * (i : Int) - 100) (by decide)
    (fun i hi => (ramp16_input .neon (by decide)).holds i (by have : i < 10 := hi; show i < 16; omega))
    (fun i hi => by have : i < 10 := hi; show 10 * (i : Int) - 100 < 1; omega)).1

end examples

end Nova
