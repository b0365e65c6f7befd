import Mathlib.Algebra.BigOperators.Fin
import Mathlib.Data.Fintype.BigOperators
import Mathlib.Tactic.FinCases
import Mathlib.Order.Bounds.Basic
import Verif.Ordered
import Verif.Model.Meters
import Verif.Lemmas.Backends
import Verif.Lemmas.Loops
import Verif.Props.C13_Ramps

/-!
# C30, C32: reductions and element access of one vector object
-/

namespace Nova
open Spec
variable {α : Type}

/-! ## C30 -/

theorem foldl_add_eq [CommRing α] {A : Arith α} (hA : A.Exact) (l : List α) (c : α) :
    l.foldl A.add c = c + l.sum := by
  induction l generalizing c with
  | nil => simp
  | cons x xs ih => rw [List.foldl_cons, ih, hA.add, List.sum_cons, add_assoc]

/-- `v.horizontal_sum()` is the sum of the lanes. -/
theorem C30_sum [CommRing α] (t : Target) (E : Env α) (hE : E.Exact) (v : (t.vec E).V) :
    (t.vec E).horizontalSum v = ∑ l, v l := by
  have hbase : ∀ {w : Nat} (v : Vec α w), Base.horizontalSum E.S v = ∑ l, v l := by
    intro w v
    unfold Base.horizontalSum Base.toList
    rw [foldl_add_eq hE.S, hE.S.zero, zero_add, List.sum_ofFn]
  cases t with
  | genericFloat => exact hbase v
  | genericDouble => exact hbase v
  | sse s3 s41 =>
    change Fin 4 → α at v
    cases s3
    · show E.L.add (E.L.add (v 2) (v 0)) (E.L.add (v 3) (v 1)) = _
      simp only [hE.L.add]
      exact (Fin.sum_univ_four (v : Fin 4 → α) ▸ by ring)
    · show E.L.add (E.L.add (v 0) (v 1)) (E.L.add (v 2) (v 3)) = _
      simp only [hE.L.add]
      exact (Fin.sum_univ_four (v : Fin 4 → α) ▸ by ring)
  | sse2 =>
    change Fin 2 → α at v
    show E.L.add (v 0) (v 1) = _
    rw [hE.L.add]
    exact (Fin.sum_univ_two (v : Fin 2 → α)).symm
  | avxFloat => exact hbase v
  | avxDouble => exact hbase v
  | neon =>
    change Fin 4 → α at v
    show E.S.add (E.L.add (v 0) (v 1)) (E.L.add (v 2) (v 3)) = _
    simp only [hE.L.add, hE.S.add]
    exact (Fin.sum_univ_four (v : Fin 4 → α) ▸ by ring)
  | altivec => exact hbase v

section ordered
variable [LinearOrder α]

theorem maxElement_isGreatest {A : Arith α} (hA : A.Ordered) (l : List α) (b : α) :
    IsGreatest {y | y = b ∨ y ∈ l} (Base.maxElement A b l) := by
  induction l generalizing b with
  | nil => simp [Base.maxElement, IsGreatest, upperBounds]
  | cons x xs ih =>
    rw [Base.maxElement, hA.less]
    have h := ih (if decide (b < x) = true then x else b)
    obtain ⟨h1, h2⟩ := h
    constructor
    · rcases h1 with h1 | h1
      · rw [h1]
        split
        · exact Or.inr (List.mem_cons_self)
        · exact Or.inl rfl
      · exact Or.inr (List.mem_cons_of_mem _ h1)
    · intro y hy
      have hb : (if decide (b < x) = true then x else b) ≤
          Base.maxElement A (if decide (b < x) = true then x else b) xs := h2 (Or.inl rfl)
      have hbx : b ≤ (if decide (b < x) = true then x else b) ∧
          x ≤ (if decide (b < x) = true then x else b) := by
        by_cases h : b < x
        · simp [h, le_of_lt h]
        · simp [h, le_of_not_gt h]
      rcases hy with rfl | hy
      · exact hbx.1.trans hb
      · rcases List.mem_cons.mp hy with rfl | hy
        · exact hbx.2.trans hb
        · exact h2 (Or.inr hy)

theorem minElement_isLeast {A : Arith α} (hA : A.Ordered) (l : List α) (b : α) :
    IsLeast {y | y = b ∨ y ∈ l} (Base.minElement A b l) := by
  induction l generalizing b with
  | nil => simp [Base.minElement, IsLeast, lowerBounds]
  | cons x xs ih =>
    rw [Base.minElement, hA.less]
    have h := ih (if decide (x < b) = true then x else b)
    obtain ⟨h1, h2⟩ := h
    constructor
    · rcases h1 with h1 | h1
      · rw [h1]
        split
        · exact Or.inr (List.mem_cons_self)
        · exact Or.inl rfl
      · exact Or.inr (List.mem_cons_of_mem _ h1)
    · intro y hy
      have hb : Base.minElement A (if decide (x < b) = true then x else b) xs ≤
          (if decide (x < b) = true then x else b) := h2 (Or.inl rfl)
      have hbx : (if decide (x < b) = true then x else b) ≤ b ∧
          (if decide (x < b) = true then x else b) ≤ x := by
        by_cases h : x < b
        · simp [h, le_of_lt h]
        · simp [h, le_of_not_gt h]
      rcases hy with rfl | hy
      · exact hb.trans hbx.1
      · rcases List.mem_cons.mp hy with rfl | hy
        · exact hb.trans hbx.2
        · exact h2 (Or.inr hy)

omit [LinearOrder α] in
theorem base_set {w : Nat} (hw : 0 < w) (v : Vec α w) :
    {y | y = v ⟨0, hw⟩ ∨ y ∈ (Base.toList v).tail} = Set.range v := by
  obtain ⟨w, rfl⟩ : ∃ w', w = w' + 1 := ⟨w - 1, by omega⟩
  unfold Base.toList
  rw [List.ofFn_succ]
  ext y
  simp only [List.tail_cons, List.mem_ofFn, Set.mem_ofPred_eq, Set.mem_range]
  constructor
  · rintro (h | ⟨i, h⟩)
    · exact ⟨_, h.symm⟩
    · exact ⟨_, h⟩
  · rintro ⟨i, h⟩
    rcases Fin.eq_zero_or_eq_succ i with rfl | ⟨j, rfl⟩
    · exact Or.inl h.symm
    · exact Or.inr ⟨j, h⟩

theorem base_max {A : Arith α} (hA : A.Ordered) {w : Nat} (hw : 0 < w) (v : Vec α w) :
    IsGreatest (Set.range v) (Base.horizontalMax A hw v) := by
  rw [← base_set hw v]
  exact maxElement_isGreatest hA _ _

theorem base_min {A : Arith α} (hA : A.Ordered) {w : Nat} (hw : 0 < w) (v : Vec α w) :
    IsLeast (Set.range v) (Base.horizontalMin A hw v) := by
  rw [← base_set hw v]
  exact minElement_isLeast hA _ _

theorem stdMax_eq {A : Arith α} (hA : A.Ordered) (a b : α) : Neon.stdMax A a b = max a b := by
  unfold Neon.stdMax
  rw [hA.less]
  by_cases h : a < b
  · simp [h, max_eq_right (le_of_lt h)]
  · simp [h, max_eq_left (le_of_not_gt h)]

theorem stdMin_eq {A : Arith α} (hA : A.Ordered) (a b : α) : Neon.stdMin A a b = min a b := by
  unfold Neon.stdMin
  rw [hA.less]
  by_cases h : b < a
  · simp [h, min_eq_right (le_of_lt h)]
  · simp [h, min_eq_left (le_of_not_gt h)]

theorem greatest4 (v : Fin 4 → α) (a : α) (h : a = max (max (v 0) (v 1)) (max (v 2) (v 3))) :
    IsGreatest (Set.range v) a := by
  subst h
  constructor
  · rcases max_choice (max (v 0) (v 1)) (max (v 2) (v 3)) with h | h <;> rw [h]
    · rcases max_choice (v 0) (v 1) with h | h <;> rw [h] <;> exact ⟨_, rfl⟩
    · rcases max_choice (v 2) (v 3) with h | h <;> rw [h] <;> exact ⟨_, rfl⟩
  · rintro _ ⟨i, rfl⟩
    fin_cases i <;> simp

theorem least4 (v : Fin 4 → α) (a : α) (h : a = min (min (v 0) (v 1)) (min (v 2) (v 3))) :
    IsLeast (Set.range v) a := by
  subst h
  constructor
  · rcases min_choice (min (v 0) (v 1)) (min (v 2) (v 3)) with h | h <;> rw [h]
    · rcases min_choice (v 0) (v 1) with h | h <;> rw [h] <;> exact ⟨_, rfl⟩
    · rcases min_choice (v 2) (v 3) with h | h <;> rw [h] <;> exact ⟨_, rfl⟩
  · rintro _ ⟨i, rfl⟩
    fin_cases i <;> simp

theorem greatest2 (v : Fin 2 → α) : IsGreatest (Set.range v) (max (v 0) (v 1)) := by
  constructor
  · rcases max_choice (v 0) (v 1) with h | h <;> rw [h] <;> exact ⟨_, rfl⟩
  · rintro _ ⟨i, rfl⟩
    fin_cases i <;> simp

theorem least2 (v : Fin 2 → α) : IsLeast (Set.range v) (min (v 0) (v 1)) := by
  constructor
  · rcases min_choice (v 0) (v 1) with h | h <;> rw [h] <;> exact ⟨_, rfl⟩
  · rintro _ ⟨i, rfl⟩
    fin_cases i <;> simp

/-- `v.horizontal_max()` is the largest lane. -/
theorem C30_max (t : Target) (E : Env α) (hE : E.Ordered) (v : (t.vec E).V) :
    IsGreatest (Set.range v) ((t.vec E).horizontalMax v) := by
  cases t with
  | genericFloat => exact base_max hE.S _ v
  | genericDouble => exact base_max hE.S _ v
  | sse s3 s41 =>
    change Fin 4 → α at v
    apply greatest4
    show E.L.max_ (E.L.max_ (v 2) (v 0)) (E.L.max_ (v 3) (v 1)) = _
    simp only [hE.L.max_]
    rw [max_comm (v 2), max_comm (v 3), max_max_max_comm]
  | sse2 =>
    change Fin 2 → α at v
    show IsGreatest (Set.range v) (E.L.max_ (v 0) (v 1))
    rw [hE.L.max_]
    exact greatest2 v
  | avxFloat => exact base_max hE.S _ v
  | avxDouble => exact base_max hE.S _ v
  | neon =>
    change Fin 4 → α at v
    apply greatest4
    show Neon.stdMax E.S (E.L.max_ (v 0) (v 2)) (E.L.max_ (v 1) (v 3)) = _
    simp only [stdMax_eq hE.S, hE.L.max_]
    rw [max_max_max_comm]
  | altivec => exact base_max hE.S _ v

/-- `v.horizontal_min()` is the smallest lane. -/
theorem C30_min (t : Target) (E : Env α) (hE : E.Ordered) (v : (t.vec E).V) :
    IsLeast (Set.range v) ((t.vec E).horizontalMin v) := by
  cases t with
  | genericFloat => exact base_min hE.S _ v
  | genericDouble => exact base_min hE.S _ v
  | sse s3 s41 =>
    change Fin 4 → α at v
    apply least4
    show E.L.min_ (E.L.min_ (v 2) (v 0)) (E.L.min_ (v 3) (v 1)) = _
    simp only [hE.L.min_]
    rw [min_comm (v 2), min_comm (v 3), min_min_min_comm]
  | sse2 =>
    change Fin 2 → α at v
    show IsLeast (Set.range v) (E.L.min_ (v 0) (v 1))
    rw [hE.L.min_]
    exact least2 v
  | avxFloat => exact base_min hE.S _ v
  | avxDouble => exact base_min hE.S _ v
  | neon =>
    change Fin 4 → α at v
    apply least4
    show Neon.stdMin E.S (E.L.min_ (v 0) (v 2)) (E.L.min_ (v 1) (v 3)) = _
    simp only [stdMin_eq hE.S, hE.L.min_]
    rw [min_min_min_comm]
  | altivec => exact base_min hE.S _ v

end ordered

/-- The free functions `detail::horizontal_max(__m128)` and `detail::horizontal_min(__m128)` of
simd_utils.hpp do not compute the maximum / minimum: lane 3 is ignored. -/
theorem C30_utils_ignore_lane3 (f : α → α → α) (v : Vec α 4) (x : α) :
    SseUtils.horizontalMax f (lanes4 (v 0) (v 1) (v 2) x) = SseUtils.horizontalMax f v ∧
      SseUtils.horizontalMin f (lanes4 (v 0) (v 1) (v 2) x) = SseUtils.horizontalMin f v :=
  ⟨rfl, rfl⟩

/-- `extract_0` and `extract_3` return the first and the last element. -/
theorem C30_extract (v : Vec α 4) : SseUtils.extract0 v = v 0 ∧ SseUtils.extract3 v = v 3 := ⟨rfl, rfl⟩

theorem C30_utils_max_false : ∃ v : Vec Int 4,
    ¬ IsGreatest (Set.range v) (SseUtils.horizontalMax max v) := by
  refine ⟨lanes4 0 0 0 1, fun h => ?_⟩
  have := h.2 ⟨3, rfl⟩
  revert this
  decide

theorem C30_utils_min_false : ∃ v : Vec Int 4,
    ¬ IsLeast (Set.range v) (SseUtils.horizontalMin min v) := by
  refine ⟨lanes4 0 0 0 (-1), fun h => ?_⟩
  have := h.2 ⟨3, rfl⟩
  revert this
  decide

/-! ## C32 -/

/-- `v.get(i)` is lane `i`. -/
theorem C32_get (t : Target) (E : Env α) (v : (t.vec E).V) (i : Fin (t.vec E).size) :
    (t.vec E).get v i = .ok (v i) := by
  cases t with
  | genericFloat => exact dif_pos i.isLt
  | genericDouble => exact dif_pos i.isLt
  | sse s3 s41 => revert i; intro (i : Fin 4); fin_cases i <;> rfl
  | sse2 => revert i; intro (i : Fin 2); fin_cases i <;> rfl
  | avxFloat => exact dif_pos i.isLt
  | avxDouble => exact dif_pos i.isLt
  | neon => revert i; intro (i : Fin 4); fin_cases i <;> rfl
  | altivec => exact dif_pos i.isLt

/-- `v.set(i, x)` replaces lane `i` and keeps the other lanes. -/
theorem C32_set (t : Target) (E : Env α) (v : (t.vec E).V) (i : Fin (t.vec E).size) (x : α) :
    (t.vec E).set v i x = .ok (Function.update v i x) := by
  have hb : ∀ {w : Nat} (v : Vec α w) (i : Fin w), Base.set v i x = .ok (Function.update v i x) := by
    intro w v i
    unfold Base.set Base.setLane
    rw [if_pos i.isLt]
    congr 1
    funext j
    unfold Function.update
    by_cases h : j = i
    · subst h; simp
    · rw [if_neg (fun e => h (Fin.ext e)), dif_neg h]
  have h4 : ∀ (v : Vec α 4) (i : Fin 4) (f : Nat → Except Fault (Vec α 4)),
      f 0 = .ok (lanes4 x (v 1) (v 2) (v 3)) → f 1 = .ok (lanes4 (v 0) x (v 2) (v 3)) →
      f 2 = .ok (lanes4 (v 0) (v 1) x (v 3)) → f 3 = .ok (lanes4 (v 0) (v 1) (v 2) x) →
      f i = .ok (Function.update v i x) := by
    intro v i f h0 h1 h2 h3
    fin_cases i
    · exact h0.trans (by congr 1; funext j; fin_cases j <;> rfl)
    · exact h1.trans (by congr 1; funext j; fin_cases j <;> rfl)
    · exact h2.trans (by congr 1; funext j; fin_cases j <;> rfl)
    · exact h3.trans (by congr 1; funext j; fin_cases j <;> rfl)
  cases t with
  | genericFloat => exact hb v i
  | genericDouble => exact hb v i
  | sse s3 s41 =>
    cases s41
    · exact hb v i
    · exact h4 v i (fun k => Sse.set41 v k x) rfl rfl rfl rfl
  | sse2 => exact hb v i
  | avxFloat => exact hb v i
  | avxDouble => exact hb v i
  | neon => exact h4 v i (fun k => Neon.set E.ndebug v k x) rfl rfl rfl rfl
  | altivec => exact hb v i

/-- Reading a lane after writing one. -/
theorem C32_get_set (t : Target) (E : Env α) (v : (t.vec E).V) (i j : Fin (t.vec E).size) (x : α) :
    (do let v' ← (t.vec E).set v i x; (t.vec E).get v' j)
      = .ok (if j = i then x else v j) := by
  rw [C32_set]
  show (t.vec E).get _ _ = _
  rw [C32_get]
  congr 1
  unfold Function.update
  by_cases h : j = i
  · subst h; simp
  · simp [h]

/-- Loading a vector and storing it copies the elements; aligned and unaligned accesses. -/
theorem C32_load_store (t : Target) (E : Env α) {m : Mem α} {p q : Nat} {x : Nat → α}
    (hin : Holds m p t.size x) (hout : Allocated m q t.size) :
    (t.align ∣ p → t.align ∣ q →
      (do let v ← (t.vec E).loadAligned p; (t.vec E).storeAligned v q : Exec α Unit) m
        = .ok ((), overwrite m q t.size x)) ∧
    (t ≠ .altivec →
      (do let v ← (t.vec E).load p; (t.vec E).store v q : Exec α Unit) m
        = .ok ((), overwrite m q t.size x)) := by
  have hr : readVec (t.vec E).size p m = .ok (fun l => x l, m) :=
    readVec_ok fun l => hin l (lt_of_lt_of_eq l.isLt (t.vec_size E))
  have hw : writeVec (fun l : Fin (t.vec E).size => x l) q m = .ok ((), overwrite m q t.size x) := by
    have := writeVec_overwrite (m := m) (out := q) (k := 0) (y := x)
      (v := fun l : Fin (t.vec E).size => x l) (by rw [t.vec_size]; exact hout)
      (fun l => by rw [Nat.zero_add])
    rw [overwrite_zero, Nat.zero_add, Nat.add_zero] at this
    rw [this, t.vec_size]
  constructor
  · intro hp hq
    rw [(t.lawful E).loadAligned _ hp, Exec.bind_ok hr, (t.lawful E).storeAligned _ _ hq]
    exact hw
  · intro ht
    rw [(t.lawfulUnaligned ht E).load, Exec.bind_ok hr, (t.lawfulUnaligned ht E).store]
    exact hw

/-- `v.load_first(p)` puts the element in lane 0 and zero elsewhere: everywhere but on AVX. -/
theorem C32_load_first_partial (t : Target) (E : Env α) (ht : t ≠ .avxFloat ∧ t ≠ .avxDouble)
    {m : Mem α} {p : Nat} {x : α} (h : m p = some x) :
    (t.vec E).loadFirst p m = .ok (fun l => if l.val = 0 then x else E.L.zero, m) := by
  have h4 : lanes4 x E.L.zero E.L.zero E.L.zero
      = fun l : Fin 4 => if l.val = 0 then x else E.L.zero := by
    funext l; fin_cases l <;> rfl
  have h2 : lanes2 x E.L.zero = fun l : Fin 2 => if l.val = 0 then x else E.L.zero := by
    funext l; fin_cases l <;> rfl
  cases t with
  | genericFloat => exact Exec.bind_ok (read_ok h)
  | genericDouble => exact Exec.bind_ok (read_ok h)
  | sse s3 s41 =>
    refine (Exec.bind_ok (read_ok h)).trans ?_
    rw [h4]; rfl
  | sse2 =>
    refine (Exec.bind_ok (read_ok h)).trans ?_
    rw [h2]; rfl
  | avxFloat => exact absurd rfl ht.1
  | avxDouble => exact absurd rfl ht.2
  | neon => exact Exec.bind_ok (read_ok h)
  | altivec => exact Exec.bind_ok (read_ok h)

/-- On AVX the upper half of the register is whatever was there. -/
theorem C32_load_first_avx (E : Env α) {m : Mem α} {p : Nat} {x : α} (h : m p = some x) :
    (Target.avxFloat.vec E).loadFirst p m = .ok (fun (l : Fin 8) =>
      if l.val = 0 then x else if l.val < 4 then E.L.zero else E.junk l, m) ∧
    (Target.avxDouble.vec E).loadFirst p m = .ok (fun (l : Fin 4) =>
      if l.val = 0 then x else if l.val < 2 then E.L.zero else E.junk l, m) := by
  constructor
  · refine (Exec.bind_ok (read_ok h)).trans ?_
    show Except.ok (_, m) = _
    congr 2
    funext l; fin_cases l <;> rfl
  · refine (Exec.bind_ok (read_ok h)).trans ?_
    show Except.ok (_, m) = _
    congr 2
    funext l; fin_cases l <;> rfl

/-- So the property fails on AVX: after `load_first` lane 4 need not be zero. -/
theorem C32_load_first_false :
    ∃ v : Vec Int 8, (Target.avxFloat.vec Examples.intEnv).loadFirst 0 (Examples.ramp 1)
        = .ok (v, Examples.ramp 1) ∧ v 4 ≠ 0 :=
  ⟨_, (C32_load_first_avx Examples.intEnv (x := -100) rfl).1, by decide⟩

/-- An index outside the vector is undefined behaviour or a failed assertion, never a value.  SSE has no assertion, so there
the fault is the same in debug builds. -/
theorem C32_get_out_of_range (t : Target) (E : Env α) (v : (t.vec E).V) (i : Nat)
    (hi : t.size ≤ i) : (t.vec E).get v i = .error
      (match t with
        | .sse _ _ | .sse2 => .uninit
        | .neon => if E.ndebug then .uninit else .assertion
        | _ => if E.ndebug then .badLane else .assertion) := by
  have hb : ∀ {w : Nat} (v : Vec α w), w ≤ i →
      Base.get E.ndebug v i = .error (if E.ndebug then .badLane else .assertion) := by
    intro w v h
    exact dif_neg (by omega)
  have h4 : 4 ≤ i → ∃ k, i = k + 4 := fun h => ⟨i - 4, by omega⟩
  cases t with
  | genericFloat => exact hb v hi
  | genericDouble => exact hb v hi
  | sse s3 s41 => obtain ⟨k, rfl⟩ := h4 hi; rfl
  | sse2 => obtain ⟨k, rfl⟩ : ∃ k, i = k + 2 := ⟨i - 2, by have : 2 ≤ i := hi; omega⟩; rfl
  | avxFloat => exact hb v hi
  | avxDouble => exact hb v hi
  | neon => obtain ⟨k, rfl⟩ := h4 hi; rfl
  | altivec => exact hb v hi

/-- Writing to an index outside the vector is undefined behaviour without an assertion, except that it is silently ignored
with SSE4.1 and, in release builds, on NEON. -/
theorem C32_set_out_of_range (t : Target) (E : Env α) (v : (t.vec E).V) (i : Nat) (x : α) (hi : t.size ≤ i) :
    (t.vec E).set v i x = match t with
      | .sse _ true => .ok v
      | .neon => if E.ndebug then .ok v else .error .assertion
      | _ => .error .badLane := by
  have hb : ∀ {w : Nat} (v : Vec α w), w ≤ i → Base.set v i x = .error .badLane := by
    intro w v h
    exact if_neg (by omega)
  have h4 : 4 ≤ i → ∃ k, i = k + 4 := fun h => ⟨i - 4, by omega⟩
  cases t with
  | genericFloat => exact hb v hi
  | genericDouble => exact hb v hi
  | sse s3 s41 =>
    cases s41
    · exact hb v hi
    · obtain ⟨k, rfl⟩ := h4 hi; rfl
  | sse2 => exact hb v hi
  | avxFloat => exact hb v hi
  | avxDouble => exact hb v hi
  | neon => obtain ⟨k, rfl⟩ := h4 hi; rfl
  | altivec => exact hb v hi

/-! ## The hypotheses are satisfiable -/
section examples
open Examples

theorem intArith_ordered : intArith.Ordered := ⟨fun _ _ => rfl, fun _ _ => rfl, fun _ _ => rfl⟩

theorem intEnv_ordered : intEnv.Ordered := ⟨intArith_ordered, intArith_ordered⟩

theorem intEnv_abs : intEnv.ExactAbs := ⟨fun a => (Int.abs_eq_natAbs a).symm, fun a => (Int.abs_eq_natAbs a).symm⟩

example : (Target.neon.vec intEnv).horizontalSum (lanes4 3 (-7) 12 5) = 13 :=
  (C30_sum .neon intEnv intEnv_exact _).trans (by decide)

example : (Target.avxFloat.vec intEnv).horizontalMax (lanes8 3 (-7) 12 5 0 99 (-3) 4) = 99 := by decide

end examples

end Nova
