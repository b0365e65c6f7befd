import Mathlib.Algebra.BigOperators.Group.Finset.Basic
import Mathlib.Algebra.BigOperators.Intervals
import Mathlib.Algebra.BigOperators.Fin
import Mathlib.Order.Bounds.Basic
import Verif.Lemmas.Loops
import Verif.Lemmas.Backends
import Verif.Ordered
import Verif.Model.Meters

/-!
# Loops that only read: what they accumulate (helper lemmas, no properties)
-/

namespace Nova
open Spec
variable {α σ : Type}

theorem Target.lane_eq (t : Target) (E : Env α) : (t.vec E).lane = E.L := by cases t <;> rfl

/-- `f (… (f (f init (x 0)) (x 1)) …) (x (k-1))` -/
def foldSeq {β : Type} (f : σ → β → σ) (init : σ) (x : Nat → β) : Nat → σ
  | 0 => init
  | k + 1 => f (foldSeq f init x k) (x k)

theorem foldVec_ok {f : σ → α → σ} {init : σ} {inp : Nat} {n : BitVec 32} {x : Nat → α} {m : Mem α}
    (hn : 0 < n.toNat) (hx : Holds m inp n.toNat x) :
    foldVec f init inp n m = .ok (foldSeq f init x n.toNat, m) := by
  unfold foldVec
  rw [doWhile_eq_iterM, tripCount_of_pos hn]
  have := iterM_seq (body := fun (s : Nat × σ) => (do
      let (inp, current) := s
      let x ← read inp
      pure (inp + 1, f current x) : Exec α (Nat × σ)))
    (fun k => (inp + k, foldSeq f init x k)) (fun _ => m) n.toNat (fun k hk => by
      refine (Exec.bind_ok (read_ok (hx k hk))).trans ?_
      rfl)
  exact Exec.bind_ok this

theorem reg_holds {m : Mem α} {inp N w k : Nat} {x : Nat → α} (hx : Holds m inp N x)
    (hk : k + w ≤ N) : readVec w (inp + k) m = .ok (fun l => x (k + l), m) :=
  readVec_ok fun l => by
    rw [Nat.add_assoc]
    exact hx _ (by have := l.isLt; omega)

theorem foldVecSimd_ok {I : VecImpl α} {al : Nat} (hI : I.Lawful al) {f : σ → I.V → σ} {init : σ}
    {inp : Nat} {n : BitVec 32} {x : Nat → α} {m : Mem α} (hal : al ∣ inp) (hs : I.size < 2 ^ 32)
    (hn : I.size ≤ n.toNat) (hx : Holds m inp n.toNat x) :
    foldVecSimd I f init inp n m
      = .ok (foldSeq f init (fun j l => x (j * I.size + l)) (n.toNat / I.size), m) := by
  unfold foldVecSimd
  rw [doWhile_eq_iterM, tripCount_div I.size_pos hs hn]
  have := iterM_seq (body := fun (s : Nat × σ) => (do
      let (inp, current) := s
      let val ← I.loadAligned inp
      pure (inp + I.size, f current val) : Exec α (Nat × σ)))
    (fun k => (inp + k * I.size, foldSeq f init (fun j l => x (j * I.size + l)) k)) (fun _ => m)
    (n.toNat / I.size) (fun k hk => by
      have hle : k * I.size + I.size ≤ n.toNat := by
        rw [← Nat.succ_mul]
        exact (Nat.mul_le_mul_right _ hk).trans (Nat.div_mul_le_self _ _)
      have hr := reg_holds hx hle
      show (I.loadAligned (inp + k * I.size) >>= _) m = _
      rw [hI.loadAligned _ (Nat.dvd_add hal (Dvd.dvd.mul_left hI.al_dvd _)), Exec.bind_ok hr]
      show Except.ok _ = Except.ok _
      congr 3
      rw [Nat.succ_mul]; omega)
  rw [Nat.zero_mul, Nat.add_zero] at this
  exact Exec.bind_ok this

/-! ## Folds with `max`, `min` and `+` -/

theorem foldSeq_prod {β τ : Type} (f : σ → β → σ) (g : τ → β → τ) (a : σ) (b : τ) (x : Nat → β)
    (k : Nat) : foldSeq (fun (s : σ × τ) v => (f s.1 v, g s.2 v)) (a, b) x k
      = (foldSeq f a x k, foldSeq g b x k) := by
  induction k with
  | zero => rfl
  | succ k ih => rw [foldSeq, ih]; rfl

/-- The elements `x 0, …, x (k-1)`. -/
theorem range_succ_set (x : Nat → α) (c : α) (k : Nat) :
    insert c {y | ∃ i, i < k + 1 ∧ y = x i} = insert (x k) (insert c {y | ∃ i, i < k ∧ y = x i}) := by
  ext y
  simp only [Set.mem_insert_iff, Set.mem_ofPred_eq]
  constructor
  · rintro (h | ⟨i, hi, h⟩)
    · exact Or.inr (Or.inl h)
    · by_cases e : i = k
      · subst e; exact Or.inl h
      · exact Or.inr (Or.inr ⟨i, by omega, h⟩)
  · rintro (h | h | ⟨i, hi, h⟩)
    · exact Or.inr ⟨k, by omega, h⟩
    · exact Or.inl h
    · exact Or.inr ⟨i, by omega, h⟩

section order
variable [LinearOrder α]

theorem foldSeq_max {f : α → α → α} (hf : ∀ a b, f a b = max a b) (c : α) (x : Nat → α) (k : Nat) :
    IsGreatest (insert c {y | ∃ i, i < k ∧ y = x i}) (foldSeq f c x k) := by
  induction k with
  | zero => simp [foldSeq]
  | succ k ih =>
    rw [range_succ_set, foldSeq, hf, max_comm]
    exact ih.insert _

theorem foldSeq_min {f : α → α → α} (hf : ∀ a b, f a b = min a b) (c : α) (x : Nat → α) (k : Nat) :
    IsLeast (insert c {y | ∃ i, i < k ∧ y = x i}) (foldSeq f c x k) := by
  induction k with
  | zero => simp [foldSeq]
  | succ k ih =>
    rw [range_succ_set, foldSeq, hf, min_comm]
    exact ih.insert _

theorem greatest_iUnion {ι : Type} {S : ι → α} {T : ι → Set α} {r : α}
    (hS : ∀ l, IsGreatest (T l) (S l)) (hr : IsGreatest (Set.range S) r) :
    IsGreatest (⋃ l, T l) r := by
  constructor
  · obtain ⟨l, rfl⟩ := hr.1
    exact Set.mem_iUnion.mpr ⟨l, (hS l).1⟩
  · intro y hy
    obtain ⟨l, hl⟩ := Set.mem_iUnion.mp hy
    exact ((hS l).2 hl).trans (hr.2 ⟨l, rfl⟩)

theorem least_iUnion {ι : Type} {S : ι → α} {T : ι → Set α} {r : α}
    (hS : ∀ l, IsLeast (T l) (S l)) (hr : IsLeast (Set.range S) r) :
    IsLeast (⋃ l, T l) r := by
  constructor
  · obtain ⟨l, rfl⟩ := hr.1
    exact Set.mem_iUnion.mpr ⟨l, (hS l).1⟩
  · intro y hy
    obtain ⟨l, hl⟩ := Set.mem_iUnion.mp hy
    exact (hr.2 ⟨l, rfl⟩).trans ((hS l).2 hl)

end order

theorem foldSeq_lane {w : Nat} {β : Type} (f : α → β → α) (init : Vec α w) (x : Nat → Fin w → β)
    (k : Nat) (l : Fin w) :
    foldSeq (fun (s : Vec α w) v => fun l => f (s l) (v l)) init x k l
      = foldSeq f (init l) (fun j => x j l) k := by
  induction k with
  | zero => rfl
  | succ k ih => rw [foldSeq, ih]; rfl

/-- Splitting an index into register and lane. -/
theorem iUnion_lanes {w : Nat} (hw : 0 < w) (c : Fin w → α) (x : Nat → α) (k : Nat) :
    (⋃ l : Fin w, insert (c l) {y | ∃ j, j < k ∧ y = x (j * w + l)})
      = Set.range c ∪ {y | ∃ i, i < k * w ∧ y = x i} := by
  ext y
  simp only [Set.mem_iUnion, Set.mem_insert_iff, Set.mem_union, Set.mem_range, Set.mem_ofPred_eq]
  constructor
  · rintro ⟨l, h | ⟨j, hj, h⟩⟩
    · exact Or.inl ⟨l, h.symm⟩
    · refine Or.inr ⟨_, ?_, h⟩
      have h1 := Nat.mul_le_mul_right w hj
      rw [Nat.succ_mul] at h1
      have := l.isLt
      omega
  · rintro (⟨l, h⟩ | ⟨i, hi, h⟩)
    · exact ⟨l, Or.inl h.symm⟩
    · refine ⟨⟨i % w, Nat.mod_lt _ hw⟩, Or.inr ⟨i / w, ?_, ?_⟩⟩
      · exact Nat.div_lt_of_lt_mul (by rwa [Nat.mul_comm])
      · rw [h, Nat.div_add_mod']

theorem foldSeq_add [CommRing α] {f : α → α → α} (hf : ∀ a b, f a b = a + b) (c : α) (x : Nat → α)
    (k : Nat) : foldSeq f c x k = c + ∑ i ∈ Finset.range k, x i := by
  induction k with
  | zero => simp [foldSeq]
  | succ k ih => rw [foldSeq, hf, ih, Finset.sum_range_succ, add_assoc]

/-- Adding up all lanes adds up all elements. -/
theorem sum_lanes [CommRing α] {w : Nat} (c : Fin w → α) (x : Nat → α) (k : Nat) :
    ∑ l : Fin w, (c l + ∑ j ∈ Finset.range k, x (j * w + l))
      = ∑ l, c l + ∑ i ∈ Finset.range (k * w), x i := by
  rw [Finset.sum_add_distrib]
  congr 1
  rw [Finset.sum_comm]
  induction k with
  | zero => simp
  | succ k ih =>
    rw [Finset.sum_range_succ, ih, Nat.succ_mul, Finset.sum_range_add,
      Finset.sum_range (fun i => x (k * w + i))]

end Nova
