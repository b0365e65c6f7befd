import Verif.Float.Sum
import Verif.Lemmas.Folds
import Verif.Model.Builds

/-!
# Sums in floating point: registers and loops (helper lemmas, no properties)
-/

namespace Nova
open FP Finset

variable {w : Nat} {F : Fmt w}

/-- Scalar and lane additions are those of IEEE 754. -/
structure Adds (F : Fmt w) (E : Env (BitVec w)) : Prop where
  S : ∀ a b, E.S.add a b = F.add a b
  L : ∀ a b, E.L.add a b = F.add a b
  zS : E.S.zero = F.posZero
  zL : E.L.zero = F.posZero

theorem Build32.adds (b : Build32) (P : Platform 32) : Adds binary32 (b.env P) := by
  cases b <;> exact ⟨fun _ _ => rfl, fun _ _ => rfl, rfl, rfl⟩

theorem Build64.adds (b : Build64) (P : Platform 64) : Adds binary64 (b.env P) := by
  cases b <;> exact ⟨fun _ _ => rfl, fun _ _ => rfl, rfl, rfl⟩

theorem foldSeq_eq_foldl {α β : Type} (f : α → β → α) (z : α) (x : ℕ → β) (k : ℕ) :
    foldSeq f z x k = (List.ofFn fun i : Fin k => x i).foldl f z := by
  induction k with
  | zero => rfl
  | succ k ih => rw [foldSeq, ih, List.ofFn_succ', List.concat_eq_append, List.foldl_append]; rfl

/-- `horizontal_sum` of a register. -/
theorem hsum_acc {t : Target} {E : Env (BitVec w)} (hE : Adds F E) {v : (t.vec E).V} {d : ℕ}
    {S A e : Fin (t.vec E).size → ℝ} (hv : ∀ l, Acc F d (S l) (A l) (e l) (v l))
    (h : (1 + F.u) ^ (d + t.size) * (∑ l, A l + ∑ l, e l) ≤ 2 ^ F.bias) :
    Acc F (d + t.size) (∑ l, S l) (∑ l, A l) (∑ l, e l) ((t.vec E).horizontalSum v) := by
  have hbase : ∀ {k : ℕ} (v : Vec (BitVec w) k) (S A e : Fin k → ℝ), (∀ l, Acc F d (S l) (A l) (e l) (v l)) →
      (1 + F.u) ^ (d + k) * (∑ l, A l + ∑ l, e l) ≤ 2 ^ F.bias →
      Acc F (d + k) (∑ l, S l) (∑ l, A l) (∑ l, e l) (Base.horizontalSum E.S v) := by
    intro k v S A e hv h
    let ext : {β : Type} → β → (Fin k → β) → ℕ → β := fun z f i => if h : i < k then f ⟨i, h⟩ else z
    have hext : ∀ {β : Type} (z : β) (f : Fin k → β) (l : Fin k), ext z f l = f l := fun z f l => dif_pos l.isLt
    have e1 : Base.horizontalSum E.S v = foldSeq E.S.add E.S.zero (ext 0 v) k := by
      rw [foldSeq_eq_foldl]
      unfold Base.horizontalSum Base.toList
      congr 2
      funext l; exact (hext 0 v l).symm
    have hs : ∀ f : Fin k → ℝ, ∑ i ∈ range k, ext 0 f i = ∑ l, f l := fun f => by
      rw [Finset.sum_range]; exact Finset.sum_congr rfl fun l _ => hext 0 f l
    have := Acc.fold (F := F) (g := E.S.add) hE.S (acc := foldSeq E.S.add E.S.zero (ext 0 v)) (x := ext 0 v)
      (T' := ext 0 S) (B' := ext 0 A) (f' := ext 0 e) (d := d) (S := 0) (A := 0) (e := 0)
      (by rw [foldSeq, hE.zS]; exact Acc.zero d) k (fun i _ => rfl)
      (fun i hi => by
        have := hv ⟨i, hi⟩
        rw [show ext 0 v i = v ⟨i, hi⟩ from dif_pos hi, show ext 0 S i = S ⟨i, hi⟩ from dif_pos hi,
          show ext 0 A i = A ⟨i, hi⟩ from dif_pos hi, show ext 0 e i = e ⟨i, hi⟩ from dif_pos hi]
        exact this)
      (by rw [hs, hs, zero_add, zero_add]; exact h)
    rw [hs, hs, hs, zero_add, zero_add, zero_add] at this
    rw [e1]; exact this
  have four : ∀ (v : Vec (BitVec w) 4) (S A e : Fin 4 → ℝ), (∀ l, Acc F d (S l) (A l) (e l) (v l)) →
      (1 + F.u) ^ (d + 4) * (∑ l, A l + ∑ l, e l) ≤ 2 ^ F.bias → ∀ (i j k m : Fin 4),
      A i + A j + (A k + A m) = ∑ l, A l → S i + S j + (S k + S m) = ∑ l, S l → e i + e j + (e k + e m) = ∑ l, e l →
      Acc F (d + 4) (∑ l, S l) (∑ l, A l) (∑ l, e l) (F.add (F.add (v i) (v j)) (F.add (v k) (v m))) := by
    intro v S A e hv h i j k m hA hS he
    rw [← hA, ← he] at h
    have p := Acc.one_le F d
    have hi := (hv i).ae0; have hj := (hv j).ae0; have hk := (hv k).ae0; have hm := (hv m).ae0
    have h0 : ∀ q, q ≤ 4 → (1 + F.u) ^ (d + q) * (A i + A j + (A k + A m) + (e i + e j + (e k + e m))) ≤ 2 ^ F.bias :=
      fun q hq => (mul_le_mul_of_nonneg_right (Acc.pow_mono F (by omega)) (by linarith)).trans h
    have p0 := zero_le_one.trans (Acc.one_le F d)
    have a1 := (hv i).add (hv j) ((mul_le_mul_of_nonneg_left (by linarith) p0).trans (h0 0 (by omega)))
    have a2 := (hv k).add (hv m) ((mul_le_mul_of_nonneg_left (by linarith) p0).trans (h0 0 (by omega)))
    have a3 := a1.add a2 (h0 1 (by omega))
    exact (a3.mono (by omega)).congr hS hA he
  cases t with
  | genericFloat => exact hbase v S A e hv h
  | genericDouble => exact hbase v S A e hv h
  | avxFloat => exact hbase v S A e hv h
  | avxDouble => exact hbase v S A e hv h
  | altivec => exact hbase v S A e hv h
  | sse s3 s41 =>
    change Fin 4 → BitVec w at v
    change Fin 4 → ℝ at S A e
    cases s3
    · show Acc F (d + 4) _ _ _ (E.L.add (E.L.add (v 2) (v 0)) (E.L.add (v 3) (v 1)))
      simp only [hE.L]
      exact four v S A e hv h 2 0 3 1 (Fin.sum_univ_four A ▸ by ring) (Fin.sum_univ_four S ▸ by ring)
        (Fin.sum_univ_four e ▸ by ring)
    · show Acc F (d + 4) _ _ _ (E.L.add (E.L.add (v 0) (v 1)) (E.L.add (v 2) (v 3)))
      simp only [hE.L]
      exact four v S A e hv h 0 1 2 3 (Fin.sum_univ_four A ▸ by ring) (Fin.sum_univ_four S ▸ by ring)
        (Fin.sum_univ_four e ▸ by ring)
  | neon =>
    change Fin 4 → BitVec w at v
    change Fin 4 → ℝ at S A e
    show Acc F (d + 4) _ _ _ (E.S.add (E.L.add (v 0) (v 1)) (E.L.add (v 2) (v 3)))
    simp only [hE.L, hE.S]
    exact four v S A e hv h 0 1 2 3 (Fin.sum_univ_four A ▸ by ring) (Fin.sum_univ_four S ▸ by ring)
      (Fin.sum_univ_four e ▸ by ring)
  | sse2 =>
    change Fin 2 → BitVec w at v
    change Fin 2 → ℝ at S A e
    replace hv : ∀ l : Fin 2, Acc F d (S l) (A l) (e l) (v l) := hv
    show Acc F (d + 2) _ _ _ (E.L.add (v 0) (v 1))
    simp only [hE.L]
    have hA := Fin.sum_univ_two A
    have hS := Fin.sum_univ_two S
    have he := Fin.sum_univ_two e
    change (1 + F.u) ^ (d + 2) * (∑ l : Fin 2, A l + ∑ l : Fin 2, e l) ≤ 2 ^ F.bias at h
    rw [hA, he] at h
    have := (hv 0).add (hv 1) ((mul_le_mul_of_nonneg_right (Acc.pow_mono F (by omega))
      (by have := (hv 0).ae0; have := (hv 1).ae0; linarith)).trans h)
    exact (this.mono (by omega)).congr hS.symm hA.symm he.symm

/-- The lanes of a loop over registers, added up. -/
theorem regs_sum (f : ℕ → ℝ) (s k : ℕ) :
    ∑ l : Fin s, ∑ j ∈ range k, f (j * s + l) = ∑ i ∈ range (k * s), f i := by
  induction k with
  | zero => simp
  | succ k ih =>
    rw [Nat.succ_mul, Finset.sum_range_add, ← ih, ← Finset.sum_range (fun l => ∑ j ∈ range (k + 1), f (j * s + l)),
      ← Finset.sum_range (fun l => ∑ j ∈ range k, f (j * s + l)), ← Finset.sum_add_distrib]
    exact Finset.sum_congr rfl fun l _ => by rw [Finset.sum_range_succ]

end Nova
