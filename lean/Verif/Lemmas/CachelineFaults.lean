import Verif.Lemmas.Cacheline
import Verif.Lemmas.Faults

/-!
# What a successful execution of the loops of simd_memory.hpp and simd_pan.hpp implies (helper lemmas)
-/

namespace Nova
open Spec
variable {α ρ : Type} {I : VecImpl α}

theorem SameDom.allocated {m m' : Mem α} (h : SameDom m m') {p n : Nat} (ha : Allocated m' p n) :
    Allocated m p n := fun i hi => by rw [← h]; exact ha i hi

/-- `P j` holds if the `j`-th execution of the body succeeds. -/
theorem ensures_unroll {m : Mem α} {body : Nat → ρ → Exec α ρ} {P : Nat → Prop}
    (hb : ∀ j r m1, SameDom m m1 →
      Ensures (body (j * I.size) r) m1 fun _ m2 => SameDom m m2 ∧ P j) :
    ∀ k j r m1, SameDom m m1 → Ensures (unrollTmpl I body (k * I.size) (j * I.size) r) m1
      fun _ m2 => SameDom m m2 ∧ ∀ i, j ≤ i → i < j + k → P i
  | 0, j, r, m1, h1 => by
      rw [unrollTmpl, if_pos (by omega)]
      exact Ensures.pure ⟨h1, fun i _ _ => by omega⟩
  | k + 1, j, r, m1, h1 => by
      have hp := I.size_pos
      have e1 : (k + 1) * I.size = k * I.size + I.size := Nat.succ_mul _ _
      rw [unrollTmpl, if_neg (by omega), dif_neg (by omega)]
      apply Ensures.bind
      refine Ensures.mono (hb j r m1 h1) ?_
      intro r' m2 ⟨h2, hP⟩
      have e2 : (k + 1) * I.size - I.size = k * I.size := by omega
      have e3 : j * I.size + I.size = (j + 1) * I.size := (Nat.succ_mul _ _).symm
      rw [e2, e3]
      refine Ensures.mono (ensures_unroll hb k (j + 1) r' m2 h2) ?_
      intro _ m3 ⟨h3, hQ⟩
      refine ⟨h3, fun i h4 h5 => ?_⟩
      rcases Nat.eq_or_lt_of_le h4 with h | h
      · subst h; exact hP
      · exact hQ i (by omega) (by omega)

/-- `P i` holds for every vector the loop processes. -/
theorem ensures_cacheline {m : Mem α} {run : Nat → ρ → Exec α ρ} {P : Nat → Prop} {k : Nat}
    (hpl : I.perLine = k * I.size) (hk : 0 < k)
    (hb : ∀ j r m1, SameDom m m1 → Ensures (run (j * I.size) r) m1
      fun _ m2 => SameDom m m2 ∧ ∀ i, j ≤ i → i < j + k → P i)
    (n : BitVec 32) (r : ρ) :
    Ensures (cachelineLoop I run n r) m fun _ m2 =>
      SameDom m m2 ∧ ∀ i, i < tripCount (n / BitVec.ofNat 32 I.perLine) * k → P i := by
  unfold cachelineLoop
  simp only
  rw [doWhile_eq_iterM]
  apply Ensures.bind
  refine Ensures.mono (ensures_iterM
    (Inv := fun q (t : Nat × ρ) m' => t.1 = q * I.perLine ∧ SameDom m m')
    (Q := fun q => ∀ i, q * k ≤ i → i < q * k + k → P i) (by
      rintro q ⟨o, s⟩ m1 ⟨ho, hd⟩
      simp only at ho
      subst ho
      apply Ensures.bind
      have e1 : q * I.perLine = q * k * I.size := by rw [hpl, Nat.mul_assoc]
      simp only
      rw [e1]
      refine Ensures.mono (hb (q * k) s m1 hd) ?_
      intro s' m2 ⟨hd2, ha2⟩
      apply Ensures.pure
      exact ⟨⟨by rw [Nat.succ_mul, e1], hd2⟩, ha2⟩) _ 0 (0, r) m
      ⟨by simp, SameDom.refl m⟩) ?_
  rintro ⟨o, r'⟩ m' ⟨⟨_, hd⟩, hq⟩
  refine Ensures.pure ⟨hd, fun i hi => ?_⟩
  have hlt : i / k < tripCount (n / BitVec.ofNat 32 I.perLine) :=
    (Nat.div_lt_iff_lt_mul hk).mpr hi
  have h1 := Nat.div_mul_le_self i k
  have h2 := Nat.lt_div_mul_add (a := i) hk
  exact hq (i / k) (Nat.zero_le _) (by omega) i h1 (by omega)

theorem ensures_cacheline_unroll {al : Nat} (hI : I.Lawful al) {m : Mem α} {body : Nat → ρ → Exec α ρ}
    {p : Nat}
    (hb : ∀ j r m1, SameDom m m1 →
      Ensures (body (j * I.size) r) m1 fun _ m2 =>
        SameDom m m2 ∧ Allocated m (p + j * I.size) I.size)
    (n : BitVec 32) (r : ρ) :
    Ensures (cachelineLoop I (unrollTmpl I body I.perLine) n r) m fun _ m2 =>
      SameDom m m2 ∧ Allocated m p (tripCount (n / BitVec.ofNat 32 I.perLine) * I.perLine) := by
  obtain ⟨k, hpl, hk⟩ := Lawful.line_eq hI
  refine Ensures.mono (ensures_cacheline hpl hk
    (P := fun j => Allocated m (p + j * I.size) I.size) (fun j r m1 h => by
      rw [hpl]; exact ensures_unroll hb k j r m1 h) n r) ?_
  intro _ m2 ⟨hd, hP⟩
  refine ⟨hd, fun i hi => ?_⟩
  have hp := I.size_pos
  have hi' : i < tripCount (n / BitVec.ofNat 32 I.perLine) * k * I.size := by
    rw [Nat.mul_assoc, ← hpl]; exact hi
  have := hP (i / I.size) ((Nat.div_lt_iff_lt_mul hp).mpr hi') (i % I.size) (Nat.mod_lt _ hp)
  rw [Nat.add_assoc, Nat.mul_comm, Nat.div_add_mod] at this
  exact this

end Nova
