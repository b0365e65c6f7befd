import Verif.Lemmas.Bundle
import Verif.Lemmas.Backends
import Verif.Model.Align
import Verif.Model.Functors
import Verif.Model.SimdMemory
import Verif.Examples

/-!
# C50 is_aligned, C51 the loop granule and the template recursion
-/

namespace Nova

/-! ## C50 -/

theorem and_low (p : BitVec 64) (k : Nat) (hk : k ≤ 63) :
    (p &&& BitVec.ofNat 64 (2 ^ k - 1) == 0#64) = true ↔ 2 ^ k ∣ p.toNat := by
  have h2 : 2 ^ k ≤ 2 ^ 63 := Nat.pow_le_pow_right (by decide) hk
  rw [beq_iff_eq, BitVec.toNat_inj.symm, BitVec.toNat_and, BitVec.toNat_ofNat,
    Nat.mod_eq_of_lt (a := 2 ^ k - 1) (by omega), Nat.and_two_pow_sub_one_eq_mod, BitVec.toNat_ofNat,
    Nat.zero_mod]
  exact (Nat.dvd_iff_mod_eq_zero ..).symm

/-- On every back end with intrinsics, `is_aligned(ptr)` is true exactly when the address is a multiple of
the size of a vector in bytes. -/
theorem C50_is_aligned_partial (t : Target) (ht : t.isGeneric = false) (ptr : BitVec 64) :
    t.isAligned ptr = true ↔ t.size * t.elemBytes ∣ ptr.toNat := by
  unfold Target.isAligned
  rw [ht, if_neg (by decide)]
  cases t with
  | genericFloat => exact absurd ht (by decide)
  | genericDouble => exact absurd ht (by decide)
  | sse a b => exact and_low ptr 4 (by decide)
  | sse2 => exact and_low ptr 4 (by decide)
  | avxFloat => exact and_low ptr 5 (by decide)
  | avxDouble => exact and_low ptr 5 (by decide)
  | neon => exact and_low ptr 4 (by decide)
  | altivec => exact and_low ptr 4 (by decide)

/-- The generic class tests for multiples of four bytes, for every type. -/
theorem C50_generic (t : Target) (ht : t.isGeneric = true) (ptr : BitVec 64) :
    t.isAligned ptr = true ↔ 4 ∣ ptr.toNat := by
  unfold Target.isAligned
  rw [ht, if_pos rfl]
  exact and_low ptr 2 (by decide)

/-- For a pointer to element `p` of an array at a multiple of the vector size, `is_aligned` predicts whether
the aligned accesses of the class are allowed (`t.align ∣ p`), except on NEON, where every element may be
accessed and `is_aligned` asks for more. -/
theorem C50_predicts (t : Target) (ht : t ≠ .neon) (p : Nat) (hp : p * t.elemBytes < 2 ^ 64) :
    t.isAligned (BitVec.ofNat 64 (p * t.elemBytes)) = true ↔ t.align ∣ p := by
  have hn : (BitVec.ofNat 64 (p * t.elemBytes)).toNat = p * t.elemBytes := by
    rw [BitVec.toNat_ofNat, Nat.mod_eq_of_lt hp]
  cases t with
  | neon => exact absurd rfl ht
  | genericFloat =>
    rw [C50_generic _ rfl, hn]
    exact ⟨fun _ => Nat.one_dvd p, fun _ => Nat.dvd_mul_left 4 p⟩
  | genericDouble =>
    rw [C50_generic _ rfl, hn]
    exact ⟨fun _ => Nat.one_dvd p, fun _ => ⟨p * 2, by change p * 8 = _; omega⟩⟩
  | sse a b =>
    rw [C50_is_aligned_partial _ rfl, hn]
    exact Nat.mul_dvd_mul_iff_right (by decide : 0 < 4)
  | sse2 =>
    rw [C50_is_aligned_partial _ rfl, hn]
    exact Nat.mul_dvd_mul_iff_right (by decide : 0 < 8)
  | avxFloat =>
    rw [C50_is_aligned_partial _ rfl, hn]
    exact Nat.mul_dvd_mul_iff_right (by decide : 0 < 4)
  | avxDouble =>
    rw [C50_is_aligned_partial _ rfl, hn]
    exact Nat.mul_dvd_mul_iff_right (by decide : 0 < 8)
  | altivec =>
    rw [C50_is_aligned_partial _ rfl, hn]
    exact Nat.mul_dvd_mul_iff_right (by decide : 0 < 4)

/-- C50 is false of the generic class: address 4 is accepted, which for `double` is not even the address of
an aligned element. -/
theorem C50_negation (t : Target) (ht : t.isGeneric = true) :
    t.isAligned 4#64 = true ∧ ¬ t.size * t.elemBytes ∣ (4#64).toNat ∧
    (t = .genericDouble → ¬ t.elemBytes ∣ (4#64).toNat) := by
  cases t with
  | genericFloat => exact ⟨by decide, by decide, by decide⟩
  | genericDouble => exact ⟨by decide, by decide, by decide⟩
  | sse a b => exact absurd ht (by simp [Target.isGeneric])
  | _ => exact absurd ht (by decide)

example : Target.avxFloat.isAligned 96#64 = true ∧ Target.avxFloat.isAligned 80#64 = false := by decide

/-! ## C51 -/

variable {α : Type}

/-- `samples_per_loop` is a positive multiple of the vector size. -/
theorem C51_granule (t : Target) (E : Env α) :
    0 < (t.vec E).perLine ∧ (t.vec E).size ∣ (t.vec E).perLine :=
  ⟨(t.lawful E).line_pos, (t.lawful E).line_dvd⟩

/-- The template arguments of the recursion `N, N - size, N - 2*size, …` reach the specialisation for 0
exactly when `N` is a multiple of the size. -/
theorem C51_recursion (size N : Nat) :
    (∃ k : Nat, (N : Int) - k * size = 0) ↔ size ∣ N := by
  constructor
  · rintro ⟨k, hk⟩
    exact ⟨k, by have : (N : Int) = k * size := by omega
                 rw [Nat.mul_comm]; exact_mod_cast this⟩
  · rintro ⟨k, rfl⟩
    exact ⟨k, by push_cast; rw [Int.mul_comm]; omega⟩

theorem Exec.bind_ne_ok {β γ : Type} (x : Exec α β) (f : β → Exec α γ) (m : Mem α)
    (h : ∀ b m', ∀ r, f b m' ≠ .ok r) : ∀ r, (x >>= f) m ≠ .ok r := by
  intro r
  cases hx : x m with
  | ok p => rw [Exec.bind_ok hx]; exact h _ _ r
  | error e => rw [Exec.bind_error hx]; simp

theorem mpIterG_reject {σ β : Type} {I : VecImpl α} (consume : σ → Exec α (β × σ))
    (f : β → Except Fault I.V) (N out : Nat) (l : Option β) (s : σ) (m : Mem α) (hN : ¬ I.size ∣ N) :
    ∀ r, mpIterG I consume f N out l s m ≠ .ok r := by
  induction N using Nat.strongRecOn generalizing out l s m with
  | ind N ih =>
    have hp := I.size_pos
    rw [mpIterG, if_neg (by rintro rfl; exact hN (Nat.dvd_zero _))]
    by_cases h1 : N < I.size
    · rw [dif_pos h1]; intro r; simp [Exec.fail]
    · rw [dif_neg h1]
      refine Exec.bind_ne_ok _ _ _ fun b m' => ?_
      refine Exec.bind_ne_ok _ _ _ fun b m' => ?_
      refine Exec.bind_ne_ok _ _ _ fun b m' => ?_
      refine Exec.bind_ne_ok _ _ _ fun b m' => ?_
      exact ih _ (by omega) _ _ _ _ (fun h => hN (by
        have := Nat.dvd_add h (Nat.dvd_refl I.size)
        rwa [Nat.sub_add_cancel (by omega)] at this))

theorem runG_reject {σ β : Type} {I : VecImpl α} (consume : σ → Exec α (β × σ))
    (f : β → Except Fault I.V) (N out : Nat) (s : σ) (m : Mem α) (hN : ¬ I.size ∣ N) :
    ∀ r, runG I consume f N out s m ≠ .ok r := by
  rw [runG, if_neg (by rintro rfl; exact hN (Nat.dvd_zero _))]
  exact Exec.bind_ne_ok _ _ _ fun b m' => mpIterG_reject _ _ _ _ _ _ _ hN

theorem unrollTmpl_reject {ρ : Type} (I : VecImpl α) (body : Nat → ρ → Exec α ρ) (N off : Nat) (r : ρ)
    (m : Mem α) (hN : ¬ I.size ∣ N) : ∀ q, unrollTmpl I body N off r m ≠ .ok q := by
  induction N using Nat.strongRecOn generalizing off r m with
  | ind N ih =>
    have hp := I.size_pos
    rw [unrollTmpl, if_neg (by rintro rfl; exact hN (Nat.dvd_zero _))]
    by_cases h1 : N < I.size
    · rw [dif_pos h1]; intro r; simp [Exec.fail]
    · rw [dif_neg h1]
      refine Exec.bind_ne_ok _ _ _ fun b m' => ?_
      exact ih _ (by omega) _ _ _ (fun h => hN (by
        have := Nat.dvd_add h (Nat.dvd_refl I.size)
        rwa [Nat.sub_add_cancel (by omega)] at this))

/-- No program contains `foo_vec_simd<N>` with an `N` that is not a multiple of the vector size: in the model
such a call never returns. -/
theorem C51_unary (I : VecImpl α) (op : UnOp) (N out arg : Nat) (m : Mem α) (hN : ¬ I.size ∣ N) :
    ∀ r, op.vecSimdN I N out arg m ≠ .ok r := by
  unfold UnOp.vecSimdN performVecSimdN1
  rw [run1_eq]
  intro r h
  cases hx : runG I (VArg.consume I) (VecImpl.mapM (op.f I.lane)) N out (.ptr arg) m with
  | ok p => exact runG_reject _ _ _ _ _ _ hN _ hx
  | error e => rw [Exec.bind_error hx] at h; simp at h

theorem C51_binary (I : VecImpl α) (op : BinOp) (N out : Nat) (a b : SArg α) (m : Mem α)
    (hN : ¬ I.size ∣ N) : ∀ r, op.vecSimdN I N out a b m ≠ .ok r := by
  unfold BinOp.vecSimdN performVecSimdN2
  rw [run2_eq]
  intro r h
  generalize hg : runG I (consume2 I) _ N out _ = g at h
  cases hx : g m with
  | ok p => rw [← hg] at hx; exact runG_reject _ _ _ _ _ _ hN _ hx
  | error e => rw [Exec.bind_error hx] at h; simp at h

theorem C51_ternary (I : VecImpl α) (op : TerOp) (N out : Nat) (a b c : SArg α) (m : Mem α)
    (hN : ¬ I.size ∣ N) : ∀ r, op.vecSimdN I N out a b c m ≠ .ok r := by
  unfold TerOp.vecSimdN performVecSimdN3
  rw [run3_eq]
  intro r h
  generalize hg : runG I (consume3 I) _ N out _ = g at h
  cases hx : g m with
  | ok p => rw [← hg] at hx; exact runG_reject _ _ _ _ _ _ hN _ hx
  | error e => rw [Exec.bind_error hx] at h; simp at h

theorem C51_quad (I : VecImpl α) (op : QuadOp) (N out : Nat) (a b c d : SArg α) (m : Mem α)
    (hN : ¬ I.size ∣ N) : ∀ r, op.vecSimdN I N out a b c d m ≠ .ok r := by
  unfold QuadOp.vecSimdN performVecSimdN4
  rw [run4_eq]
  intro r h
  generalize hg : runG I (consume4 I) _ N out _ = g at h
  cases hx : g m with
  | ok p => rw [← hg] at hx; exact runG_reject _ _ _ _ _ _ hN _ hx
  | error e => rw [Exec.bind_error hx] at h; simp at h

/-- `setvec_simd<N>`, `set_slope_vec_simd<N>`, … share the second recursion template. -/
theorem C51_memory {ρ : Type} (I : VecImpl α) (body : Nat → ρ → Exec α ρ) (N off : Nat) (r : ρ) (m : Mem α)
    (hN : ¬ I.size ∣ N) : ∀ q, unrollTmpl I body N off r m ≠ .ok q :=
  unrollTmpl_reject I body N off r m hN

example : ¬ (Target.avxFloat.vec Examples.intEnv).size ∣ 12 ∧ (Target.avxFloat.vec Examples.intEnv).size ∣ 24 := by
  decide

end Nova
