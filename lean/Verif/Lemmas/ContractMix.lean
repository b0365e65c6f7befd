import Verif.Lemmas.ContractMeters
import Verif.SpecMix

/-!
# Mixes with fused additions (helper lemmas, no properties)
-/

namespace Nova
open FP Spec

variable {w : Nat} {F : Fmt w}

/-- What the arithmetic of a scalar or a lane has to provide. -/
structure MixOps (F : Fmt w) (A : Arith (BitVec w)) : Prop where
  add : ∀ a b, A.add a b = F.add a b
  mul : ∀ x y, IsFin F x → IsFin F y → |F.toReal x * F.toReal y| ≤ 2 ^ F.bias → F.Near (F.toReal x * F.toReal y) (A.mul x y)
  madd : ∀ x y z, A.madd x y z = F.add (F.mul x y) z ∨ A.madd x y z = F.add z (F.mul y x) ∨ A.madd x y z = F.fma x y z
  one : IsFin F A.one ∧ F.toReal A.one = 1

theorem Mix.accurate {M : Mix} {r : BitVec w} (h : FP.Acc F M.roundings M.value M.magnitude M.underflow r) : M.Accurate F r :=
  ⟨h.fin, h.tol⟩

namespace FP.Acc

theorem prod {x y r : BitVec w} (h : |F.toReal x * F.toReal y| ≤ 2 ^ F.bias → F.Near (F.toReal x * F.toReal y) r)
    (hr : |F.toReal x * F.toReal y| ≤ 2 ^ F.bias) :
    FP.Acc F 1 (F.toReal x * F.toReal y) |F.toReal x * F.toReal y| F.eta r := Acc.near (h hr)

end FP.Acc

/-- Every partial mix is in range. -/
theorem part_le {d k : ℕ} {M t : ℝ} (hr : (1 + F.u) ^ d * M ≤ 2 ^ F.bias) (hk : k ≤ d) (h0 : 0 ≤ t) (ht : t ≤ M) :
    (1 + F.u) ^ k * t ≤ 2 ^ F.bias :=
  le_trans (mul_le_mul (Acc.pow_mono F hk) ht h0 (zero_le_one.trans (Acc.one_le F _))) hr

/-- The possible results of `x * y + z`. -/
theorem prodAdd_acc {x y z r : BitVec w} (hx : IsFin F x) (hy : IsFin F y) (hz : IsFin F z)
    (hr : (1 + F.u) ^ 2 * (|F.toReal x * F.toReal y| + |F.toReal z| + F.eta) ≤ 2 ^ F.bias)
    (h : r = F.add (F.mul x y) z ∨ r = F.add z (F.mul x y) ∨ r = F.add z (F.mul y x) ∨ r = F.fma x y z) :
    FP.Acc F 2 (F.toReal x * F.toReal y + F.toReal z) (|F.toReal x * F.toReal y| + |F.toReal z|) F.eta r := by
  have he := F.eta_pos
  have a1 := abs_nonneg (F.toReal x * F.toReal y)
  have a2 := abs_nonneg (F.toReal z)
  have hp : |F.toReal x * F.toReal y| ≤ 2 ^ F.bias := by
    have := part_le hr (Nat.zero_le 2) a1 (by linarith)
    rwa [pow_zero, one_mul] at this
  have m1 := Acc.prod (fun h => Fmt.mul_near hx hy h) hp
  have m2 : FP.Acc F 1 (F.toReal x * F.toReal y) |F.toReal x * F.toReal y| F.eta (F.mul y x) := by
    rw [mul_comm] at hp ⊢
    exact Acc.prod (fun h => Fmt.mul_near hy hx h) hp
  have z1 := (Acc.exact hz).mono (Nat.zero_le 1)
  have hr1 := part_le (t := |F.toReal x * F.toReal y| + |F.toReal z| + F.eta) hr (show 1 ≤ 2 by omega) (by linarith) le_rfl
  rcases h with rfl | rfl | rfl | rfl
  · exact (m1.add z1 (by rw [add_zero]; exact hr1)).congr rfl rfl (add_zero _)
  · exact (z1.add m1 (by rw [zero_add, add_comm |F.toReal z|]; exact hr1)).congr (add_comm _ _) (add_comm _ _) (zero_add _)
  · exact (z1.add m2 (by rw [zero_add, add_comm |F.toReal z|]; exact hr1)).congr (add_comm _ _) (add_comm _ _) (zero_add _)
  · exact (z1.fma_mul hx hy (by rw [zero_add, add_comm |F.toReal z|]; exact hr1)).congr (add_comm _ _) (add_comm _ _)
      (zero_add _)

/-- A function of three arguments. -/
theorem MixOps.ternary {A : Arith (BitVec w)} (H : MixOps F A) {c : Bool} {op : TerOp} {x y z r : BitVec w} (hx : IsFin F x)
    (hy : IsFin F y) (hz : IsFin F z) {M : Mix} (hM : terMix F op (F.toReal x) (F.toReal y) (F.toReal z) = some M)
    (hr : TerFits F op (F.toReal x) (F.toReal y) (F.toReal z) M) (hm : r ∈ Contract.mix3 F c A op x y z) :
    M.Accurate F r := by
  have he := F.eta_pos
  cases op with
  | clip => cases hM
  | muladd =>
    cases hM
    refine Mix.accurate (prodAdd_acc hx hy hz hr.1 ?_)
    rcases List.mem_cons.mp hm with rfl | hm
    · rcases H.madd x y z with h | h | h
      · exact .inl h
      · exact .inr (.inr (.inl h))
      · exact .inr (.inr (.inr h))
    · cases c
      · cases hm
      · simp [Fmt.sums, Fmt.value] at hm
        rcases hm with h | h
        · exact .inl h
        · exact .inr (.inr (.inr h))
  | sum =>
    cases hM
    obtain rfl : r = A.add (A.add x y) z := by
      rcases List.mem_cons.mp hm with h | hm
      · exact h
      · cases c <;> cases hm
    rw [H.add, H.add]
    have h1 := hr.1
    unfold Mix.Fits at h1
    dsimp only at h1
    have a1 := abs_nonneg (F.toReal x)
    have a2 := abs_nonneg (F.toReal y)
    have a3 := abs_nonneg (F.toReal z)
    have s1 := (Acc.exact hx).add (Acc.exact hy) (part_le h1 (by omega) (by linarith) (by linarith))
    have s2 := s1.add ((Acc.exact hz).mono (Nat.zero_le 1)) (part_le h1 (by omega) (by linarith) (by linarith))
    exact Mix.accurate (s2.congr rfl rfl (by simp))
  | ampmod =>
    cases hM
    obtain ⟨h1, h2⟩ := hr
    have h2 := h2 rfl
    unfold Mix.Fits gain at h2
    unfold Mix.Fits at h1
    dsimp only at h1 h2
    have a1 := abs_nonneg (F.toReal y * F.toReal z)
    have a0 := abs_nonneg (F.toReal x)
    have hp : |F.toReal y * F.toReal z| ≤ 2 ^ F.bias := by
      have := part_le h2 (Nat.zero_le 2) a1 (by linarith)
      rwa [pow_zero, one_mul] at this
    have o1 := (Acc.exact H.one.1).mono (Nat.zero_le 1)
    rw [H.one.2, abs_one] at o1
    have hr1 := part_le (t := 1 + |F.toReal y * F.toReal z| + (0 + F.eta)) h2 (show 1 ≤ 2 by omega) (by linarith) (by linarith)
    obtain ⟨g, hg, rfl⟩ : ∃ g, FP.Acc F 2 (1 + F.toReal y * F.toReal z) (1 + |F.toReal y * F.toReal z|) F.eta g ∧
        r = A.mul x g := by
      rcases List.mem_cons.mp hm with rfl | hm
      · refine ⟨_, ?_, rfl⟩
        rw [H.add]
        exact (o1.add (Acc.prod (H.mul y z hy hz) hp) hr1).congr rfl rfl (zero_add _)
      · cases c
        · cases hm
        · obtain ⟨g, hg, rfl⟩ := List.mem_map.mp hm
          refine ⟨g, ?_, rfl⟩
          simp [Fmt.sums, Fmt.value] at hg
          rcases hg with rfl | rfl
          · exact (o1.add (Acc.prod (fun h => Fmt.mul_near hy hz h) hp) hr1).congr rfl rfl (zero_add _)
          · exact (o1.fma_mul hy hz hr1).congr rfl rfl (zero_add _)
    have e1 : |F.toReal x| * F.eta + F.eta = (|F.toReal x| + 1) * F.eta := by ring
    have := hg.mul (x := x) (y := A.mul x g) (by
      rw [e1]
      exact part_le h1 (by omega) (by positivity) le_rfl) (H.mul x g hx hg.fin)
    exact Mix.accurate (this.congr rfl rfl e1)

/-- A function of four arguments. -/
theorem MixOps.quad {A : Arith (BitVec w)} (H : MixOps F A) {c : Bool} {op : QuadOp} {x y z u r : BitVec w} (hx : IsFin F x)
    (hy : IsFin F y) (hz : IsFin F z) (hu : IsFin F u)
    (hr : (quadMix F op (F.toReal x) (F.toReal y) (F.toReal z) (F.toReal u)).Fits F) (hm : r ∈ Contract.mix4 F c A op x y z u) :
    (quadMix F op (F.toReal x) (F.toReal y) (F.toReal z) (F.toReal u)).Accurate F r := by
  have he := F.eta_pos
  unfold Mix.Fits at hr
  cases op with
  | sum =>
    obtain rfl : r = A.add (A.add x y) (A.add z u) := by
      rcases List.mem_cons.mp hm with h | hm
      · exact h
      · cases c <;> cases hm
    rw [H.add, H.add, H.add]
    dsimp only [quadMix] at hr
    have a1 := abs_nonneg (F.toReal x)
    have a2 := abs_nonneg (F.toReal y)
    have a3 := abs_nonneg (F.toReal z)
    have a4 := abs_nonneg (F.toReal u)
    have s1 := (Acc.exact hx).add (Acc.exact hy) (part_le hr (by omega) (by linarith) (by linarith))
    have s2 := (Acc.exact hz).add (Acc.exact hu) (part_le hr (by omega) (by linarith) (by linarith))
    have s3 := s1.add s2 (part_le hr (by omega) (by linarith) (by linarith))
    exact Mix.accurate (s3.congr (by simp only [quadMix]; ring) (by simp only [quadMix]; ring) (by simp [quadMix]))
  | mix =>
    dsimp only [quadMix] at hr
    have a1 := abs_nonneg (F.toReal x * F.toReal y)
    have a2 := abs_nonneg (F.toReal z * F.toReal u)
    have hp : |F.toReal x * F.toReal y| ≤ 2 ^ F.bias := by
      have := part_le hr (Nat.zero_le 2) a1 (by linarith)
      rwa [pow_zero, one_mul] at this
    have hq : |F.toReal z * F.toReal u| ≤ 2 ^ F.bias := by
      have := part_le hr (Nat.zero_le 2) a2 (by linarith)
      rwa [pow_zero, one_mul] at this
    have hr1 := part_le (t := |F.toReal x * F.toReal y| + |F.toReal z * F.toReal u| + (F.eta + F.eta)) hr
      (show 1 ≤ 2 by omega) (by linarith) (by linarith)
    have e : F.eta + F.eta = 2 * F.eta := by ring
    refine Mix.accurate (M := quadMix F .mix _ _ _ _) ?_
    have key : r = A.add (A.mul x y) (A.mul z u) ∨ r = F.add (F.mul x y) (F.mul z u) ∨ r = F.fma x y (F.mul z u) ∨
        r = F.fma z u (F.mul x y) := by
      rcases List.mem_cons.mp hm with rfl | hm
      · exact .inl rfl
      · cases c
        · cases hm
        · simp [Fmt.sums, Fmt.value] at hm
          exact .inr hm
    have m1 := Acc.prod (fun h => Fmt.mul_near hx hy h) hp
    have m2 := Acc.prod (fun h => Fmt.mul_near hz hu h) hq
    rcases key with rfl | rfl | rfl | rfl
    · rw [H.add]
      exact ((Acc.prod (H.mul x y hx hy) hp).add (Acc.prod (H.mul z u hz hu) hq) hr1).congr rfl rfl e
    · exact (m1.add m2 hr1).congr rfl rfl e
    · exact (m2.fma_mul hx hy (by rw [add_comm |F.toReal z * F.toReal u|]; exact hr1)).congr (add_comm _ _) (add_comm _ _) e
    · exact (m1.fma_mul hz hu hr1).congr rfl rfl e

end Nova
