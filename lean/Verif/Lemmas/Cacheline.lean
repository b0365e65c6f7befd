import Verif.Lemmas.Buffers
import Verif.Lemmas.Backends
import Verif.Model.SimdMemory

/-!
# The loops of simd_memory.hpp and simd_pan.hpp (helper lemmas)
-/

namespace Nova
open Spec
variable {α ρ : Type}

section
variable {I : VecImpl α} {body : Nat → ρ → Exec α ρ} {R : Nat → ρ} {W : Nat → Mem α} {J : Nat}

theorem unrollTmpl_seq
    (h : ∀ j, j < J → body (j * I.size) (R j) (W j) = .ok (R (j + 1), W (j + 1))) :
    ∀ k j, j + k ≤ J →
      unrollTmpl I body (k * I.size) (j * I.size) (R j) (W j) = .ok (R (j + k), W (j + k))
  | 0, j, _ => by
      rw [unrollTmpl, if_pos (by omega)]; rfl
  | k + 1, j, hj => by
      have hp := I.size_pos
      have e1 : (k + 1) * I.size = k * I.size + I.size := Nat.succ_mul _ _
      rw [unrollTmpl, if_neg (by omega), dif_neg (by omega), Exec.bind_ok (h j (by omega))]
      have e2 : (k + 1) * I.size - I.size = k * I.size := by omega
      have e3 : j * I.size + I.size = (j + 1) * I.size := (Nat.succ_mul _ _).symm
      rw [e2, e3, unrollTmpl_seq h k (j + 1) (by omega)]
      have e4 : j + 1 + k = j + (k + 1) := by omega
      rw [e4]

theorem cachelineLoop_seq {run : Nat → ρ → Exec α ρ} {k : Nat} {n : BitVec 32}
    (hpl : I.perLine = k * I.size) (hk : 0 < k) (hpl2 : I.perLine < 2 ^ 32)
    (hn : I.perLine ≤ n.toNat) (hJ : J = n.toNat / I.perLine * k)
    (h : ∀ j, j + k ≤ J → run (j * I.size) (R j) (W j) = .ok (R (j + k), W (j + k))) :
    cachelineLoop I run n (R 0) (W 0) = .ok (R J, W J) := by
  have hpos : 0 < I.perLine := by rw [hpl]; exact Nat.mul_pos hk I.size_pos
  unfold cachelineLoop
  simp only
  rw [doWhile_eq_iterM, tripCount_div hpos hpl2 hn]
  have key := iterM_seq (body := (fun (s : Nat × ρ) => do
      let (off, r) := s
      let r ← run off r
      pure (off + I.perLine, r)))
    (fun q => (q * I.perLine, R (q * k))) (fun q => W (q * k)) (n.toNat / I.perLine) (by
      intro q hq
      simp only
      have e1 : q * I.perLine = q * k * I.size := by rw [hpl, Nat.mul_assoc]
      have hqk : q * k + k ≤ J := by
        rw [hJ, ← Nat.succ_mul]; exact Nat.mul_le_mul_right _ hq
      rw [e1, Exec.bind_ok (h (q * k) hqk)]
      simp only [Exec.pure_run, Nat.succ_mul]
      rw [← e1])
  simp only [Nat.zero_mul] at key
  rw [Exec.bind_ok key, hJ]
  rfl

end

section
variable {I : VecImpl α} {al : Nat}

theorem cacheline_unroll (hI : I.Lawful al) {body : Nat → ρ → Exec α ρ} {R : Nat → ρ}
    {W : Nat → Mem α} {n : BitVec 32} (hn : 0 < n.toNat) (hmul : I.perLine ∣ n.toNat)
    (h : ∀ j, (j + 1) * I.size ≤ n.toNat →
      body (j * I.size) (R j) (W j) = .ok (R (j + 1), W (j + 1))) :
    cachelineLoop I (unrollTmpl I body I.perLine) n (R 0) (W 0)
      = .ok (R (n.toNat / I.size), W (n.toNat / I.size)) := by
  obtain ⟨k, hpl, hk⟩ := Lawful.line_eq hI
  have hJ : n.toNat / I.size = n.toNat / I.perLine * k := by
    obtain ⟨q, hq⟩ := hmul
    rw [hq, Nat.mul_div_cancel_left _ hI.line_pos, hpl]
    rw [Nat.mul_right_comm, Nat.mul_div_cancel _ I.size_pos, Nat.mul_comm]
  have hb : ∀ j, j < n.toNat / I.size → body (j * I.size) (R j) (W j) = .ok (R (j + 1), W (j + 1)) := by
    intro j hj
    apply h
    calc (j + 1) * I.size ≤ n.toNat / I.size * I.size := Nat.mul_le_mul_right _ hj
      _ ≤ n.toNat := Nat.div_mul_le_self _ _
  refine cachelineLoop_seq hpl hk hI.line_small (Nat.le_of_dvd hn hmul) hJ ?_
  intro j hj
  rw [hpl]
  exact unrollTmpl_seq hb k j hj

theorem unroll_all {body : Nat → ρ → Exec α ρ} {R : Nat → ρ} {W : Nat → Mem α} {N : Nat}
    (hmul : I.size ∣ N)
    (h : ∀ j, (j + 1) * I.size ≤ N → body (j * I.size) (R j) (W j) = .ok (R (j + 1), W (j + 1))) :
    unrollTmpl I body N 0 (R 0) (W 0) = .ok (R (N / I.size), W (N / I.size)) := by
  obtain ⟨k, rfl⟩ := hmul
  rw [Nat.mul_div_cancel_left _ I.size_pos]
  have := unrollTmpl_seq (J := k) (I := I) (body := body) (R := R) (W := W) (by
    intro j hj
    apply h
    rw [Nat.mul_comm]
    exact Nat.mul_le_mul_left _ hj) k 0 (by omega)
  rw [Nat.mul_comm]
  simpa using this

theorem line_size_dvd (hI : I.Lawful al) {n : Nat} (h : I.perLine ∣ n) : I.size ∣ n :=
  Nat.dvd_trans hI.line_dvd h

theorem div_mul_size {n : Nat} (h : I.size ∣ n) : n / I.size * I.size = n := Nat.div_mul_cancel h

/-- Writing register `j` of the output. -/
theorem storeReg {store : I.V → Nat → Exec α Unit} {m : Mem α} {out n j : Nat} {y : Nat → α} {v : I.V}
    (hs : store v (out + j * I.size) = writeVec v (out + j * I.size))
    (hout : Allocated m out n) (hj : (j + 1) * I.size ≤ n)
    (hv : ∀ l : Fin I.size, v l = y (j * I.size + l)) :
    store v (out + j * I.size) (overwrite m out (j * I.size) y)
      = .ok ((), overwrite m out ((j + 1) * I.size) y) := by
  have e : (j + 1) * I.size = j * I.size + I.size := Nat.succ_mul _ _
  rw [hs, writeVec_overwrite (y := y) _ hv, e]
  intro i hi
  rw [Nat.add_assoc]
  exact hout _ (by omega)

theorem aligned_reg (hI : I.Lawful al) {p j : Nat} (h : al ∣ p) : al ∣ p + j * I.size :=
  dvd_add_mul h hI.al_dvd

end

/-- The address condition of an aligned / unaligned access of a target: the aligned access needs a
multiple of the alignment; Altivec has no unaligned access. -/
def Target.AddrOk (t : Target) (aligned : Bool) (p : Nat) : Prop :=
  (aligned = true ∨ t = .altivec) → t.align ∣ p

theorem Target.store_if (t : Target) (E : Env α) {aligned : Bool} {p j : Nat} (h : t.AddrOk aligned p)
    (v : (t.vec E).V) :
    storeAlignedIf (t.vec E) aligned v (p + j * (t.vec E).size)
      = writeVec v (p + j * (t.vec E).size) := by
  unfold storeAlignedIf
  cases aligned with
  | true => exact (t.lawful E).storeAligned v _ (aligned_reg (t.lawful E) (h (Or.inl rfl)))
  | false =>
    by_cases ht : t = .altivec
    · subst ht
      exact ((Target.altivec).lawful E).storeAligned v _
        (aligned_reg (Target.altivec.lawful E) (h (Or.inr rfl)))
    · exact (t.lawfulUnaligned ht E).store v _

theorem Target.load_if (t : Target) (E : Env α) {aligned : Bool} {p j : Nat} (h : t.AddrOk aligned p) :
    loadAlignedIf (t.vec E) aligned (p + j * (t.vec E).size)
      = readVec (t.vec E).size (p + j * (t.vec E).size) := by
  unfold loadAlignedIf
  cases aligned with
  | true => exact (t.lawful E).loadAligned _ (aligned_reg (t.lawful E) (h (Or.inl rfl)))
  | false =>
    by_cases ht : t = .altivec
    · subst ht
      exact ((Target.altivec).lawful E).loadAligned _
        (aligned_reg (Target.altivec.lawful E) (h (Or.inr rfl)))
    · exact (t.lawfulUnaligned ht E).load _

theorem assertNonzero_ok {E : Env α} {n : BitVec 32} (hn : 0 < n.toNat) (m : Mem α) :
    assertNonzero E n m = .ok ((), m) := by
  unfold assertNonzero
  rw [if_neg]
  · rfl
  · rintro ⟨rfl, -⟩
    simp at hn

end Nova
