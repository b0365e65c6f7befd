import Mathlib.Algebra.Order.BigOperators.Group.Finset
import Mathlib.Algebra.BigOperators.Intervals
import Mathlib.Algebra.BigOperators.Fin
import Verif.Float.Error

/-!
# The rounding error of sums, whatever their order (helper lemmas, no properties)

`Acc d S A e r`: the finite pattern `r` is the sum `S` of some terms, computed with at most `d` additions on the way
from a term to the result.  `A` bounds the sum of the magnitudes of the terms, `e` the sum of the errors of the terms
themselves.
-/

namespace Nova.FP
open Finset

variable {w : Nat} {F : Fmt w}

structure Acc (F : Fmt w) (d : ℕ) (S A e : ℝ) (r : BitVec w) : Prop where
  fin : F.isFinite r = true
  abs : |S| ≤ A
  e0 : 0 ≤ e
  err : |F.toReal r - S| ≤ (1 + F.u) ^ d * (A + e) - A

namespace Acc
variable {d d' : ℕ} {S A e T B f : ℝ} {r s : BitVec w}

theorem one_le (F : Fmt w) (d : ℕ) : (1 : ℝ) ≤ (1 + F.u) ^ d :=
  one_le_pow₀ (by linarith [F.u_pos])

theorem pow_mono (F : Fmt w) (h : d ≤ d') : (1 + F.u) ^ d ≤ (1 + F.u) ^ d' :=
  pow_le_pow_right₀ (by linarith [F.u_pos]) h

theorem a0 (h : Acc F d S A e r) : 0 ≤ A := (abs_nonneg _).trans h.abs

theorem ae0 (h : Acc F d S A e r) : 0 ≤ A + e := add_nonneg h.a0 h.e0

theorem le (h : Acc F d S A e r) : |F.toReal r| ≤ (1 + F.u) ^ d * (A + e) := by
  have h1 := h.err
  have h2 := h.abs
  have : |F.toReal r| ≤ |F.toReal r - S| + |S| := by
    have := abs_add_le (F.toReal r - S) S; rwa [sub_add_cancel] at this
  linarith

theorem mono (h : Acc F d S A e r) (hd : d ≤ d') : Acc F d' S A e r :=
  ⟨h.fin, h.abs, h.e0, h.err.trans (by
    have := mul_le_mul_of_nonneg_right (pow_mono F hd) h.ae0; linarith)⟩

theorem mono_e (h : Acc F d S A e r) (hf : e ≤ f) : Acc F d S A f r :=
  ⟨h.fin, h.abs, h.e0.trans hf, h.err.trans (by
    have := mul_le_mul_of_nonneg_left (add_le_add_right hf A) (zero_le_one.trans (one_le F d)); linarith)⟩

theorem mono_a (h : Acc F d S A e r) (hf : A ≤ B) : Acc F d S B e r :=
  ⟨h.fin, h.abs.trans hf, h.e0, h.err.trans (by
    have := one_le F d
    have h2 := mul_le_mul_of_nonneg_right this (sub_nonneg.mpr hf)
    nlinarith)⟩

theorem congr (h : Acc F d S A e r) (hS : S = T) (hA : A = B) (he : e = f) : Acc F d T B f r := by
  subst hS; subst hA; subst he; exact h

/-- A given number. -/
theorem exact (h : F.isFinite r = true) : Acc F 0 (F.toReal r) |F.toReal r| 0 r :=
  ⟨h, le_rfl, le_rfl, by simp⟩

theorem zero (d : ℕ) : Acc F d 0 0 0 F.posZero := by
  have : Acc F 0 (F.toReal F.posZero) |F.toReal F.posZero| 0 F.posZero := exact (by
    rw [Fmt.posZero]; exact F.isFinite_pack _ F.infCode_pos)
  have h0 : F.toReal F.posZero = 0 := by
    rw [Fmt.posZero, F.toReal_pack _ F.infCode_pos, mag_zero]; simp
  rw [h0, abs_zero] at this
  exact this.mono (Nat.zero_le _)

/-- A result of a multiplication. -/
theorem near {v : ℝ} (h : F.Near v r) : Acc F 1 v |v| F.eta r := by
  have hu := F.u_pos
  have he := F.eta_pos
  refine ⟨h.1, le_rfl, he.le, h.2.trans ?_⟩
  have : 0 ≤ F.u * |v| := mul_nonneg hu.le (abs_nonneg _)
  have h2 : 0 ≤ F.u * F.eta := mul_nonneg hu.le he.le
  rw [pow_one]
  apply max_le <;> nlinarith

theorem nearRel {v : ℝ} (h : F.NearRel v r) : Acc F 1 v |v| 0 r := by
  refine ⟨h.1, le_rfl, le_rfl, h.2.trans ?_⟩
  rw [pow_one]; linarith

theorem add (hr : Acc F d S A e r) (hs : Acc F d T B f s)
    (h : (1 + F.u) ^ d * (A + B + (e + f)) ≤ 2 ^ F.bias) :
    Acc F (d + 1) (S + T) (A + B) (e + f) (F.add r s) := by
  have hu := F.u_pos
  have h1 := hr.le
  have h2 := hs.le
  have h3 : |F.toReal r + F.toReal s| ≤ (1 + F.u) ^ d * (A + B + (e + f)) := by
    refine (abs_add_le _ _).trans ?_
    linarith
  obtain ⟨g1, g2⟩ := Fmt.add_near hr.fin hs.fin (h3.trans h)
  refine ⟨g1, (abs_add_le _ _).trans (add_le_add hr.abs hs.abs), add_nonneg hr.e0 hs.e0, ?_⟩
  have h4 : |F.toReal r + F.toReal s - (S + T)| ≤ (1 + F.u) ^ d * (A + B + (e + f)) - (A + B) := by
    have := abs_add_le (F.toReal r - S) (F.toReal s - T)
    have e1 := hr.err
    have e2 := hs.err
    have : |F.toReal r + F.toReal s - (S + T)| ≤ |F.toReal r - S| + |F.toReal s - T| := by
      rwa [show F.toReal r + F.toReal s - (S + T) = (F.toReal r - S) + (F.toReal s - T) by ring]
    linarith
  have h5 : |F.toReal (F.add r s) - (S + T)| ≤
      |F.toReal (F.add r s) - (F.toReal r + F.toReal s)| + |F.toReal r + F.toReal s - (S + T)| := by
    have := abs_add_le (F.toReal (F.add r s) - (F.toReal r + F.toReal s)) (F.toReal r + F.toReal s - (S + T))
    rwa [sub_add_sub_cancel] at this
  have h6 := mul_le_mul_of_nonneg_left h3 hu.le
  rw [pow_succ]
  linarith

/-- A loop that adds `k` numbers to a number. -/
theorem fold {g : BitVec w → BitVec w → BitVec w} (hg : ∀ a b, g a b = F.add a b) {acc x : ℕ → BitVec w} {T' B' f' : ℕ → ℝ}
    (h0 : Acc F d S A e (acc 0)) (k : ℕ) (hk : ∀ i < k, acc (i + 1) = g (acc i) (x i))
    (hx : ∀ i < k, Acc F d (T' i) (B' i) (f' i) (x i))
    (h : (1 + F.u) ^ (d + k) * (A + ∑ i ∈ range k, B' i + (e + ∑ i ∈ range k, f' i)) ≤ 2 ^ F.bias) :
    Acc F (d + k) (S + ∑ i ∈ range k, T' i) (A + ∑ i ∈ range k, B' i) (e + ∑ i ∈ range k, f' i) (acc k) := by
  induction k with
  | zero => simpa using h0
  | succ k ih =>
    have hB : 0 ≤ B' k := (hx k (Nat.lt_succ_self k)).a0
    have hf : 0 ≤ f' k := (hx k (Nat.lt_succ_self k)).e0
    rw [sum_range_succ, sum_range_succ] at h
    have hpos : 0 ≤ A + ∑ i ∈ range k, B' i + (e + ∑ i ∈ range k, f' i) :=
      add_nonneg (add_nonneg h0.a0 (sum_nonneg fun i hi => (hx i ((mem_range.mp hi).trans (Nat.lt_succ_self k))).a0))
        (add_nonneg h0.e0 (sum_nonneg fun i hi => (hx i ((mem_range.mp hi).trans (Nat.lt_succ_self k))).e0))
    have h' : (1 + F.u) ^ (d + k) * ((A + ∑ i ∈ range k, B' i) + B' k + ((e + ∑ i ∈ range k, f' i) + f' k)) ≤ 2 ^ F.bias := by
      refine le_trans ?_ h
      have := mul_le_mul_of_nonneg_right (pow_mono F (show d + k ≤ d + (k + 1) by omega))
        (show 0 ≤ (A + ∑ i ∈ range k, B' i) + B' k + ((e + ∑ i ∈ range k, f' i) + f' k) by linarith)
      refine this.trans (le_of_eq ?_)
      ring
    have ih' := ih (fun i hi => hk i (by omega)) (fun i hi => hx i (by omega)) (by
      refine le_trans ?_ h'
      exact mul_le_mul_of_nonneg_left (by linarith) (zero_le_one.trans (one_le F _)))
    rw [hk k (Nat.lt_succ_self k), hg, sum_range_succ, sum_range_succ, sum_range_succ]
    have := ih'.add ((hx k (Nat.lt_succ_self k)).mono (Nat.le_add_right d k)) h'
    exact this.congr (by ring) (by ring) (by ring)

/-- The same in the form of a tolerance. -/
theorem tol (h : Acc F d S A e r) : |F.toReal r - S| ≤ ((1 + F.u) ^ d - 1) * A + (1 + F.u) ^ d * e :=
  h.err.trans (le_of_eq (by ring))

end Acc
end Nova.FP
