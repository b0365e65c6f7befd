import Verif.Lemmas.Contract
import Verif.Model.ContractMeters
import Verif.Props.C79_Sums

/-!
# Sums of squares with fused additions (helper lemmas, no properties)
-/

namespace Nova
open FP Spec Finset

variable {w : Nat} {F : Fmt w}

namespace FP.Acc
variable {d : ℕ} {S A e : ℝ} {r : BitVec w}

/-- A product is added with one rounding. -/
theorem fma_mul (h : Acc F d S A e r) {x y : BitVec w} (hx : IsFin F x) (hy : IsFin F y)
    (hr : (1 + F.u) ^ d * (A + |F.toReal x * F.toReal y| + (e + F.eta)) ≤ 2 ^ F.bias) :
    Acc F (d + 1) (S + F.toReal x * F.toReal y) (A + |F.toReal x * F.toReal y|) (e + F.eta) (F.fma x y r) := by
  have hu := F.u_pos
  have he := F.eta_pos
  have h1 := one_le F d
  have hle := h.le
  have herr := h.err
  have hab := h.abs
  generalize hv' : F.toReal x * F.toReal y = v at *
  have hv := abs_nonneg v
  have g0 : |v + F.toReal r| ≤ |v| + (1 + F.u) ^ d * (A + e) := by
    refine (abs_add_le _ _).trans ?_
    linarith
  have p1 : |v| ≤ (1 + F.u) ^ d * |v| := le_mul_of_one_le_left hv h1
  have p2 : F.eta ≤ (1 + F.u) ^ d * F.eta := le_mul_of_one_le_left he.le h1
  have g1 : |v + F.toReal r| ≤ 2 ^ F.bias := by
    refine g0.trans (le_trans ?_ hr)
    nlinarith
  obtain ⟨n1, n2⟩ := Fmt.fma_near hx hy h.fin (by rw [hv']; exact g1)
  rw [hv'] at n2
  refine ⟨n1, (abs_add_le _ _).trans (by linarith), add_nonneg h.e0 he.le, ?_⟩
  have n3 : |F.toReal (F.fma x y r) - (v + F.toReal r)| ≤ F.u * (|v| + (1 + F.u) ^ d * (A + e)) + F.eta := by
    refine n2.trans (max_le ?_ ?_)
    · have := mul_le_mul_of_nonneg_left g0 hu.le; linarith
    · have : 0 ≤ F.u * (|v| + (1 + F.u) ^ d * (A + e)) := mul_nonneg hu.le ((abs_nonneg _).trans g0)
      linarith
  have n4 : |F.toReal (F.fma x y r) - (S + v)| ≤
      |F.toReal (F.fma x y r) - (v + F.toReal r)| + |F.toReal r - S| := by
    have := abs_add_le (F.toReal (F.fma x y r) - (v + F.toReal r)) (F.toReal r - S)
    rwa [show F.toReal (F.fma x y r) - (v + F.toReal r) + (F.toReal r - S) = F.toReal (F.fma x y r) - (S + v) by ring] at this
  have q1 : 0 ≤ F.u * ((1 + F.u) ^ d * |v| - |v|) := mul_nonneg hu.le (by linarith)
  have q2 : 0 ≤ F.u * ((1 + F.u) ^ d * F.eta) := by positivity
  have q3 : (1 + F.u) ^ (d + 1) = (1 + F.u) ^ d + F.u * (1 + F.u) ^ d := by rw [pow_succ]; ring
  rw [q3]
  generalize |v| = V at *
  nlinarith

/-- A square is added with one rounding. -/
theorem fma (h : Acc F d S A e r) {x : BitVec w} (hx : IsFin F x)
    (hr : (1 + F.u) ^ d * (A + F.toReal x * F.toReal x + (e + F.eta)) ≤ 2 ^ F.bias) :
    Acc F (d + 1) (S + F.toReal x * F.toReal x) (A + F.toReal x * F.toReal x) (e + F.eta) (F.fma x x r) := by
  have hv := abs_of_nonneg (mul_self_nonneg (F.toReal x))
  have := h.fma_mul hx hx (by rw [hv]; exact hr)
  rwa [hv] at this

/-- A product of a given number and a computed one. -/
theorem mul (h : Acc F d S A e r) {x y : BitVec w}
    (hr : (1 + F.u) ^ d * (|F.toReal x| * A + (|F.toReal x| * e + F.eta)) ≤ 2 ^ F.bias)
    (hy : |F.toReal x * F.toReal r| ≤ 2 ^ F.bias → F.Near (F.toReal x * F.toReal r) y) :
    Acc F (d + 1) (F.toReal x * S) (|F.toReal x| * A) (|F.toReal x| * e + F.eta) y := by
  have hu := F.u_pos
  have he := F.eta_pos
  have h1 := one_le F d
  have hv := abs_nonneg (F.toReal x)
  have g0 : |F.toReal x * F.toReal r| ≤ (1 + F.u) ^ d * (|F.toReal x| * A + |F.toReal x| * e) := by
    rw [abs_mul]
    refine (mul_le_mul_of_nonneg_left h.le hv).trans (le_of_eq (by ring))
  have p2 : F.eta ≤ (1 + F.u) ^ d * F.eta := le_mul_of_one_le_left he.le h1
  have g1 : |F.toReal x * F.toReal r| ≤ 2 ^ F.bias := by
    refine g0.trans (le_trans ?_ hr)
    have : (1 + F.u) ^ d * (|F.toReal x| * A + (|F.toReal x| * e + F.eta)) =
      (1 + F.u) ^ d * (|F.toReal x| * A + |F.toReal x| * e) + (1 + F.u) ^ d * F.eta := by ring
    linarith
  obtain ⟨n1, n2⟩ := hy g1
  refine ⟨n1, by rw [abs_mul]; exact mul_le_mul_of_nonneg_left h.abs hv,
    add_nonneg (mul_nonneg hv h.e0) he.le, ?_⟩
  have n3 : |F.toReal y - F.toReal x * F.toReal r| ≤
      F.u * ((1 + F.u) ^ d * (|F.toReal x| * A + |F.toReal x| * e)) + F.eta := by
    refine n2.trans (max_le ?_ ?_)
    · have := mul_le_mul_of_nonneg_left g0 hu.le; linarith
    · have := mul_nonneg hu.le ((abs_nonneg _).trans g0)
      linarith
  have n4 : |F.toReal y - F.toReal x * S| ≤ |F.toReal y - F.toReal x * F.toReal r| + |F.toReal x| * |F.toReal r - S| := by
    have := abs_add_le (F.toReal y - F.toReal x * F.toReal r) (F.toReal x * (F.toReal r - S))
    rw [abs_mul (F.toReal x) (F.toReal r - S)] at this
    rwa [show F.toReal y - F.toReal x * F.toReal r + F.toReal x * (F.toReal r - S) = F.toReal y - F.toReal x * S by ring] at this
  have n5 := mul_le_mul_of_nonneg_left h.err hv
  have q2 : 0 ≤ F.u * ((1 + F.u) ^ d * F.eta) := by positivity
  have q3 : (1 + F.u) ^ (d + 1) = (1 + F.u) ^ d + F.u * (1 + F.u) ^ d := by rw [pow_succ]; ring
  rw [q3]
  nlinarith

/-- A square is added, with one rounding or with two. -/
theorem squareAdd (h : Acc F d S A e r) (hd : 1 ≤ d) {c : Bool} {x y : BitVec w} (hx : IsFin F x)
    (hr : (1 + F.u) ^ d * (A + F.toReal x * F.toReal x + (e + F.eta)) ≤ 2 ^ F.bias)
    (hy : y ∈ Contract.squareAdd F c r x) :
    Acc F (d + 1) (S + F.toReal x * F.toReal x) (A + F.toReal x * F.toReal x) (e + F.eta) y := by
  have hv := mul_self_nonneg (F.toReal x)
  have h1 := one_le F d
  have hxx : |F.toReal x * F.toReal x| ≤ 2 ^ F.bias := by
    rw [abs_of_nonneg hv]
    refine le_trans (le_trans ?_ (le_mul_of_one_le_left (by linarith [h.a0, h.e0, F.eta_pos]) h1)) hr
    linarith [h.a0, h.e0, F.eta_pos]
  have hm : F.add r (F.mul x x) = y ∨ y = F.fma x x r := by
    unfold Contract.squareAdd Fmt.sums at hy
    cases c
    · simp [Fmt.value] at hy; exact .inl hy.symm
    · simp [Fmt.value] at hy; rcases hy with hy | hy
      · exact .inl hy.symm
      · exact .inr hy
  rcases hm with rfl | rfl
  · exact h.add ((square_acc (Fmt.mul_near hx hx hxx)).mono hd) hr
  · exact h.fma hx hr

end FP.Acc

/-- Four squares are added, each with one rounding or with two. -/
theorem fourSquares_acc {c : Bool} {x0 x1 x2 x3 y : BitVec w} (h0 : IsFin F x0) (h1 : IsFin F x1) (h2 : IsFin F x2)
    (h3 : IsFin F x3)
    (hr : (1 + F.u) ^ 4 * (F.toReal x0 * F.toReal x0 + F.toReal x1 * F.toReal x1 + F.toReal x2 * F.toReal x2 +
      F.toReal x3 * F.toReal x3 + 4 * F.eta) ≤ 2 ^ F.bias) (hy : y ∈ Contract.fourSquares F c x0 x1 x2 x3) :
    FP.Acc F 4 (F.toReal x0 * F.toReal x0 + F.toReal x1 * F.toReal x1 + F.toReal x2 * F.toReal x2 + F.toReal x3 * F.toReal x3)
      (F.toReal x0 * F.toReal x0 + F.toReal x1 * F.toReal x1 + F.toReal x2 * F.toReal x2 + F.toReal x3 * F.toReal x3)
      (4 * F.eta) y := by
  have he := F.eta_pos
  have v0 := mul_self_nonneg (F.toReal x0)
  have v1 := mul_self_nonneg (F.toReal x1)
  have v2 := mul_self_nonneg (F.toReal x2)
  have v3 := mul_self_nonneg (F.toReal x3)
  have hpow : ∀ d, d ≤ 4 → ∀ t, 0 ≤ t → t ≤ F.toReal x0 * F.toReal x0 + F.toReal x1 * F.toReal x1 + F.toReal x2 * F.toReal x2 +
      F.toReal x3 * F.toReal x3 + 4 * F.eta → (1 + F.u) ^ d * t ≤ 2 ^ F.bias := fun d hd t ht hle =>
    le_trans (mul_le_mul (Acc.pow_mono F hd) hle ht (zero_le_one.trans (Acc.one_le F _))) hr
  have hsq : ∀ x, IsFin F x → F.toReal x * F.toReal x ≤ F.toReal x0 * F.toReal x0 + F.toReal x1 * F.toReal x1 +
      F.toReal x2 * F.toReal x2 + F.toReal x3 * F.toReal x3 + 4 * F.eta →
      FP.Acc F 1 (F.toReal x * F.toReal x) (F.toReal x * F.toReal x) F.eta (F.mul x x) := fun x hx hle =>
    square_acc (Fmt.mul_near hx hx (by
      rw [abs_of_nonneg (mul_self_nonneg _)]
      have := hpow 0 (by omega) _ (mul_self_nonneg (F.toReal x)) hle
      rwa [pow_zero, one_mul] at this))
  have s0 := hsq x0 h0 (by linarith)
  have s1 := hsq x1 h1 (by linarith)
  unfold Contract.fourSquares at hy
  rw [List.mem_flatMap] at hy
  obtain ⟨p, hp, hy⟩ := hy
  rw [List.mem_flatMap] at hy
  obtain ⟨q, hq, hy⟩ := hy
  have hp' : p = F.add (F.mul x0 x0) (F.mul x1 x1) ∨ p = F.fma x0 x0 (F.mul x1 x1) ∨ p = F.fma x1 x1 (F.mul x0 x0) := by
    unfold Fmt.sums at hp
    cases c
    · simp [Fmt.value] at hp; exact .inl hp
    · simpa [Fmt.value] using hp
  have a1 : FP.Acc F 2 (F.toReal x0 * F.toReal x0 + F.toReal x1 * F.toReal x1)
      (F.toReal x0 * F.toReal x0 + F.toReal x1 * F.toReal x1) (F.eta + F.eta) p := by
    rcases hp' with rfl | rfl | rfl
    · exact s0.add s1 (hpow 1 (by omega) _ (by linarith) (by linarith))
    · exact (s1.fma h0 (hpow 1 (by omega) _ (by linarith) (by linarith))).congr (by ring) (by ring) rfl
    · exact s0.fma h1 (hpow 1 (by omega) _ (by linarith) (by linarith))
  have a2 := a1.squareAdd (by omega) h2 (hpow 2 (by omega) _ (by linarith) (by linarith)) hq
  have a3 := a2.squareAdd (by omega) h3 (hpow 3 (by omega) _ (by linarith) (by linarith)) hy
  exact a3.congr rfl rfl (by ring)

/-- The register-level sum of squares of `peak_rms_vec_simd`; `q k l` adds four squares in iteration `k` and lane `l`. -/
def sqrRegWith {α : Type} (I : VecImpl α) (q : Nat → Nat → α → α → α → α → α) (f : I.V) (x : Nat → α) : Nat → I.V
  | 0 => f
  | k + 1 => fun l => I.lane.add (sqrRegWith I q f x k l) (q k l (x (k * (4 * I.size) + 0 * I.size + l))
      (x (k * (4 * I.size) + 1 * I.size + l)) (x (k * (4 * I.size) + 2 * I.size + l)) (x (k * (4 * I.size) + 3 * I.size + l)))

theorem squares_lanes {E : Env (BitVec w)} (hE : Adds F E) (t : Target) {n : ℕ} {x : ℕ → BitVec w} {s : BitVec w}
    {q : Nat → Nat → BitVec w → BitVec w → BitVec w → BitVec w → BitVec w}
    (hq : ∀ k l x0 x1 x2 x3, IsFin F x0 → IsFin F x1 → IsFin F x2 → IsFin F x3 →
      (1 + F.u) ^ 4 * (F.toReal x0 * F.toReal x0 + F.toReal x1 * F.toReal x1 + F.toReal x2 * F.toReal x2 +
        F.toReal x3 * F.toReal x3 + 4 * F.eta) ≤ 2 ^ F.bias →
      FP.Acc F 4 (F.toReal x0 * F.toReal x0 + F.toReal x1 * F.toReal x1 + F.toReal x2 * F.toReal x2 + F.toReal x3 * F.toReal x3)
        (F.toReal x0 * F.toReal x0 + F.toReal x1 * F.toReal x1 + F.toReal x2 * F.toReal x2 + F.toReal x3 * F.toReal x3)
        (4 * F.eta) (q k l x0 x1 x2 x3))
    (hd : 4 * t.size ∣ n) (hs : IsFin F s) (hf : ∀ i < n, IsFin F (x i))
    (hr : SquareSumOk F (n / (4 * t.size) + 4 + t.size) (F.toReal s) (fun i => F.toReal (x i)) n) :
    IsSquareSum F (n / (4 * t.size) + 4 + t.size) (F.toReal s) (fun i => F.toReal (x i)) n
      ((t.vec E).horizontalSum (sqrRegWith (t.vec E) q (fun l => if l.val = 0 then s else E.L.zero) x
        (n / (4 * (t.vec E).size)))) := by
  have hsz := t.vec_size E
  have hL := t.lane_eq E
  have hpos := (t.vec E).size_pos
  rw [← hsz] at hd
  have e0 : n / (4 * t.size) + 4 + t.size = n / (4 * (t.vec E).size) + 4 + (t.vec E).size := by rw [hsz]
  rw [e0] at hr ⊢
  set z := (t.vec E).size with hz
  set K := n / (4 * z) with hK
  have hKn : K * (4 * z) = n := Nat.div_mul_cancel hd
  let a : ℕ → ℝ := fun i => F.toReal (x i) * F.toReal (x i)
  have hlt : ∀ (l : Fin z) k q, k < K → q < 4 → k * (4 * z) + q * z + l < n := by
    intro l k q hk hq
    have h1 : (k + 1) * (4 * z) ≤ n := by rw [← hKn]; exact Nat.mul_le_mul_right _ hk
    have h2 : (q + 1) * z ≤ 4 * z := Nat.mul_le_mul_right _ hq
    rw [Nat.succ_mul] at h1 h2
    have := l.isLt
    omega
  -- one group of four squares
  let G : (ℕ → ℝ) → Fin z → ℕ → ℝ := fun f l k =>
    f (k * (4 * z) + 0 * z + l) + f (k * (4 * z) + 1 * z + l) + f (k * (4 * z) + 2 * z + l) + f (k * (4 * z) + 3 * z + l)
  have hsum : ∀ f : ℕ → ℝ, ∑ l : Fin z, ∑ k ∈ range K, G f l k = ∑ i ∈ range n, f i := by
    intro f
    have := regs_sum f z (K * 4)
    rw [Nat.mul_assoc, hKn] at this
    rw [← this]
    refine Finset.sum_congr rfl fun l _ => ?_
    have : ∀ k, ∑ j ∈ range (k * 4), f (j * z + l) = ∑ j ∈ range k, G f l j := by
      intro k
      induction k with
      | zero => simp
      | succ k ih =>
        rw [Nat.succ_mul, Finset.sum_range_succ, Finset.sum_range_succ, Finset.sum_range_succ, Finset.sum_range_succ, ih,
          Finset.sum_range_succ (fun j => G f l j)]
        simp only [G]
        have c : ∀ q, (k * 4 + q) * z + (l : ℕ) = k * (4 * z) + q * z + l := fun q => by ring
        rw [← c 0, ← c 1, ← c 2, ← c 3]
        simp only [Nat.add_zero]
        ring
    exact (this K).symm
  have ha0 : ∀ i, 0 ≤ a i := fun i => mul_self_nonneg _
  have hG0 : ∀ l k, 0 ≤ G a l k := fun l k => by
    simp only [G]; linarith [ha0 (k * (4 * z) + 0 * z + l), ha0 (k * (4 * z) + 1 * z + l), ha0 (k * (4 * z) + 2 * z + l),
      ha0 (k * (4 * z) + 3 * z + l)]
  have heta := F.eta_pos
  have hcount : ∑ _l : Fin z, ∑ _k ∈ range K, 4 * F.eta = n * F.eta := by
    simp only [Finset.sum_const, Finset.card_range, Finset.card_univ, Fintype.card_fin, nsmul_eq_mul]
    rw [← hKn]; push_cast; ring
  have hs0 : ∑ l : Fin z, (if l.val = 0 then F.toReal s else 0) = F.toReal s := by
    rw [Finset.sum_eq_single (⟨0, hpos⟩ : Fin z)]
    · simp
    · intro b _ hb; rw [if_neg fun h => hb (Fin.ext h)]
    · intro h; exact absurd (Finset.mem_univ _) h
  have hs1 : ∑ l : Fin z, (if l.val = 0 then |F.toReal s| else 0) = |F.toReal s| := by
    rw [Finset.sum_eq_single (⟨0, hpos⟩ : Fin z)]
    · simp
    · intro b _ hb; rw [if_neg fun h => hb (Fin.ext h)]
    · intro h; exact absurd (Finset.mem_univ _) h
  have hini : ∀ l : Fin z, 0 ≤ (if l.val = 0 then |F.toReal s| else 0) := fun l => by split <;> positivity
  -- the contents of a lane are bounded by the total
  have hlane_le : ∀ l : Fin z, (if l.val = 0 then |F.toReal s| else 0) + ∑ k ∈ range K, G a l k + ∑ _k ∈ range K, 4 * F.eta ≤
      |F.toReal s| + ∑ i ∈ range n, a i + n * F.eta := by
    intro l
    have h1 : (if l.val = 0 then |F.toReal s| else 0) ≤ |F.toReal s| := by split <;> [exact le_rfl; positivity]
    have h2 : ∑ k ∈ range K, G a l k ≤ ∑ i ∈ range n, a i := by
      rw [← hsum a]
      exact Finset.single_le_sum (f := fun l : Fin z => ∑ k ∈ range K, G a l k)
        (fun l _ => Finset.sum_nonneg fun k _ => hG0 l k) (Finset.mem_univ l)
    have h3 : ∑ _k ∈ range K, 4 * F.eta ≤ n * F.eta := by
      rw [← hcount]
      exact Finset.single_le_sum (f := fun _ : Fin z => ∑ _k ∈ range K, 4 * F.eta)
        (fun l _ => Finset.sum_nonneg fun k _ => by positivity) (Finset.mem_univ l)
    linarith
  have hpow : ∀ d, d ≤ K + 4 + z → ∀ y, 0 ≤ y → y ≤ |F.toReal s| + ∑ i ∈ range n, a i + n * F.eta →
      (1 + F.u) ^ d * y ≤ 2 ^ F.bias := fun d hd y hy hle =>
    le_trans (mul_le_mul (Acc.pow_mono F hd) hle hy (zero_le_one.trans (Acc.one_le F _))) hr
  have hgroup_le : ∀ (l : Fin z) k, k < K → G a l k + 4 * F.eta ≤ |F.toReal s| + ∑ i ∈ range n, a i + n * F.eta := by
    intro l k hk
    refine le_trans ?_ (hlane_le l)
    have h1 : G a l k ≤ ∑ k ∈ range K, G a l k :=
      Finset.single_le_sum (f := fun k => G a l k) (fun k _ => hG0 l k) (mem_range.mpr hk)
    have h2 : 4 * F.eta ≤ ∑ _k ∈ range K, 4 * F.eta :=
      Finset.single_le_sum (f := fun _ => 4 * F.eta) (fun k _ => by positivity) (mem_range.mpr hk)
    linarith [hini l]
  have hgroup : ∀ (l : Fin z) k, k < K → FP.Acc F 4 (G a l k) (G a l k) (4 * F.eta)
      (q k l (x (k * (4 * z) + 0 * z + l)) (x (k * (4 * z) + 1 * z + l)) (x (k * (4 * z) + 2 * z + l))
        (x (k * (4 * z) + 3 * z + l))) := by
    intro l k hk
    refine hq k l _ _ _ _ (hf _ (hlt l k 0 hk (by omega))) (hf _ (hlt l k 1 hk (by omega))) (hf _ (hlt l k 2 hk (by omega)))
      (hf _ (hlt l k 3 hk (by omega))) ?_
    exact hpow 4 (by omega) _ (add_nonneg (hG0 l k) (by positivity)) (hgroup_le l k hk)
  have hlane : ∀ l : Fin z, FP.Acc F (4 + K) ((if l.val = 0 then F.toReal s else 0) + ∑ k ∈ range K, G a l k)
      ((if l.val = 0 then |F.toReal s| else 0) + ∑ k ∈ range K, G a l k) (∑ _k ∈ range K, 4 * F.eta)
      (sqrRegWith (t.vec E) q (fun l => if l.val = 0 then s else E.L.zero) x K l) := by
    intro l
    have h0 : FP.Acc F 4 (if l.val = 0 then F.toReal s else 0) (if l.val = 0 then |F.toReal s| else 0) 0
        (if l.val = 0 then s else E.L.zero) := by
      by_cases h : l.val = 0
      · rw [if_pos h, if_pos h, if_pos h]; exact (Acc.exact hs).mono (by omega)
      · rw [if_neg h, if_neg h, if_neg h, hE.zL]; exact Acc.zero 4
    have := Acc.fold (F := F) (g := (t.vec E).lane.add) (by rw [hL]; exact hE.L)
      (acc := fun k => sqrRegWith (t.vec E) q (fun l => if l.val = 0 then s else E.L.zero) x k l)
      (x := fun k => q k l (x (k * (4 * z) + 0 * z + l)) (x (k * (4 * z) + 1 * z + l)) (x (k * (4 * z) + 2 * z + l))
        (x (k * (4 * z) + 3 * z + l)))
      (T' := fun k => G a l k) (B' := fun k => G a l k) (f' := fun _ => 4 * F.eta) h0 K
      (fun k _ => rfl)
      (fun k hk => hgroup l k hk) (by
        rw [zero_add]
        exact hpow _ (by omega) _ (add_nonneg (add_nonneg (hini l) (Finset.sum_nonneg fun k _ => hG0 l k))
          (Finset.sum_nonneg fun k _ => by positivity)) (hlane_le l))
    rw [zero_add] at this
    exact this
  have htot : ∑ l : Fin z, ((if l.val = 0 then F.toReal s else 0) + ∑ k ∈ range K, G a l k) = F.toReal s + ∑ i ∈ range n, a i := by
    rw [Finset.sum_add_distrib, hsum, hs0]
  have htot1 : ∑ l : Fin z, ((if l.val = 0 then |F.toReal s| else 0) + ∑ k ∈ range K, G a l k) = |F.toReal s| + ∑ i ∈ range n, a i := by
    rw [Finset.sum_add_distrib, hsum, hs1]
  have hfin := hsum_acc hE hlane (by
    rw [htot1, hcount, ← hsz]
    exact hpow _ (by omega) _ (add_nonneg (add_nonneg (abs_nonneg _) (Finset.sum_nonneg fun i _ => ha0 i)) (by positivity)) le_rfl)
  rw [htot, htot1, hcount, ← hsz, show 4 + K + (t.vec E).size = K + 4 + z by omega] at hfin
  exact isSquareSum_of_acc (x := fun i => F.toReal (x i)) hfin

/-- A loop which adds squares. -/
theorem squares_seq {c : Bool} {q : Nat → BitVec w → BitVec w → BitVec w}
    (hq : ∀ k s x, q k s x ∈ Contract.squareAdd F c s x) {x acc : ℕ → BitVec w} {n : ℕ} (hacc : IsFin F (acc 0))
    (hstep : ∀ k, acc (k + 1) = q k (acc k) (x k)) (hf : ∀ i < n, IsFin F (x i))
    (hr : SquareSumOk F (n + 1) (F.toReal (acc 0)) (fun i => F.toReal (x i)) n) :
    IsSquareSum F (n + 1) (F.toReal (acc 0)) (fun i => F.toReal (x i)) n (acc n) := by
  have he := F.eta_pos
  have key : ∀ k, k ≤ n → FP.Acc F (k + 1) (F.toReal (acc 0) + ∑ i ∈ range k, F.toReal (x i) * F.toReal (x i))
      (|F.toReal (acc 0)| + ∑ i ∈ range k, F.toReal (x i) * F.toReal (x i)) (k * F.eta) (acc k) := by
    intro k
    induction k with
    | zero => intro _; simpa using (Acc.exact hacc).mono (Nat.zero_le 1)
    | succ k ih =>
      intro hk
      have hsum : ∑ i ∈ range (k + 1), F.toReal (x i) * F.toReal (x i) ≤ ∑ i ∈ range n, F.toReal (x i) * F.toReal (x i) :=
        Finset.sum_le_sum_of_subset_of_nonneg (Finset.range_mono hk) fun i _ _ => mul_self_nonneg _
      have h0 : 0 ≤ ∑ i ∈ range (k + 1), F.toReal (x i) * F.toReal (x i) := Finset.sum_nonneg fun i _ => mul_self_nonneg _
      have hke : ((k + 1 : ℕ) : ℝ) * F.eta ≤ n * F.eta := mul_le_mul_of_nonneg_right (by exact_mod_cast hk) he.le
      have hke0 : (0 : ℝ) ≤ ((k + 1 : ℕ) : ℝ) * F.eta := mul_nonneg (Nat.cast_nonneg _) he.le
      have ha := abs_nonneg (F.toReal (acc 0))
      rw [hstep]
      refine ((ih (by omega)).squareAdd (by omega) (hf k (by omega)) ?_ (hq k (acc k) (x k))).congr ?_ ?_ ?_
      · refine le_trans ?_ hr
        refine mul_le_mul (Acc.pow_mono F (by omega)) ?_ ?_ (zero_le_one.trans (Acc.one_le F _))
        all_goals
          rw [Finset.sum_range_succ] at hsum h0
          push_cast at hke hke0
          linarith
      · rw [Finset.sum_range_succ]; ring
      · rw [Finset.sum_range_succ]; ring
      · push_cast; ring
  exact isSquareSum_of_acc (key n le_rfl)

/-- The sum after `k` iterations. -/
def squareSeq {α : Type} (q : Nat → α → α → α) (s : α) (x : Nat → α) : Nat → α
  | 0 => s
  | k + 1 => q k (squareSeq q s x k) (x k)

/-- What `peak_rms_vec` writes. -/
theorem Contract.peakRms_ok {α : Type} (E : Env α) (q : Nat → α → α → α) {m : Mem α} {inp peak sq : Nat} {n : BitVec 32}
    {x : Nat → α} {p0 s0 : α} (hn : 0 < n.toNat) (hx : Holds m inp n.toNat x) (hp : m peak = some p0) (hs : m sq = some s0) :
    Contract.peakRmsVec E q inp peak sq n m = .ok ((), overwrite (overwrite m peak 1
      (fun _ => foldSeq (Neon.stdMax E.S) p0 (fun i => E.S.abs (x i)) n.toNat)) sq 1
        (fun _ => squareSeq q s0 x n.toNat)) := by
  have hps : (m peak).isSome := by rw [hp]; rfl
  have hss : (m sq).isSome := by rw [hs]; rfl
  have hloop := iterM_seq (body := fun (s : Nat × Nat × α × α) => (do
      let (k, inp, localPeak, localSum) := s
      let inSample ← read inp
      let last := E.S.abs inSample
      pure (k + 1, inp + 1, Neon.stdMax E.S localPeak last, q k localSum inSample) : Exec α (Nat × Nat × α × α)))
    (fun k => (k, inp + k, foldSeq (Neon.stdMax E.S) p0 (fun i => E.S.abs (x i)) k, squareSeq q s0 x k))
    (fun _ => m) n.toNat (fun k hk => by
      refine (Exec.bind_ok (read_ok (hx k hk))).trans ?_
      rfl)
  unfold Contract.peakRmsVec
  rw [Exec.bind_ok (read_ok hp), Exec.bind_ok (read_ok hs), doWhile_eq_iterM, tripCount_of_pos hn]
  refine (Exec.bind_ok hloop).trans ?_
  refine (Exec.bind_ok (write_one hps)).trans ?_
  exact write_one (overwrite_alloc hss)

theorem Contract.peakRmsStep_ok {α : Type} {I : VecImpl α} {al : Nat} (hI : I.Lawful al) {m : Mem α} {inp k : Nat}
    {x : Nat → α} {N : Nat} (hal : al ∣ inp) (hx : Holds m inp N x) (hk : (k + 1) * (4 * I.size) ≤ N)
    (q : Nat → Nat → α → α → α → α → α) (f g : I.V) :
    Contract.peakRmsStep I (q k) (inp + k * (4 * I.size)) (peakReg I f x k) (sqrRegWith I q g x k) m
      = .ok ((peakReg I f x (k + 1), sqrRegWith I q g x (k + 1)), m) := by
  have h0 := load_quarter hI hal hx hk 0 (by decide)
  have h1 := load_quarter hI hal hx hk 1 (by decide)
  have h2 := load_quarter hI hal hx hk 2 (by decide)
  have h3 := load_quarter hI hal hx hk 3 (by decide)
  rw [Nat.zero_mul, Nat.add_zero] at h0
  rw [Nat.one_mul] at h1
  unfold Contract.peakRmsStep
  rw [Exec.bind_ok h0, Exec.bind_ok h1, Exec.bind_ok h2, Exec.bind_ok h3]
  show Except.ok ((_, _), m) = _
  congr 3
  · funext l
    show I.lane.max_ _ _ = I.lane.max_ _ _
    simp only [Nat.zero_mul, Nat.add_zero, Nat.one_mul]
    rfl
  · funext l
    show I.lane.add _ _ = I.lane.add _ _
    simp only [Nat.zero_mul, Nat.add_zero, Nat.one_mul]

/-- What `peak_rms_vec_simd` writes. -/
theorem Contract.peakRmsSimd_ok {α : Type} {I : VecImpl α} {al : Nat} (hI : I.Lawful al) {m : Mem α} {inp : Nat}
    {x : Nat → α} {n : BitVec 32} (hal : al ∣ inp) (hsmall : 4 * I.size < 2 ^ 32) (hn : 4 * I.size ≤ n.toNat)
    (hx : Holds m inp n.toNat x) (q : Nat → Nat → α → α → α → α → α) {peak sq : Nat} {f g : I.V}
    (hf : I.loadFirst peak m = .ok (f, m)) (hg : I.loadFirst sq m = .ok (g, m)) (hp : (m peak).isSome) (hs : (m sq).isSome) :
    Contract.peakRmsVecSimd I q inp peak sq n m
      = .ok ((), overwrite (overwrite m peak 1
            (fun _ => I.horizontalMax (peakReg I f x (n.toNat / (4 * I.size))))) sq 1
          (fun _ => I.horizontalSum (sqrRegWith I q g x (n.toNat / (4 * I.size))))) := by
  unfold Contract.peakRmsVecSimd
  rw [Exec.bind_ok hf, Exec.bind_ok hg]
  have hpos : 0 < 4 * I.size := by have := I.size_pos; omega
  have hloop := iterM_seq (body := fun (s : Nat × Nat × I.V × I.V) => (do
      let (k, inp, maximum, localSum) := s
      let (maximum, localSum) ← Contract.peakRmsStep I (q k) inp maximum localSum
      pure (k + 1, inp + 4 * I.size, maximum, localSum) : Exec α (Nat × Nat × I.V × I.V)))
    (fun k => (k, inp + k * (4 * I.size), peakReg I f x k, sqrRegWith I q g x k))
    (fun _ => m) (n.toNat / (4 * I.size)) (fun k hk => by
      show (Contract.peakRmsStep I (q k) (inp + k * (4 * I.size)) (peakReg I f x k) (sqrRegWith I q g x k) >>= _) m = _
      rw [Exec.bind_ok (Contract.peakRmsStep_ok hI hal hx (unroll_le hk) q f g)]
      have e : inp + k * (4 * I.size) + 4 * I.size = inp + (k + 1) * (4 * I.size) := by ring
      show Except.ok ((k + 1, inp + k * (4 * I.size) + 4 * I.size, _, _), m) = Except.ok ((_, _, _, _), m)
      rw [e])
  rw [Nat.zero_mul, Nat.add_zero] at hloop
  show (doWhile _ _ _ >>= _) m = _
  rw [doWhile_eq_iterM, tripCount_div hpos hsmall hn]
  refine (Exec.bind_ok hloop).trans ?_
  show (write peak _ >>= _) m = _
  rw [Exec.bind_ok (write_one hp)]
  exact write_one (overwrite_alloc hs)

end Nova
