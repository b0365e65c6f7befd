import Mathlib.Analysis.Complex.Exponential
import Verif.SpecSums
import Verif.Lemmas.FloatRamps
import Verif.Props.C23_Meters

/-!
# C79: the rounding error of sums, sums of squares and ramps
-/

namespace Nova
open FP Spec Finset

variable {w : Nat} {F : Fmt w}

/-! ## Horizontal sums -/

theorem isSum_of_acc {d : ℕ} {x : ℕ → ℝ} {n : ℕ} {r : BitVec w}
    (h : Acc F d (∑ i ∈ range n, x i) (∑ i ∈ range n, |x i|) 0 r) : IsSum F d x n r :=
  ⟨h.fin, h.tol.trans (by rw [mul_zero, add_zero])⟩

theorem sum_scalar {E : Env (BitVec w)} (hE : Adds F E) {x : ℕ → BitVec w} {n : ℕ} (hf : ∀ i < n, IsFin F (x i))
    (hr : SumOk F n (fun i => F.toReal (x i)) n) :
    IsSum F n (fun i => F.toReal (x i)) n (foldSeq E.S.add E.S.zero x n) := by
  have := Acc.fold (F := F) (g := E.S.add) hE.S (acc := foldSeq E.S.add E.S.zero x) (x := x)
    (T' := fun i => F.toReal (x i)) (B' := fun i => |F.toReal (x i)|) (f' := fun _ => 0) (d := 0) (S := 0) (A := 0) (e := 0)
    (by rw [foldSeq, hE.zS]; exact Acc.zero 0) n (fun i _ => rfl) (fun i hi => Acc.exact (hf i hi))
    (by simpa [SumOk] using hr)
  exact isSum_of_acc (by simpa using this)

theorem sum_simd {E : Env (BitVec w)} (hE : Adds F E) (t : Target) {m : Mem (BitVec w)} {inp : Nat} {n : BitVec 32}
    {x : ℕ → BitVec w} (h : SimdInput t m inp n x) (hf : ∀ i < n.toNat, IsFin F (x i))
    (hr : SumOk F (n.toNat / t.size + t.size) (fun i => F.toReal (x i)) n.toNat) :
    IsSum F (n.toNat / t.size + t.size) (fun i => F.toReal (x i)) n.toNat
      ((t.vec E).horizontalSum (foldSeq (VecImpl.zip (t.vec E).lane.add) ((t.vec E).setVec E.S.zero)
        (fun j l => x (j * (t.vec E).size + l)) (n.toNat / (t.vec E).size))) := by
  have hdm := h.div_mul E
  have hsz := t.vec_size E
  have hlt : ∀ (l : Fin (t.vec E).size) j, j < n.toNat / (t.vec E).size → j * (t.vec E).size + l < n.toNat := by
    intro l j hj
    have h1 : (j + 1) * (t.vec E).size ≤ n.toNat := by
      rw [← hdm]; exact Nat.mul_le_mul_right _ hj
    rw [Nat.succ_mul] at h1
    have := l.isLt
    omega
  have hS : ∀ f : ℕ → ℝ, ∑ l : Fin (t.vec E).size, ∑ j ∈ range (n.toNat / (t.vec E).size), f (j * (t.vec E).size + l)
      = ∑ i ∈ range n.toNat, f i := fun f => by rw [regs_sum, hdm]
  have hpart : ∀ l : Fin (t.vec E).size, ∑ j ∈ range (n.toNat / (t.vec E).size), |F.toReal (x (j * (t.vec E).size + l))|
      ≤ ∑ i ∈ range n.toNat, |F.toReal (x i)| := fun l => by
    rw [← hS (fun i => |F.toReal (x i)|)]
    exact Finset.single_le_sum (f := fun l : Fin (t.vec E).size =>
      ∑ j ∈ range (n.toNat / (t.vec E).size), |F.toReal (x (j * (t.vec E).size + l))|)
      (fun l _ => Finset.sum_nonneg fun j _ => abs_nonneg _) (Finset.mem_univ l)
  have hlane : ∀ l : Fin (t.vec E).size, FP.Acc F (n.toNat / (t.vec E).size)
      (∑ j ∈ range (n.toNat / (t.vec E).size), F.toReal (x (j * (t.vec E).size + l)))
      (∑ j ∈ range (n.toNat / (t.vec E).size), |F.toReal (x (j * (t.vec E).size + l))|) 0
      (foldSeq (VecImpl.zip (t.vec E).lane.add) ((t.vec E).setVec E.S.zero)
        (fun j l => x (j * (t.vec E).size + l)) (n.toNat / (t.vec E).size) l) := by
    intro l
    have e := foldSeq_lane (t.vec E).lane.add ((t.vec E).setVec E.S.zero)
      (fun j (l : Fin (t.vec E).size) => x (j * (t.vec E).size + l)) (n.toNat / (t.vec E).size) l
    have := Acc.fold (F := F) (g := (t.vec E).lane.add) (by rw [t.lane_eq]; exact hE.L)
      (acc := foldSeq (t.vec E).lane.add ((t.vec E).setVec E.S.zero l) fun j => x (j * (t.vec E).size + l))
      (x := fun j => x (j * (t.vec E).size + l))
      (T' := fun j => F.toReal (x (j * (t.vec E).size + l))) (B' := fun j => |F.toReal (x (j * (t.vec E).size + l))|)
      (f' := fun _ => 0) (d := 0) (S := 0) (A := 0) (e := 0)
      (by rw [foldSeq, (t.lawful E).setVec, hE.zS]; exact Acc.zero 0) (n.toNat / (t.vec E).size) (fun i _ => rfl)
      (fun j hj => Acc.exact (hf _ (hlt l j hj)))
      (by
        simp only [Finset.sum_const_zero, add_zero, zero_add]
        refine le_trans (mul_le_mul (Acc.pow_mono F ?_) (hpart l) (Finset.sum_nonneg fun _ _ => abs_nonneg _)
          (zero_le_one.trans (Acc.one_le F _))) hr
        rw [hsz]; omega)
    simp only [Finset.sum_const_zero, add_zero, zero_add] at this
    rw [show foldSeq (VecImpl.zip (t.vec E).lane.add) ((t.vec E).setVec E.S.zero)
        (fun j l => x (j * (t.vec E).size + l)) (n.toNat / (t.vec E).size) l = _ from e]
    exact this
  have := hsum_acc hE hlane (by
    rw [hS (fun i => |F.toReal (x i)|), Finset.sum_const_zero, add_zero, hsz]; exact hr)
  rw [hS (fun i => |F.toReal (x i)|), hS (fun i => F.toReal (x i)), Finset.sum_const_zero] at this
  have h2 := isSum_of_acc this
  have e : n.toNat / (t.vec E).size + t.size = n.toNat / t.size + t.size := by rw [hsz]
  rw [e] at h2
  exact h2

/-- `horizontal_sum_vec(in, n)` of `float`s: every number takes part in at most `n` additions. -/
theorem C79_sum_float (b : Build32) (P : Platform 32) {m : Mem (BitVec 32)} {inp : Nat} {n : BitVec 32}
    {x : ℕ → BitVec 32} (hn : 0 < n.toNat) (hx : Holds m inp n.toNat x) (hf : ∀ i < n.toNat, IsFin binary32 (x i))
    (hr : SumOk binary32 n.toNat (fun i => binary32.toReal (x i)) n.toNat) :
    ∃ r, horizontalSumVec (b.env P) inp n m = .ok (r, m) ∧
      IsSum binary32 n.toNat (fun i => binary32.toReal (x i)) n.toNat r :=
  ⟨_, foldVec_ok hn hx, sum_scalar (b.adds P) hf hr⟩

/-- `horizontal_sum_vec(in, n)` of `double`s. -/
theorem C79_sum_double (b : Build64) (P : Platform 64) {m : Mem (BitVec 64)} {inp : Nat} {n : BitVec 32}
    {x : ℕ → BitVec 64} (hn : 0 < n.toNat) (hx : Holds m inp n.toNat x) (hf : ∀ i < n.toNat, IsFin binary64 (x i))
    (hr : SumOk binary64 n.toNat (fun i => binary64.toReal (x i)) n.toNat) :
    ∃ r, horizontalSumVec (b.env P) inp n m = .ok (r, m) ∧
      IsSum binary64 n.toNat (fun i => binary64.toReal (x i)) n.toNat r :=
  ⟨_, foldVec_ok hn hx, sum_scalar (b.adds P) hf hr⟩

/-- `horizontal_sum_vec_simd(in, n)` of `float`s: at most `n / size + size` additions per number. -/
theorem C79_sum_simd_float (b : Build32) (P : Platform 32) {m : Mem (BitVec 32)} {inp : Nat} {n : BitVec 32}
    {x : ℕ → BitVec 32} (h : SimdInput b.target m inp n x) (hf : ∀ i < n.toNat, IsFin binary32 (x i))
    (hr : SumOk binary32 (n.toNat / b.target.size + b.target.size) (fun i => binary32.toReal (x i)) n.toNat) :
    ∃ r, horizontalSumVecSimd (b.env P) (b.vec P) inp n m = .ok (r, m) ∧
      IsSum binary32 (n.toNat / b.target.size + b.target.size) (fun i => binary32.toReal (x i)) n.toNat r := by
  refine ⟨_, ?_, sum_simd (b.adds P) b.target h hf hr⟩
  unfold horizontalSumVecSimd Build32.vec
  rw [Exec.bind_ok (h.fold (b.env P) _ _)]
  rfl

/-- `horizontal_sum_vec_simd(in, n)` of `double`s. -/
theorem C79_sum_simd_double (b : Build64) (P : Platform 64) {m : Mem (BitVec 64)} {inp : Nat} {n : BitVec 32}
    {x : ℕ → BitVec 64} (h : SimdInput b.target m inp n x) (hf : ∀ i < n.toNat, IsFin binary64 (x i))
    (hr : SumOk binary64 (n.toNat / b.target.size + b.target.size) (fun i => binary64.toReal (x i)) n.toNat) :
    ∃ r, horizontalSumVecSimd (b.env P) (b.vec P) inp n m = .ok (r, m) ∧
      IsSum binary64 (n.toNat / b.target.size + b.target.size) (fun i => binary64.toReal (x i)) n.toNat r := by
  refine ⟨_, ?_, sum_simd (b.adds P) b.target h hf hr⟩
  unfold horizontalSumVecSimd Build64.vec
  rw [Exec.bind_ok (h.fold (b.env P) _ _)]
  rfl

/-- The sum that `horizontal_maxsum_vec` returns. -/
theorem C79_maxsum_float (b : Build32) (P : Platform 32) (lim : Limits (BitVec 32)) {m : Mem (BitVec 32)} {inp : Nat}
    {n : BitVec 32} {x : ℕ → BitVec 32} (hn : 0 < n.toNat) (hx : Holds m inp n.toNat x)
    (hf : ∀ i < n.toNat, IsFin binary32 (x i)) (hr : SumOk binary32 n.toNat (fun i => binary32.toReal (x i)) n.toNat) :
    ∃ p r, horizontalMaxsumVec (b.env P) lim inp n m = .ok ((p, r), m) ∧
      IsSum binary32 n.toNat (fun i => binary32.toReal (x i)) n.toNat r :=
  ⟨_, _, (foldVec_ok hn hx).trans (by rw [foldSeq_prod (Neon.stdMax (b.env P).S) (b.env P).S.add]),
    sum_scalar (b.adds P) hf hr⟩

/-- The sum that `horizontal_maxsum_vec_simd` returns. -/
theorem C79_maxsum_simd_float (b : Build32) (P : Platform 32) (lim : Limits (BitVec 32)) {m : Mem (BitVec 32)} {inp : Nat}
    {n : BitVec 32} {x : ℕ → BitVec 32} (h : SimdInput b.target m inp n x) (hf : ∀ i < n.toNat, IsFin binary32 (x i))
    (hr : SumOk binary32 (n.toNat / b.target.size + b.target.size) (fun i => binary32.toReal (x i)) n.toNat) :
    ∃ p r, horizontalMaxsumVecSimd (b.env P) (b.vec P) lim inp n m = .ok ((p, r), m) ∧
      IsSum binary32 (n.toNat / b.target.size + b.target.size) (fun i => binary32.toReal (x i)) n.toNat r := by
  refine ⟨(b.vec P).horizontalMax (foldSeq (VecImpl.zip (b.vec P).lane.max_) ((b.vec P).setVec lim.min)
    (fun j l => x (j * (b.vec P).size + l)) (n.toNat / (b.vec P).size)), _, ?_, sum_simd (b.adds P) b.target h hf hr⟩
  unfold horizontalMaxsumVecSimd Build32.vec
  rw [Exec.bind_ok (h.fold (b.env P) _ _), foldSeq_prod (VecImpl.zip (b.target.vec (b.env P)).lane.max_)
    (VecImpl.zip (b.target.vec (b.env P)).lane.add)]
  rfl

theorem growth_le {d : ℕ} (h : (d : ℝ) * F.u ≤ 1) : (1 + F.u) ^ d ≤ 1 + 2 * (d * F.u) := by
  have hu := F.u_pos
  have h1 : (1 + F.u) ^ d ≤ Real.exp (d * F.u) := by
    rw [Real.exp_nat_mul]
    exact pow_le_pow_left₀ (by linarith) (by linarith [Real.add_one_le_exp F.u]) d
  have h0 : 0 ≤ (d : ℝ) * F.u := by positivity
  have h2 := Real.abs_exp_sub_one_sub_id_le (x := d * F.u) (by rw [abs_of_nonneg h0]; exact h)
  have h3 := (abs_le.mp h2).2
  have : ((d : ℝ) * F.u) ^ 2 ≤ d * F.u := by nlinarith
  linarith

/-- In numbers: the sum of at most 2^22 `float`s whose magnitudes add up to at most 2^126 has an error of at most
`n * 2^-23` times the sum of the magnitudes; the SIMD version of at most `(n/size + size) * 2^-23`. -/
theorem C79_in_numbers {d n : ℕ} {x : ℕ → ℝ} (hd : d ≤ 2 ^ 22) (hs : ∑ i ∈ range n, |x i| ≤ 2 ^ 126) :
    SumOk binary32 d x n ∧ ∀ r, IsSum binary32 d x n r →
      |binary32.toReal r - ∑ i ∈ range n, x i| ≤ d * (∑ i ∈ range n, |x i|) / 2 ^ 23 := by
  have hd' : (d : ℝ) ≤ 2 ^ 22 := by exact_mod_cast hd
  have h0 : 0 ≤ ∑ i ∈ range n, |x i| := Finset.sum_nonneg fun _ _ => abs_nonneg _
  have hg := growth_le (F := binary32) (d := d) (by rw [Fmt.u32]; linarith)
  constructor
  · have h2 : (1 + binary32.u) ^ d ≤ 2 := by rw [Fmt.u32] at hg ⊢; linarith
    unfold SumOk
    rw [bias32]
    calc _ ≤ 2 * (2 : ℝ) ^ 126 := mul_le_mul h2 hs h0 (by norm_num)
      _ = 2 ^ 127 := by rw [← pow_succ']
  · intro r hr
    refine hr.2.trans ?_
    have := mul_le_mul_of_nonneg_right (show (1 + binary32.u) ^ d - 1 ≤ 2 * (d * binary32.u) by linarith) h0
    refine this.trans (le_of_eq ?_)
    rw [Fmt.u32]; ring

/-! ## Sums of squares -/

/-- The squares of the lanes and of the scalar code are rounded products. -/
structure Squares (F : Fmt w) (E : Env (BitVec w)) : Prop where
  S : ∀ x, IsFin F x → |F.toReal x * F.toReal x| ≤ 2 ^ F.bias → F.Near (F.toReal x * F.toReal x) (E.S.mul x x)
  L : ∀ x, IsFin F x → |F.toReal x * F.toReal x| ≤ 2 ^ F.bias → F.Near (F.toReal x * F.toReal x) (E.L.square x)

theorem Build32.squares (b : Build32) (P : Platform 32) : Squares binary32 (b.env P) := by
  have hm : ∀ x, IsFin binary32 x → |binary32.toReal x * binary32.toReal x| ≤ 2 ^ binary32.bias →
    binary32.Near (binary32.toReal x * binary32.toReal x) (binary32.mul x x) := fun x hx h => Fmt.mul_near hx hx h
  refine ⟨hm, ?_⟩
  cases b with
  | altivec =>
    intro x hx h
    have h0 : binary32.toReal 0#32 = 0 := by
      have := isVal_value (x := 0#32) (q := 0) (by decide +kernel)
      exact_mod_cast this
    have := Fmt.fma_near hx hx (show IsFin binary32 0#32 by decide) (by rw [h0, add_zero]; exact h)
    rw [h0, add_zero] at this
    exact this
  | _ => exact hm

theorem Build64.squares (b : Build64) (P : Platform 64) : Squares binary64 (b.env P) := by
  have hm : ∀ x, IsFin binary64 x → |binary64.toReal x * binary64.toReal x| ≤ 2 ^ binary64.bias →
    binary64.Near (binary64.toReal x * binary64.toReal x) (binary64.mul x x) := fun x hx h => Fmt.mul_near hx hx h
  refine ⟨hm, ?_⟩
  cases b <;> exact hm

theorem isSquareSum_of_acc {d : ℕ} {s : ℝ} {x : ℕ → ℝ} {n : ℕ} {r : BitVec w}
    (h : FP.Acc F d (s + ∑ i ∈ range n, x i * x i) (|s| + ∑ i ∈ range n, x i * x i) (n * F.eta) r) :
    IsSquareSum F d s x n r := ⟨h.fin, h.tol⟩

theorem square_acc {v : ℝ} {r : BitVec w} (h : F.Near (v * v) r) : FP.Acc F 1 (v * v) (v * v) F.eta r := by
  have := Acc.near h
  rwa [abs_of_nonneg (mul_self_nonneg v)] at this

/-- Every square is in range. -/
theorem square_le {d : ℕ} {s : ℝ} {x : ℕ → ℝ} {n : ℕ} (h : SquareSumOk F d s x n) {i : ℕ} (hi : i < n) :
    |x i * x i| ≤ 2 ^ F.bias := by
  rw [abs_of_nonneg (mul_self_nonneg _)]
  have h1 : x i * x i ≤ ∑ i ∈ range n, x i * x i :=
    Finset.single_le_sum (f := fun i => x i * x i) (fun i _ => mul_self_nonneg _) (mem_range.mpr hi)
  have h2 : 0 ≤ (n : ℝ) * F.eta := mul_nonneg (Nat.cast_nonneg _) F.eta_pos.le
  have h3 := abs_nonneg s
  have h4 := mul_self_nonneg (x i)
  have h5 := Acc.one_le F d
  unfold SquareSumOk at h
  refine le_trans ?_ h
  refine le_trans (show x i * x i ≤ |s| + ∑ i ∈ range n, x i * x i + n * F.eta by linarith) ?_
  exact le_mul_of_one_le_left (by linarith) h5

theorem squares_scalar {E : Env (BitVec w)} (hE : Adds F E) (hQ : Squares F E) {x : ℕ → BitVec w} {n : ℕ} {s : BitVec w}
    (hs : IsFin F s) (hf : ∀ i < n, IsFin F (x i)) (hr : SquareSumOk F (n + 1) (F.toReal s) (fun i => F.toReal (x i)) n) :
    IsSquareSum F (n + 1) (F.toReal s) (fun i => F.toReal (x i)) n
      (foldSeq E.S.add s (fun i => E.S.mul (x i) (x i)) n) := by
  have := Acc.fold (F := F) (g := E.S.add) hE.S (acc := foldSeq E.S.add s fun i => E.S.mul (x i) (x i))
    (x := fun i => E.S.mul (x i) (x i))
    (T' := fun i => F.toReal (x i) * F.toReal (x i)) (B' := fun i => F.toReal (x i) * F.toReal (x i)) (f' := fun _ => F.eta)
    ((Acc.exact hs).mono (Nat.zero_le 1)) n (fun i _ => rfl)
    (fun i hi => square_acc (hQ.S _ (hf i hi) (square_le hr hi)))
    (by rw [Nat.add_comm 1 n, Finset.sum_const, Finset.card_range, nsmul_eq_mul, zero_add]; exact hr)
  rw [Nat.add_comm 1 n, Finset.sum_const, Finset.card_range, nsmul_eq_mul, zero_add] at this
  exact isSquareSum_of_acc this

theorem squares_simd {E : Env (BitVec w)} (hE : Adds F E) (hQ : Squares F E) (t : Target) {n : ℕ} {x : ℕ → BitVec w}
    {s : BitVec w} (hd : 4 * t.size ∣ n) (hs : IsFin F s) (hf : ∀ i < n, IsFin F (x i))
    (hr : SquareSumOk F (n / (4 * t.size) + 4 + t.size) (F.toReal s) (fun i => F.toReal (x i)) n) :
    IsSquareSum F (n / (4 * t.size) + 4 + t.size) (F.toReal s) (fun i => F.toReal (x i)) n
      ((t.vec E).horizontalSum (sqrReg (t.vec E) (fun l => if l.val = 0 then s else E.L.zero) x
        (n / (4 * (t.vec E).size)))) := by
  have hsz := t.vec_size E
  have hL := t.lane_eq E
  have hpos := (t.vec E).size_pos
  rw [← hsz] at hd
  have e0 : n / (4 * t.size) + 4 + t.size = n / (4 * (t.vec E).size) + 4 + (t.vec E).size := by rw [hsz]
  rw [e0] at hr ⊢
  set z := (t.vec E).size with hz
  set K := n / (4 * z) with hK
  have hKn : K * (4 * z) = n := Nat.div_mul_cancel hd
  let a : ℕ → ℝ := fun i => F.toReal (x i) * F.toReal (x i)
  have hlt : ∀ (l : Fin z) k q, k < K → q < 4 → k * (4 * z) + q * z + l < n := by
    intro l k q hk hq
    have h1 : (k + 1) * (4 * z) ≤ n := by rw [← hKn]; exact Nat.mul_le_mul_right _ hk
    have h2 : (q + 1) * z ≤ 4 * z := Nat.mul_le_mul_right _ hq
    rw [Nat.succ_mul] at h1 h2
    have := l.isLt
    omega
  -- one group of four squares
  let G : (ℕ → ℝ) → Fin z → ℕ → ℝ := fun f l k =>
    f (k * (4 * z) + 0 * z + l) + f (k * (4 * z) + 1 * z + l) + f (k * (4 * z) + 2 * z + l) + f (k * (4 * z) + 3 * z + l)
  have hsum : ∀ f : ℕ → ℝ, ∑ l : Fin z, ∑ k ∈ range K, G f l k = ∑ i ∈ range n, f i := by
    intro f
    have := regs_sum f z (K * 4)
    rw [Nat.mul_assoc, hKn] at this
    rw [← this]
    refine Finset.sum_congr rfl fun l _ => ?_
    have : ∀ k, ∑ j ∈ range (k * 4), f (j * z + l) = ∑ j ∈ range k, G f l j := by
      intro k
      induction k with
      | zero => simp
      | succ k ih =>
        rw [Nat.succ_mul, Finset.sum_range_succ, Finset.sum_range_succ, Finset.sum_range_succ, Finset.sum_range_succ, ih,
          Finset.sum_range_succ (fun j => G f l j)]
        simp only [G]
        have c : ∀ q, (k * 4 + q) * z + (l : ℕ) = k * (4 * z) + q * z + l := fun q => by ring
        rw [← c 0, ← c 1, ← c 2, ← c 3]
        simp only [Nat.add_zero]
        ring
    exact (this K).symm
  have ha0 : ∀ i, 0 ≤ a i := fun i => mul_self_nonneg _
  have hG0 : ∀ l k, 0 ≤ G a l k := fun l k => by
    simp only [G]; linarith [ha0 (k * (4 * z) + 0 * z + l), ha0 (k * (4 * z) + 1 * z + l), ha0 (k * (4 * z) + 2 * z + l),
      ha0 (k * (4 * z) + 3 * z + l)]
  have heta := F.eta_pos
  have hcount : ∑ _l : Fin z, ∑ _k ∈ range K, 4 * F.eta = n * F.eta := by
    simp only [Finset.sum_const, Finset.card_range, Finset.card_univ, Fintype.card_fin, nsmul_eq_mul]
    rw [← hKn]; push_cast; ring
  have hs0 : ∑ l : Fin z, (if l.val = 0 then F.toReal s else 0) = F.toReal s := by
    rw [Finset.sum_eq_single (⟨0, hpos⟩ : Fin z)]
    · simp
    · intro b _ hb; rw [if_neg fun h => hb (Fin.ext h)]
    · intro h; exact absurd (Finset.mem_univ _) h
  have hs1 : ∑ l : Fin z, (if l.val = 0 then |F.toReal s| else 0) = |F.toReal s| := by
    rw [Finset.sum_eq_single (⟨0, hpos⟩ : Fin z)]
    · simp
    · intro b _ hb; rw [if_neg fun h => hb (Fin.ext h)]
    · intro h; exact absurd (Finset.mem_univ _) h
  have hini : ∀ l : Fin z, 0 ≤ (if l.val = 0 then |F.toReal s| else 0) := fun l => by split <;> positivity
  -- the contents of a lane are bounded by the total
  have hlane_le : ∀ l : Fin z, (if l.val = 0 then |F.toReal s| else 0) + ∑ k ∈ range K, G a l k + ∑ _k ∈ range K, 4 * F.eta ≤
      |F.toReal s| + ∑ i ∈ range n, a i + n * F.eta := by
    intro l
    have h1 : (if l.val = 0 then |F.toReal s| else 0) ≤ |F.toReal s| := by split <;> [exact le_rfl; positivity]
    have h2 : ∑ k ∈ range K, G a l k ≤ ∑ i ∈ range n, a i := by
      rw [← hsum a]
      exact Finset.single_le_sum (f := fun l : Fin z => ∑ k ∈ range K, G a l k)
        (fun l _ => Finset.sum_nonneg fun k _ => hG0 l k) (Finset.mem_univ l)
    have h3 : ∑ _k ∈ range K, 4 * F.eta ≤ n * F.eta := by
      rw [← hcount]
      exact Finset.single_le_sum (f := fun _ : Fin z => ∑ _k ∈ range K, 4 * F.eta)
        (fun l _ => Finset.sum_nonneg fun k _ => by positivity) (Finset.mem_univ l)
    linarith
  have hpow : ∀ d, d ≤ K + 4 + z → ∀ y, 0 ≤ y → y ≤ |F.toReal s| + ∑ i ∈ range n, a i + n * F.eta →
      (1 + F.u) ^ d * y ≤ 2 ^ F.bias := fun d hd y hy hle =>
    le_trans (mul_le_mul (Acc.pow_mono F hd) hle hy (zero_le_one.trans (Acc.one_le F _))) hr
  have hgroup_le : ∀ (l : Fin z) k, k < K → G a l k + 4 * F.eta ≤ |F.toReal s| + ∑ i ∈ range n, a i + n * F.eta := by
    intro l k hk
    refine le_trans ?_ (hlane_le l)
    have h1 : G a l k ≤ ∑ k ∈ range K, G a l k :=
      Finset.single_le_sum (f := fun k => G a l k) (fun k _ => hG0 l k) (mem_range.mpr hk)
    have h2 : 4 * F.eta ≤ ∑ _k ∈ range K, 4 * F.eta :=
      Finset.single_le_sum (f := fun _ => 4 * F.eta) (fun k _ => by positivity) (mem_range.mpr hk)
    linarith [hini l]
  have hgroup : ∀ (l : Fin z) k, k < K → FP.Acc F 4 (G a l k) (G a l k) (4 * F.eta)
      (F.add (F.add (F.add (E.L.square (x (k * (4 * z) + 0 * z + l))) (E.L.square (x (k * (4 * z) + 1 * z + l))))
        (E.L.square (x (k * (4 * z) + 2 * z + l)))) (E.L.square (x (k * (4 * z) + 3 * z + l)))) := by
    intro l k hk
    have q : ∀ q, q < 4 → FP.Acc F 1 (a (k * (4 * z) + q * z + l)) (a (k * (4 * z) + q * z + l)) F.eta
        (E.L.square (x (k * (4 * z) + q * z + l))) := fun q hq =>
      square_acc (hQ.L _ (hf _ (hlt l k q hk hq)) (square_le (x := fun i => F.toReal (x i)) hr (hlt l k q hk hq)))
    have hle := hgroup_le l k hk
    simp only [G] at hle
    have b0 := ha0 (k * (4 * z) + 0 * z + l)
    have b1 := ha0 (k * (4 * z) + 1 * z + l)
    have b2 := ha0 (k * (4 * z) + 2 * z + l)
    have b3 := ha0 (k * (4 * z) + 3 * z + l)
    have c1 := (q 0 (by omega)).add (q 1 (by omega)) (hpow 1 (by omega) _ (by linarith) (by linarith))
    have c2 := c1.add ((q 2 (by omega)).mono (by omega : 1 ≤ 2)) (hpow 2 (by omega) _ (by linarith) (by linarith))
    have c3 := c2.add ((q 3 (by omega)).mono (by omega : 1 ≤ 3)) (hpow 3 (by omega) _ (by linarith) (by linarith))
    exact c3.congr rfl rfl (by ring)
  have hlane : ∀ l : Fin z, FP.Acc F (4 + K) ((if l.val = 0 then F.toReal s else 0) + ∑ k ∈ range K, G a l k)
      ((if l.val = 0 then |F.toReal s| else 0) + ∑ k ∈ range K, G a l k) (∑ _k ∈ range K, 4 * F.eta)
      (sqrReg (t.vec E) (fun l => if l.val = 0 then s else E.L.zero) x K l) := by
    intro l
    have h0 : FP.Acc F 4 (if l.val = 0 then F.toReal s else 0) (if l.val = 0 then |F.toReal s| else 0) 0
        (if l.val = 0 then s else E.L.zero) := by
      by_cases h : l.val = 0
      · rw [if_pos h, if_pos h, if_pos h]; exact (Acc.exact hs).mono (by omega)
      · rw [if_neg h, if_neg h, if_neg h, hE.zL]; exact Acc.zero 4
    have := Acc.fold (F := F) (g := (t.vec E).lane.add) (by rw [hL]; exact hE.L)
      (acc := fun k => sqrReg (t.vec E) (fun l => if l.val = 0 then s else E.L.zero) x k l)
      (x := fun k => F.add (F.add (F.add (E.L.square (x (k * (4 * z) + 0 * z + l))) (E.L.square (x (k * (4 * z) + 1 * z + l))))
        (E.L.square (x (k * (4 * z) + 2 * z + l)))) (E.L.square (x (k * (4 * z) + 3 * z + l))))
      (T' := fun k => G a l k) (B' := fun k => G a l k) (f' := fun _ => 4 * F.eta) h0 K
      (fun k _ => by
        show (t.vec E).lane.add _ ((t.vec E).lane.add ((t.vec E).lane.add ((t.vec E).lane.add _ _) _) _) = _
        simp only [hL, hE.L]
        rfl)
      (fun k hk => hgroup l k hk) (by
        rw [zero_add]
        exact hpow _ (by omega) _ (add_nonneg (add_nonneg (hini l) (Finset.sum_nonneg fun k _ => hG0 l k))
          (Finset.sum_nonneg fun k _ => by positivity)) (hlane_le l))
    rw [zero_add] at this
    exact this
  have htot : ∑ l : Fin z, ((if l.val = 0 then F.toReal s else 0) + ∑ k ∈ range K, G a l k) = F.toReal s + ∑ i ∈ range n, a i := by
    rw [Finset.sum_add_distrib, hsum, hs0]
  have htot1 : ∑ l : Fin z, ((if l.val = 0 then |F.toReal s| else 0) + ∑ k ∈ range K, G a l k) = |F.toReal s| + ∑ i ∈ range n, a i := by
    rw [Finset.sum_add_distrib, hsum, hs1]
  have hfin := hsum_acc hE hlane (by
    rw [htot1, hcount, ← hsz]
    exact hpow _ (by omega) _ (add_nonneg (add_nonneg (abs_nonneg _) (Finset.sum_nonneg fun i _ => ha0 i)) (by positivity)) le_rfl)
  rw [htot, htot1, hcount, ← hsz, show 4 + K + (t.vec E).size = K + 4 + z by omega] at hfin
  exact isSquareSum_of_acc (x := fun i => F.toReal (x i)) hfin

/-- What `peak_rms_vec` writes. -/
theorem peakRms_ok {α : Type} (E : Env α) {m : Mem α} {inp peak sq : Nat} {n : BitVec 32} {x : Nat → α} {p0 s0 : α}
    (hn : 0 < n.toNat) (hx : Holds m inp n.toNat x) (hp : m peak = some p0) (hs : m sq = some s0) :
    peakRmsVec E inp peak sq n m = .ok ((), overwrite (overwrite m peak 1
      (fun _ => foldSeq (Neon.stdMax E.S) p0 (fun i => E.S.abs (x i)) n.toNat)) sq 1
        (fun _ => foldSeq E.S.add s0 (fun i => E.S.mul (x i) (x i)) n.toNat)) := by
  have hps : (m peak).isSome := by rw [hp]; rfl
  have hss : (m sq).isSome := by rw [hs]; rfl
  have hloop := iterM_seq (body := fun (s : Nat × α × α) => (do
      let (inp, localPeak, localSum) := s
      let inSample ← read inp
      let last := E.S.abs inSample
      pure (inp + 1, Neon.stdMax E.S localPeak last,
        E.S.add localSum (E.S.mul inSample inSample)) : Exec α (Nat × α × α)))
    (fun k => (inp + k, foldSeq (Neon.stdMax E.S) p0 (fun i => E.S.abs (x i)) k,
      foldSeq E.S.add s0 (fun i => E.S.mul (x i) (x i)) k)) (fun _ => m) n.toNat (fun k hk => by
      refine (Exec.bind_ok (read_ok (hx k hk))).trans ?_
      rfl)
  unfold peakRmsVec
  rw [Exec.bind_ok (read_ok hp), Exec.bind_ok (read_ok hs), doWhile_eq_iterM, tripCount_of_pos hn]
  refine (Exec.bind_ok hloop).trans ?_
  refine (Exec.bind_ok (write_one hps)).trans ?_
  exact write_one (overwrite_alloc hss)

/-- `peak_rms_vec(in, peak, squared_sum, n)` of `float`s adds the squares to `squared_sum`. -/
theorem C79_rms_float (b : Build32) (P : Platform 32) {m : Mem (BitVec 32)} {inp peak sq : Nat} {n : BitVec 32}
    {x : ℕ → BitVec 32} {p0 s0 : BitVec 32} (hn : 0 < n.toNat) (hx : Holds m inp n.toNat x)
    (hp : m peak = some p0) (hs : m sq = some s0) (hs0 : IsFin binary32 s0) (hf : ∀ i < n.toNat, IsFin binary32 (x i))
    (hr : SquareSumOk binary32 (n.toNat + 1) (binary32.toReal s0) (fun i => binary32.toReal (x i)) n.toNat) :
    ∃ p r, peakRmsVec (b.env P) inp peak sq n m =
        .ok ((), overwrite (overwrite m peak 1 fun _ => p) sq 1 fun _ => r) ∧
      IsSquareSum binary32 (n.toNat + 1) (binary32.toReal s0) (fun i => binary32.toReal (x i)) n.toNat r :=
  ⟨_, _, peakRms_ok (b.env P) hn hx hp hs, squares_scalar (b.adds P) (b.squares P) hs0 hf hr⟩

/-- `peak_rms_vec_simd` of `float`s, all builds but AVX (which starts from uninitialised lanes, C26). -/
theorem C79_rms_simd_float_partial (b : Build32) (hb : ∀ fma, b ≠ .avx fma) (P : Platform 32) {m : Mem (BitVec 32)}
    {inp peak sq : Nat} {n : BitVec 32} {x : ℕ → BitVec 32} {p0 s0 : BitVec 32} (hn : 0 < n.toNat)
    (hd : 4 * b.target.size ∣ n.toNat) (hal : b.target.align ∣ inp) (hx : Holds m inp n.toNat x)
    (hp : m peak = some p0) (hs : m sq = some s0) (hs0 : IsFin binary32 s0) (hf : ∀ i < n.toNat, IsFin binary32 (x i))
    (hr : SquareSumOk binary32 (n.toNat / (4 * b.target.size) + 4 + b.target.size) (binary32.toReal s0)
      (fun i => binary32.toReal (x i)) n.toNat) :
    ∃ p r, peakRmsVecSimd (b.vec P) inp peak sq n m =
        .ok ((), overwrite (overwrite m peak 1 fun _ => p) sq 1 fun _ => r) ∧
      IsSquareSum binary32 (n.toNat / (4 * b.target.size) + 4 + b.target.size) (binary32.toReal s0)
        (fun i => binary32.toReal (x i)) n.toNat r := by
  have ht : b.target ≠ .avxFloat ∧ b.target ≠ .avxDouble := by
    cases b <;> first | exact absurd rfl (hb _) | exact ⟨by simp [Build32.target], by simp [Build32.target]⟩
  have hn' : 4 * (b.target.vec (b.env P)).size ≤ n.toNat := by
    rw [b.target.vec_size]; exact Nat.le_of_dvd hn hd
  have h := peakRmsSimd_ok (b.target.lawful (b.env P)) hal (b.target.four_size_small (b.env P)) hn' hx
    (C32_load_first_partial b.target (b.env P) ht hp) (C32_load_first_partial b.target (b.env P) ht hs)
    (by rw [hp]; rfl) (by rw [hs]; rfl)
  exact ⟨_, _, h, squares_simd (b.adds P) (b.squares P) b.target hd hs0 hf hr⟩

/-- `peak_rms_vec(in, peak, squared_sum, n)` of `double`s adds the squares to `squared_sum`. -/
theorem C79_rms_double (b : Build64) (P : Platform 64) {m : Mem (BitVec 64)} {inp peak sq : Nat} {n : BitVec 32}
    {x : ℕ → BitVec 64} {p0 s0 : BitVec 64} (hn : 0 < n.toNat) (hx : Holds m inp n.toNat x)
    (hp : m peak = some p0) (hs : m sq = some s0) (hs0 : IsFin binary64 s0) (hf : ∀ i < n.toNat, IsFin binary64 (x i))
    (hr : SquareSumOk binary64 (n.toNat + 1) (binary64.toReal s0) (fun i => binary64.toReal (x i)) n.toNat) :
    ∃ p r, peakRmsVec (b.env P) inp peak sq n m =
        .ok ((), overwrite (overwrite m peak 1 fun _ => p) sq 1 fun _ => r) ∧
      IsSquareSum binary64 (n.toNat + 1) (binary64.toReal s0) (fun i => binary64.toReal (x i)) n.toNat r :=
  ⟨_, _, peakRms_ok (b.env P) hn hx hp hs, squares_scalar (b.adds P) (b.squares P) hs0 hf hr⟩

/-- `peak_rms_vec_simd` of `double`s, all builds but AVX (which starts from uninitialised lanes, C26). -/
theorem C79_rms_simd_double_partial (b : Build64) (hb : ∀ fma, b ≠ .avx fma) (P : Platform 64) {m : Mem (BitVec 64)}
    {inp peak sq : Nat} {n : BitVec 32} {x : ℕ → BitVec 64} {p0 s0 : BitVec 64} (hn : 0 < n.toNat)
    (hd : 4 * b.target.size ∣ n.toNat) (hal : b.target.align ∣ inp) (hx : Holds m inp n.toNat x)
    (hp : m peak = some p0) (hs : m sq = some s0) (hs0 : IsFin binary64 s0) (hf : ∀ i < n.toNat, IsFin binary64 (x i))
    (hr : SquareSumOk binary64 (n.toNat / (4 * b.target.size) + 4 + b.target.size) (binary64.toReal s0)
      (fun i => binary64.toReal (x i)) n.toNat) :
    ∃ p r, peakRmsVecSimd (b.vec P) inp peak sq n m =
        .ok ((), overwrite (overwrite m peak 1 fun _ => p) sq 1 fun _ => r) ∧
      IsSquareSum binary64 (n.toNat / (4 * b.target.size) + 4 + b.target.size) (binary64.toReal s0)
        (fun i => binary64.toReal (x i)) n.toNat r := by
  have ht : b.target ≠ .avxFloat ∧ b.target ≠ .avxDouble := by
    cases b <;> first | exact absurd rfl (hb _) | exact ⟨by simp [Build64.target], by simp [Build64.target]⟩
  have hn' : 4 * (b.target.vec (b.env P)).size ≤ n.toNat := by
    rw [b.target.vec_size]; exact Nat.le_of_dvd hn hd
  have h := peakRmsSimd_ok (b.target.lawful (b.env P)) hal (b.target.four_size_small (b.env P)) hn' hx
    (C32_load_first_partial b.target (b.env P) ht hp) (C32_load_first_partial b.target (b.env P) ht hs)
    (by rw [hp]; rfl) (by rw [hs]; rfl)
  exact ⟨_, _, h, squares_simd (b.adds P) (b.squares P) b.target hd hs0 hf hr⟩

/-! ## Ramps -/

/-- A ramp argument in a scalar loop on `float`s. -/
theorem C79_ramp_float (b : Build32) (P : Platform 32) {base slope : BitVec 32} (hb : IsFin binary32 base)
    (hs : IsFin binary32 slope) (i : ℕ) (hr : RampOk binary32 i (binary32.toReal base) (binary32.toReal slope) i 0) :
    IsRamp binary32 i (binary32.toReal base) (binary32.toReal slope) i 0 (scalarRamp (b.env P).S base slope i) := by
  have := scalarRamp_acc (b.adds P) hb hs i (by unfold RampOk at hr; rw [add_zero] at hr; exact hr)
  unfold Rmp at this
  rw [Nat.cast_one, one_mul, one_mul] at this
  exact ⟨this.fin, this.tol⟩

/-- A ramp argument in a scalar loop on `double`s. -/
theorem C79_ramp_double (b : Build64) (P : Platform 64) {base slope : BitVec 64} (hb : IsFin binary64 base)
    (hs : IsFin binary64 slope) (i : ℕ) (hr : RampOk binary64 i (binary64.toReal base) (binary64.toReal slope) i 0) :
    IsRamp binary64 i (binary64.toReal base) (binary64.toReal slope) i 0 (scalarRamp (b.env P).S base slope i) := by
  have := scalarRamp_acc (b.adds P) hb hs i (by unfold RampOk at hr; rw [add_zero] at hr; exact hr)
  unfold Rmp at this
  rw [Nat.cast_one, one_mul, one_mul] at this
  exact ⟨this.fin, this.tol⟩

/-- A ramp argument in a SIMD loop on `float`s: at most `size + i/size` additions. -/
theorem C79_ramp_simd_float (b : Build32) (P : Platform 32) {base slope : BitVec 32} (hb : IsFin binary32 base)
    (hs : IsFin binary32 slope) (i : ℕ)
    (hr : RampOk binary32 (b.target.size + i / b.target.size) (binary32.toReal base) (binary32.toReal slope) i 0) :
    IsRamp binary32 (b.target.size + i / b.target.size) (binary32.toReal base) (binary32.toReal slope) i 0
      (simdRamp (b.vec P) base slope i) := by
  have hsz : (b.vec P).size = b.target.size := b.target.vec_size (b.env P)
  have hpos : 0 < b.target.size := by rw [← hsz]; exact (b.vec P).size_pos
  have ei : i / b.target.size * b.target.size + i % b.target.size = i := Nat.div_add_mod' i _
  unfold RampOk at hr
  rw [add_zero] at hr
  obtain ⟨l, hl, e⟩ : ∃ l : Fin (b.target.vec (b.env P)).size, (l : ℕ) = i % b.target.size ∧
      simdRamp (b.vec P) base slope i = simdRampReg (b.target.vec (b.env P)) base slope (i / b.target.size) l := by
    refine ⟨⟨i % (b.vec P).size, Nat.mod_lt _ (b.vec P).size_pos⟩, by rw [← hsz], ?_⟩
    unfold simdRamp
    rw [show i / (b.vec P).size = i / b.target.size by rw [hsz]]
    rfl
  rw [e]
  have := simdRampReg_acc b.target (b.adds P) hb hs le_rfl (i / b.target.size) l (fun hj => by
      have hle : b.target.size ≤ i := by
        by_contra h
        rw [Nat.div_eq_of_lt (by omega)] at hj
        exact absurd hj (lt_irrefl 0)
      have := setSlope_step_acc b.target (base := base) (b.adds P) (fun _ => mul_eight32 b P) hs
        (show RmpOk binary32 _ _ _ _ from RmpOk.mono (k := i) (d := b.target.size + i / b.target.size) hr hle (by omega))
      unfold Rmp at this
      exact this.congr (by push_cast; ring) (by push_cast; ring) rfl)
    (by rw [hl, ei, mul_zero, add_zero]; exact hr)
  rw [hl, ei, mul_zero] at this
  exact ⟨this.fin, this.tol⟩

/-- What the conversion of the increment to `float` (C14) can add per register. -/
noncomputable def floatStepError (size : ℕ) (slope : ℝ) : ℝ := size * |slope| / 2 ^ 23 + 1 / 2 ^ 150

/-- A ramp argument in a SIMD loop on `double`s.  The increment passes through a `float` (C14), so the error also has a
term that grows by `size * |slope| * 2^-23` per register. -/
theorem C79_ramp_simd_double (b : Build64) (P : Platform 64) {base slope : BitVec 64} (hb : IsFin binary64 base)
    (hs : IsFin binary64 slope) (hsl : b.target.size * |binary64.toReal slope| ≤ 2 ^ 126) (i : ℕ)
    (hr : RampOk binary64 (b.target.size + i / b.target.size) (binary64.toReal base) (binary64.toReal slope) i
      ((i / b.target.size : ℕ) * floatStepError b.target.size (binary64.toReal slope))) :
    IsRamp binary64 (b.target.size + i / b.target.size) (binary64.toReal base) (binary64.toReal slope) i
      ((i / b.target.size : ℕ) * floatStepError b.target.size (binary64.toReal slope)) (simdRamp (b.vec P) base slope i) := by
  have hsz : (b.vec P).size = b.target.size := b.target.vec_size (b.env P)
  have ei : i / b.target.size * b.target.size + i % b.target.size = i := Nat.div_add_mod' i _
  have hf0 : 0 ≤ floatStepError b.target.size (binary64.toReal slope) := by unfold floatStepError; positivity
  unfold RampOk at hr
  obtain ⟨l, hl, e⟩ : ∃ l : Fin (b.target.vec (b.env P)).size, (l : ℕ) = i % b.target.size ∧
      simdRamp (b.vec P) base slope i = simdRampReg (b.target.vec (b.env P)) base slope (i / b.target.size) l := by
    refine ⟨⟨i % (b.vec P).size, Nat.mod_lt _ (b.vec P).size_pos⟩, by rw [← hsz], ?_⟩
    unfold simdRamp
    rw [show i / (b.vec P).size = i / b.target.size by rw [hsz]]
    rfl
  rw [e]
  have := simdRampReg_acc b.target (b.adds P) hb hs hf0 (i / b.target.size) l (fun hj => by
      have hle : b.target.size ≤ i := by
        by_contra h
        rw [Nat.div_eq_of_lt (by omega)] at hj
        exact absurd hj (lt_irrefl 0)
      have hok : RmpOk binary64 (binary64.toReal base) (binary64.toReal slope) i (b.target.size + i / b.target.size) := by
        refine le_trans (mul_le_mul_of_nonneg_left ?_ (zero_le_one.trans (Acc.one_le binary64 _))) hr
        have : 0 ≤ ((i / b.target.size : ℕ) : ℝ) * floatStepError b.target.size (binary64.toReal slope) := by positivity
        linarith
      have hstep := setSlope_step_acc b.target (base := base) (b.adds P)
        (fun h => by cases b <;> simp [Build64.target] at h) hs
        (show RmpOk binary64 _ _ _ _ from hok.mono hle (by omega))
      unfold Rmp at hstep
      have hstep' : FP.Acc binary64 b.target.size (b.target.size * binary64.toReal slope)
          (b.target.size * |binary64.toReal slope|) 0 ((b.target.vec (b.env P)).setSlope base slope).2 :=
        hstep.congr (by push_cast; ring) (by push_cast; ring) rfl
      have h2 : (1 + binary64.u) ^ b.target.size ≤ 2 := by
        have hle : b.target.size ≤ 4 := by cases b <;> simp [Build64.target, Target.size]
        refine (Acc.pow_mono binary64 hle).trans ?_
        rw [Fmt.u64]; norm_num
      have hA : 0 ≤ (b.target.size : ℝ) * |binary64.toReal slope| := by positivity
      have hle1 := hstep'.le
      rw [add_zero] at hle1
      have hle2 := hle1.trans (mul_le_mul_of_nonneg_right h2 hA)
      have hn := narrow_near hstep'.fin (hle2.trans (by
        rw [show (2 : ℝ) ^ 127 = 2 * 2 ^ 126 by rw [← pow_succ']]; linarith))
      have hw := widen_value hn.1
      refine ⟨hw.1, hstep'.abs, hf0, ?_⟩
      show |binary64.toReal (widen (narrow _)) - _| ≤ _
      rw [hw.2]
      have h3 := hn.2
      rw [Fmt.u32, Fmt.eta32] at h3
      have h4 : |binary32.toReal (narrow ((b.target.vec (b.env P)).setSlope base slope).2) -
          binary64.toReal ((b.target.vec (b.env P)).setSlope base slope).2| ≤
          floatStepError b.target.size (binary64.toReal slope) := by
        refine h3.trans (max_le ?_ ?_)
        · unfold floatStepError
          have := mul_le_mul_of_nonneg_left hle2 (show (0 : ℝ) ≤ 1 / 2 ^ 24 by positivity)
          refine this.trans ?_
          have h5 : (1 : ℝ) / 2 ^ 24 * (2 * (b.target.size * |binary64.toReal slope|)) =
            b.target.size * |binary64.toReal slope| / 2 ^ 23 := by ring
          rw [h5]
          have : (0 : ℝ) ≤ 1 / 2 ^ 150 := by positivity
          linarith
        · unfold floatStepError
          have : 0 ≤ (b.target.size : ℝ) * |binary64.toReal slope| / 2 ^ 23 := by positivity
          linarith
      have h5 := hstep'.err
      have h6 := abs_add_le (binary32.toReal (narrow ((b.target.vec (b.env P)).setSlope base slope).2) -
          binary64.toReal ((b.target.vec (b.env P)).setSlope base slope).2)
        (binary64.toReal ((b.target.vec (b.env P)).setSlope base slope).2 - b.target.size * binary64.toReal slope)
      rw [sub_add_sub_cancel] at h6
      have h7 : floatStepError b.target.size (binary64.toReal slope) ≤
          (1 + binary64.u) ^ b.target.size * floatStepError b.target.size (binary64.toReal slope) :=
        le_mul_of_one_le_left hf0 (Acc.one_le binary64 _)
      rw [add_zero] at h5
      rw [mul_add]
      linarith)
    (by rw [hl, ei]; exact hr)
  rw [hl, ei] at this
  exact ⟨this.fin, this.tol⟩

/-- `f_vec_simd(out, a, slope_argument(base, slope), n)` of `float`s applies `f` to the elements of `a` and to a ramp
with the stated error; so does the scalar function. -/
theorem C79_binary_ramp_float (b : Build32) (P : Platform 32) (op : BinOp) {m : Mem (BitVec 32)} {out : Nat}
    {a : SArg (BitVec 32)} {n : BitVec 32} {x : ℕ → BitVec 32} {base slope : BitVec 32} (hn : 0 < n.toNat)
    (hmul : b.target.perLine ∣ n.toNat) (hoal : b.target.align ∣ out) (hout : Allocated m out n.toNat)
    (ha : SimdSupplies (b.vec P) b.target.align m out n.toNat a x)
    (ga : ScalarSupplies (b.env P).S m out n.toNat a x) (hb : IsFin binary32 base) (hs : IsFin binary32 slope)
    (hr : RampOk binary32 (b.target.size + n.toNat) (binary32.toReal base) (binary32.toReal slope) n.toNat 0) :
    ∃ y z : ℕ → BitVec 32,
      op.vecSimd (b.vec P) out a (.ramp base slope) n m
        = .ok ((), overwrite m out n.toNat fun i => op.f (b.lane P) (x i) (y i)) ∧
      op.vec (b.env P).S out a (.ramp base slope) n m
        = .ok ((), overwrite m out n.toNat fun i => op.f (b.env P).S (x i) (z i)) ∧
      ∀ i < n.toNat,
        IsRamp binary32 (b.target.size + i / b.target.size) (binary32.toReal base) (binary32.toReal slope) i 0 (y i) ∧
        IsRamp binary32 i (binary32.toReal base) (binary32.toReal slope) i 0 (z i) := by
  refine ⟨simdRamp (b.vec P) base slope, scalarRamp (b.env P).S base slope,
    C02_binary_simd b.target (b.env P) op hn hmul hoal hout ha fun i _ => rfl,
    C02_binary_scalar (b.env P).S op hn hout ga fun i _ => rfl, fun i hi => ⟨?_, ?_⟩⟩
  · apply C79_ramp_simd_float b P hb hs
    unfold RampOk at hr ⊢
    rw [add_zero] at hr ⊢
    exact RmpOk.mono (F := binary32) hr hi.le (Nat.add_le_add_left ((Nat.div_le_self _ _).trans hi.le) _)
  · apply C79_ramp_float b P hb hs
    unfold RampOk at hr ⊢
    rw [add_zero] at hr ⊢
    exact RmpOk.mono (F := binary32) hr hi.le (by omega)

/-! ## The hypotheses can be met -/

/-- Sixteen times 1.0 on SSE2: the error of the sum is at most `8 * 16 / 2^23`. -/
example (P : Platform 32) :
    ∃ r, horizontalSumVecSimd ((Build32.sse false ⟨true, false, false⟩).env P)
        ((Build32.sse false ⟨true, false, false⟩).vec P) 0 16#32
        (fun i => if i < 16 then some 0x3f800000#32 else none) =
      .ok (r, fun i => if i < 16 then some 0x3f800000#32 else none) ∧ |binary32.toReal r - 16| ≤ 8 * 16 / 2 ^ 23 := by
  have o1 := isVal_fin (x := 0x3f800000#32) (q := 1) (by decide +kernel)
  have o2 : binary32.toReal 0x3f800000#32 = 1 := by
    have := isVal_value (x := 0x3f800000#32) (q := 1) (by decide +kernel)
    rwa [Rat.cast_one] at this
  have hs : ∑ i ∈ range 16, |(fun _ => binary32.toReal 0x3f800000#32) i| = (16 : ℝ) := by simp [o2]
  have hs' : ∑ i ∈ range 16, (fun _ => binary32.toReal 0x3f800000#32) i = (16 : ℝ) := by simp [o2]
  obtain ⟨h1, h2⟩ := C79_in_numbers (d := 8) (n := 16) (x := fun _ => binary32.toReal 0x3f800000#32) (by norm_num)
    (by rw [hs]; norm_num)
  obtain ⟨r, hr, h⟩ := C79_sum_simd_float (.sse false ⟨true, false, false⟩) P (n := 16#32) (x := fun _ => 0x3f800000#32)
    (inp := 0) (m := fun i => if i < 16 then some 0x3f800000#32 else none)
    ⟨by decide, by decide, by decide, by unfold Holds; decide⟩ (fun _ _ => o1) h1
  have h3 := h2 r h
  rw [hs, hs'] at h3
  exact ⟨r, hr, h3⟩

/-- The ranges of the squares and of the ramps. -/
example : SquareSumOk binary32 5 0 (fun _ => 1) 4 ∧ RampOk binary32 29 1 (1 / 4) 100 0 ∧
    RampOk binary64 52 1 (1 / 4) 100 (50 * floatStepError 2 (1 / 4)) := by
  unfold SquareSumOk RampOk floatStepError
  rw [Fmt.u32, Fmt.u64, Fmt.eta32, bias32, show binary64.bias = 1023 from rfl]
  refine ⟨by norm_num, by norm_num, ?_⟩
  rw [abs_one, abs_of_nonneg (by norm_num : (0 : ℝ) ≤ 1 / 4)]
  refine le_trans (b := (2 : ℝ) ^ 20) ?_ (pow_le_pow_right₀ (by norm_num) (by norm_num))
  norm_num

end Nova
