import Verif.SpecIdentities
import Verif.Lemmas.FullScale
import Verif.Props.C99_Contract

/-!
# C102 Identities between functions

What the mathematical functions satisfy, the computed ones satisfy up to a stated tolerance, for every choice of fused products
and sums in either of the calls.
-/

namespace Nova
open FP VecMath Spec

section
variable {c c' : Bool} {b : Build32} {P : Platform 32} {x y z : BitVec 32}

/-- The accuracy of one call. -/
theorem Computes.near (hb : b.simdMath = true) (hP : P.GoodLogs) (hrcp : P.GoodRcp) {op : UnOp}
    (h : Computes c b P op x y) (hx : IsFin binary32 x) (hr : UnRange op (binary32.toReal x)) :
    IsFin binary32 y ∧ UnNear op (binary32.toReal x) (binary32.toReal y) := by
  obtain ⟨y', e, h1, h2⟩ := C99_unary c b hb P hP hrcp op x hx hr _ h
  cases e
  exact ⟨h1, h2⟩

theorem Computes.full (hb : b.simdMath = true) {op : UnOp} (hop : op = .sin ∨ op = .cos)
    (h : Computes c b P op x y) (hx : IsFin binary32 x) (hr : |binary32.toReal x| ≤ 8192) : |binary32.toReal y| ≤ 1 := by
  have hi := (b.templates hb P).ieee
  rcases hop with rfl | rfl
  · obtain ⟨y', e, h1⟩ := contract_map h fun y hy => Contract.vecSin_le hi hx hr y hy
    cases e; exact h1
  · obtain ⟨y', e, h1⟩ := contract_map h fun y hy => Contract.vecCos_le hi hx hr y hy
    cases e; exact h1

/-- `sin² + cos² = 1` up to 1e-6: a point stays on the unit circle. -/
theorem C102_circle (hb : b.simdMath = true) (hP : P.GoodLogs) (hrcp : P.GoodRcp)
    (hx : IsFin binary32 x) (hr : |binary32.toReal x| ≤ 8192) (hs : Computes c b P .sin x y) (hc : Computes c' b P .cos x z) :
    |binary32.toReal y ^ 2 + binary32.toReal z ^ 2 - 1| ≤ 1e-6 := by
  have s1 : |binary32.toReal y - Real.sin (binary32.toReal x)| ≤ 1 / 2 ^ 22 := (hs.near hb hP hrcp hx hr).2
  have c1 : |binary32.toReal z - Real.cos (binary32.toReal x)| ≤ 1 / 2 ^ 22 := (hc.near hb hP hrcp hx hr).2
  have s2 := hs.full hb (.inl rfl) hx hr
  have c2 := hc.full hb (.inr rfl) hx hr
  have e := Real.sin_sq_add_cos_sq (binary32.toReal x)
  have s3 := Real.abs_sin_le_one (binary32.toReal x)
  have c3 := Real.abs_cos_le_one (binary32.toReal x)
  generalize Real.sin (binary32.toReal x) = S at *
  generalize Real.cos (binary32.toReal x) = C at *
  generalize binary32.toReal y = s at *
  generalize binary32.toReal z = d at *
  have k {a A : ℝ} (h1 : |a - A| ≤ 1 / 2 ^ 22) (h2 : |a| ≤ 1) (h3 : |A| ≤ 1) : |a ^ 2 - A ^ 2| ≤ 1 / 2 ^ 22 * 2 := by
    rw [show a ^ 2 - A ^ 2 = (a - A) * (a + A) by ring, abs_mul]
    exact mul_le_mul h1 ((abs_add_le _ _).trans (by linarith)) (abs_nonneg _) (by norm_num)
  rw [show s ^ 2 + d ^ 2 - 1 = (s ^ 2 - S ^ 2) + (d ^ 2 - C ^ 2) by linarith]
  refine (abs_add_le _ _).trans ((add_le_add (k s1 s2 s3) (k c1 c2 c3)).trans ?_)
  norm_num

/-- `tan · cos = sin`, with a tolerance which grows as the cosine vanishes. -/
theorem C102_tan {t : BitVec 32} (hb : b.simdMath = true) (hP : P.GoodLogs) (hrcp : P.GoodRcp)
    (hx : IsFin binary32 x) (hr : |binary32.toReal x| ≤ 8192) (hc0 : 1 / 2 ^ 16 ≤ |Real.cos (binary32.toReal x)|)
    {c'' : Bool} (hs : Computes c b P .sin x y) (hc : Computes c' b P .cos x z) (ht : Computes c'' b P .tan x t) :
    |binary32.toReal t * binary32.toReal z - binary32.toReal y| ≤ 1e-6 / |Real.cos (binary32.toReal x)| := by
  have s1 : |binary32.toReal y - Real.sin (binary32.toReal x)| ≤ 1 / 2 ^ 22 := (hs.near hb hP hrcp hx hr).2
  have c1 : |binary32.toReal z - Real.cos (binary32.toReal x)| ≤ 1 / 2 ^ 22 := (hc.near hb hP hrcp hx hr).2
  have t1 : |binary32.toReal t - Real.tan (binary32.toReal x)| ≤ 1 / 2 ^ 21 / Real.cos (binary32.toReal x) ^ 2 :=
    (ht.near hb hP hrcp hx ⟨hr, hc0⟩).2
  have s3 := Real.abs_sin_le_one (binary32.toReal x)
  have c3 := Real.abs_cos_le_one (binary32.toReal x)
  rw [Real.tan_eq_sin_div_cos] at t1
  generalize Real.sin (binary32.toReal x) = S at *
  generalize Real.cos (binary32.toReal x) = C at *
  generalize binary32.toReal y = s at *
  generalize binary32.toReal z = d at *
  generalize binary32.toReal t = T at *
  have hC : 0 < |C| := lt_of_lt_of_le (by norm_num) hc0
  have hC' : C ≠ 0 := abs_pos.mp hC
  have e : T * d - s = (T - S / C) * d + S / C * (d - C) - (s - S) := by field_simp; ring
  have k1 : |(T - S / C) * d| ≤ 1 / 2 ^ 21 * 1.02 / |C| := by
    rw [abs_mul]
    have hd : |d| ≤ 1.02 * |C| := by
      have := abs_add_le (d - C) C
      rw [sub_add_cancel] at this
      norm_num at *
      linarith
    refine (mul_le_mul t1 hd (abs_nonneg _) (by positivity)).trans (le_of_eq ?_)
    rw [← sq_abs]
    field_simp
  have k2 : |S / C * (d - C)| ≤ 1 / 2 ^ 22 / |C| := by
    rw [abs_mul, abs_div]
    refine (mul_le_mul (div_le_div_of_nonneg_right s3 hC.le) c1 (abs_nonneg _) (by positivity)).trans (le_of_eq ?_)
    ring
  have k3 : |s - S| ≤ 1 / 2 ^ 22 / |C| := s1.trans (by
    rw [le_div_iff₀ hC]; exact mul_le_of_le_one_right (by norm_num) c3)
  rw [e]
  have h2 := abs_add_le ((T - S / C) * d) (S / C * (d - C))
  have h3 : 1 / 2 ^ 21 * 1.02 / |C| + 1 / 2 ^ 22 / |C| + 1 / 2 ^ 22 / |C| ≤ 1e-6 / |C| := by
    rw [← add_div, ← add_div]
    exact div_le_div_of_nonneg_right (by norm_num) hC.le
  have h4 : |(T - S / C) * d + S / C * (d - C) - (s - S)| ≤ |(T - S / C) * d + S / C * (d - C)| + |s - S| := abs_sub _ _
  linarith

theorem exp_sub_one {d : ℝ} (h : |d| ≤ 1 / 10 ^ 4) : |Real.exp d - 1| ≤ 1.0001 * |d| := by
  have h1 := Real.abs_exp_sub_one_sub_id_le (x := d) (h.trans (by norm_num))
  have h2 := abs_add_le (Real.exp d - 1 - d) d
  rw [sub_add_cancel] at h2
  have h3 : d ^ 2 ≤ 1 / 10 ^ 4 * |d| := by rw [← sq_abs, sq]; exact mul_le_mul_of_nonneg_right h (abs_nonneg d)
  norm_num at *
  linarith

theorem log_ratio {a t : ℝ} (ht : |t| ≤ 1 / 2 ^ 21) (ha : a = 1 + t) : |Real.log a| ≤ 1.001 / 2 ^ 21 := by
  rw [ha]
  obtain ⟨t1, t2⟩ := abs_le.mp ht
  have hp : 0 < 1 + t := by norm_num at *; linarith
  rw [abs_le]
  constructor
  · have h1 := Real.one_sub_inv_le_log_of_pos hp
    have h2 : 1 - (1 + t)⁻¹ = t / (1 + t) := by field_simp; ring
    rw [h2] at h1
    refine le_trans ?_ h1
    rw [le_div_iff₀ hp]
    norm_num at *
    linarith
  · have := Real.log_le_sub_one_of_pos hp
    norm_num at *
    linarith

/-- `exp(log x) = x` for the numbers from 1.4e-38 to 3.3e38. -/
theorem C102_exp_log (hb : b.simdMath = true) (hP : P.GoodLogs) (hrcp : P.GoodRcp) (hx : IsFin binary32 x)
    (h1 : 1 / 2 ^ 126 ≤ binary32.toReal x) (hlo : -87.3 ≤ Real.log (binary32.toReal x))
    (hhi : Real.log (binary32.toReal x) ≤ 88.7) (hl : Computes c b P .log x y) (he : Computes c' b P .exp y z) :
    |binary32.toReal z - binary32.toReal x| ≤
      (5e-7 + 2.5e-7 * |Real.log (binary32.toReal x)|) * binary32.toReal x := by
  obtain ⟨fy, l1⟩ := hl.near hb hP hrcp hx h1
  replace l1 : |binary32.toReal y - Real.log (binary32.toReal x)| ≤ 1 / 2 ^ 22 * |Real.log (binary32.toReal x)| := l1
  have hx0 : 0 < binary32.toReal x := lt_of_lt_of_le (by positivity) h1
  have hL : |Real.log (binary32.toReal x)| ≤ 88.7 := by rw [abs_le]; constructor <;> linarith
  have hd : |binary32.toReal y - Real.log (binary32.toReal x)| ≤ 1 / 10 ^ 4 := l1.trans (by norm_num at *; linarith)
  have hr : UnRange .exp (binary32.toReal y) := by
    have := abs_le.mp l1
    constructor <;> norm_num at * <;> linarith
  obtain ⟨fz, e1⟩ := he.near hb hP hrcp fy hr
  replace e1 : |binary32.toReal z - Real.exp (binary32.toReal y)| ≤ 1 / 2 ^ 21 * Real.exp (binary32.toReal y) := e1
  have e2 : Real.exp (binary32.toReal y) =
      binary32.toReal x * Real.exp (binary32.toReal y - Real.log (binary32.toReal x)) := by
    rw [Real.exp_sub, Real.exp_log hx0]; field_simp
  have e3 := exp_sub_one hd
  rw [e2] at e1
  generalize hδ : binary32.toReal y - Real.log (binary32.toReal x) = d at *
  generalize Real.log (binary32.toReal x) = L at *
  generalize Real.exp d = E at *
  generalize binary32.toReal z = Z at *
  generalize binary32.toReal x = X at *
  have k1 : |X * E - X| ≤ 1.0001 * (1 / 2 ^ 22 * |L|) * X := by
    rw [show X * E - X = (E - 1) * X by ring, abs_mul, abs_of_pos hx0]
    exact mul_le_mul_of_nonneg_right (e3.trans (mul_le_mul_of_nonneg_left l1 (by norm_num))) hx0.le
  have k2 : E ≤ 1.001 := by
    have := abs_le.mp e3
    norm_num at *
    linarith
  have k3 : 1 / 2 ^ 21 * (X * E) ≤ 1 / 2 ^ 21 * 1.001 * X := by
    have := mul_le_mul_of_nonneg_left k2 hx0.le
    norm_num at *
    linarith
  have k4 := abs_add_le (Z - X * E) (X * E - X)
  rw [sub_add_sub_cancel] at k4
  have k5 : |L| * X ≥ 0 := mul_nonneg (abs_nonneg _) hx0.le
  rw [show (5e-7 + 2.5e-7 * |L|) * X = 5e-7 * X + 2.5e-7 * (|L| * X) by ring]
  rw [show 1.0001 * (1 / 2 ^ 22 * |L|) * X = 1.0001 / 2 ^ 22 * (|L| * X) by ring] at k1
  generalize |L| * X = q at *
  norm_num at *
  linarith

/-- `log(exp x) = x` for the numbers from -87.3 to 88.72. -/
theorem C102_log_exp (hb : b.simdMath = true) (hP : P.GoodLogs) (hrcp : P.GoodRcp) (hx : IsFin binary32 x)
    (h1 : -87.3 ≤ binary32.toReal x) (h2 : binary32.toReal x ≤ 88.72) (he : Computes c b P .exp x y)
    (hl : Computes c' b P .log y z) :
    |binary32.toReal z - binary32.toReal x| ≤ 5e-7 + 2.5e-7 * |binary32.toReal x| := by
  obtain ⟨fy, e1⟩ := he.near hb hP hrcp hx (by constructor <;> norm_num at * <;> linarith)
  replace e1 : |binary32.toReal y - Real.exp (binary32.toReal x)| ≤ 1 / 2 ^ 21 * Real.exp (binary32.toReal x) := e1
  have hE := Real.exp_pos (binary32.toReal x)
  obtain ⟨t, ht⟩ : ∃ t, binary32.toReal y = Real.exp (binary32.toReal x) * (1 + t) :=
    ⟨binary32.toReal y / Real.exp (binary32.toReal x) - 1, by field_simp; ring⟩
  have ht1 : |t| ≤ 1 / 2 ^ 21 := by
    rw [ht, show Real.exp (binary32.toReal x) * (1 + t) - Real.exp (binary32.toReal x) =
      t * Real.exp (binary32.toReal x) by ring, abs_mul, abs_of_pos hE] at e1
    exact le_of_mul_le_mul_right e1 hE
  have hlo : 1 / 2 ^ 126 ≤ binary32.toReal y := by
    have k1 : (1.01 : ℝ) / 2 ^ 126 ≤ Real.exp (binary32.toReal x) := by
      have k2 : Real.log (1.01 / 2 ^ 126) ≤ binary32.toReal x := by
        rw [Real.log_div (by norm_num) (by positivity), Real.log_pow]
        have k3 := Real.log_two_gt_d9
        have k4 := Real.log_le_sub_one_of_pos (show (0 : ℝ) < 1.01 by norm_num)
        push_cast
        norm_num at *
        linarith
      rw [← Real.log_le_iff_le_exp (by positivity)]
      exact k2
    have k2 := (abs_le.mp e1).1
    generalize Real.exp (binary32.toReal x) = E at *
    norm_num at *
    linarith
  obtain ⟨fz, l1⟩ := hl.near hb hP hrcp fy hlo
  replace l1 : |binary32.toReal z - Real.log (binary32.toReal y)| ≤ 1 / 2 ^ 22 * |Real.log (binary32.toReal y)| := l1
  have hp : 0 < 1 + t := by have := (abs_le.mp ht1).1; norm_num at *; linarith
  rw [ht, Real.log_mul hE.ne' hp.ne', Real.log_exp] at l1
  have k1 := log_ratio ht1 rfl
  generalize Real.log (1 + t) = q at *
  generalize binary32.toReal z = Z at *
  generalize binary32.toReal x = X at *
  have k2 := abs_add_le (Z - (X + q)) q
  rw [show Z - (X + q) + q = Z - X by ring] at k2
  have k3 := abs_add_le X q
  have k4 := abs_nonneg X
  generalize |X + q| = w at *
  generalize |X| = v at *
  norm_num at *
  linarith

/-- `asin x + acos x = π/2`. -/
theorem C102_asin_acos (hb : b.simdMath = true) (hP : P.GoodLogs) (hrcp : P.GoodRcp) (hx : IsFin binary32 x)
    (hr : |binary32.toReal x| ≤ 1) (hn : binary32.toReal x ≠ -1 / 2) (hs : Computes c b P .asin x y)
    (hc : Computes c' b P .acos x z) : |binary32.toReal y + binary32.toReal z - Real.pi / 2| ≤ 1.6e-6 := by
  have s1 : |binary32.toReal y - Real.arcsin (binary32.toReal x)| ≤ 5e-7 * |Real.arcsin (binary32.toReal x)| :=
    (hs.near hb hP hrcp hx hr).2
  have c1 : |binary32.toReal z - Real.arccos (binary32.toReal x)| ≤ 2.5e-7 * Real.arccos (binary32.toReal x) :=
    (hc.near hb hP hrcp hx ⟨hr, hn⟩).2
  have e := Real.arccos_eq_pi_div_two_sub_arcsin (binary32.toReal x)
  have a1 : |Real.arcsin (binary32.toReal x)| ≤ Real.pi / 2 :=
    abs_le.mpr ⟨Real.neg_pi_div_two_le_arcsin _, Real.arcsin_le_pi_div_two _⟩
  have p := Real.pi_lt_d6
  rw [e] at c1
  generalize Real.arcsin (binary32.toReal x) = A at *
  have k := abs_add_le (binary32.toReal y - A) (binary32.toReal z - (Real.pi / 2 - A))
  rw [show binary32.toReal y - A + (binary32.toReal z - (Real.pi / 2 - A)) =
    binary32.toReal y + binary32.toReal z - Real.pi / 2 by ring] at k
  have k2 := (abs_le.mp a1).1
  generalize |A| = w at *
  norm_num at *
  linarith

/-- `sin(asin x) = x`. -/
theorem C102_sin_asin (hb : b.simdMath = true) (hP : P.GoodLogs) (hrcp : P.GoodRcp) (hx : IsFin binary32 x)
    (hr : |binary32.toReal x| ≤ 1) (ha : Computes c b P .asin x y) (hs : Computes c' b P .sin y z) :
    |binary32.toReal z - binary32.toReal x| ≤ 1.1e-6 := by
  obtain ⟨fy, a1⟩ := ha.near hb hP hrcp hx hr
  replace a1 : |binary32.toReal y - Real.arcsin (binary32.toReal x)| ≤ 5e-7 * |Real.arcsin (binary32.toReal x)| := a1
  have a2 : |Real.arcsin (binary32.toReal x)| ≤ Real.pi / 2 :=
    abs_le.mpr ⟨Real.neg_pi_div_two_le_arcsin _, Real.arcsin_le_pi_div_two _⟩
  have p := Real.pi_lt_d6
  have hy : |binary32.toReal y| ≤ 8192 := by
    have := abs_add_le (binary32.toReal y - Real.arcsin (binary32.toReal x)) (Real.arcsin (binary32.toReal x))
    rw [sub_add_cancel] at this
    generalize |Real.arcsin (binary32.toReal x)| = w at *
    norm_num at *
    linarith
  have s1 : |binary32.toReal z - Real.sin (binary32.toReal y)| ≤ 1 / 2 ^ 22 := (hs.near hb hP hrcp fy hy).2
  have e : Real.sin (Real.arcsin (binary32.toReal x)) = binary32.toReal x :=
    Real.sin_arcsin (abs_le.mp hr).1 (abs_le.mp hr).2
  have k1 := Real.abs_sin_sub_sin_le (binary32.toReal y) (Real.arcsin (binary32.toReal x))
  rw [e] at k1
  have k2 := abs_add_le (binary32.toReal z - Real.sin (binary32.toReal y)) (Real.sin (binary32.toReal y) - binary32.toReal x)
  rw [sub_add_sub_cancel] at k2
  generalize |Real.arcsin (binary32.toReal x)| = w at *
  norm_num at *
  linarith

/-- The three logarithms agree: `log x = ln 2 · log2 x = ln 10 · log10 x`. -/
theorem C102_logs {u : BitVec 32} (hb : b.simdMath = true) (hP : P.GoodLogs) (hrcp : P.GoodRcp) (hx : IsFin binary32 x)
    (h1 : 1 / 2 ^ 126 ≤ binary32.toReal x) {c'' : Bool} (hl : Computes c b P .log x y) (h2 : Computes c' b P .log2 x z)
    (h10 : Computes c'' b P .log10 x u) :
    |binary32.toReal y - Real.log 2 * binary32.toReal z| ≤ 7.2e-7 * |Real.log (binary32.toReal x)| ∧
    |binary32.toReal y - Real.log 10 * binary32.toReal u| ≤ 7.2e-7 * |Real.log (binary32.toReal x)| := by
  have l1 : |binary32.toReal y - Real.log (binary32.toReal x)| ≤ 1 / 2 ^ 22 * |Real.log (binary32.toReal x)| :=
    (hl.near hb hP hrcp hx h1).2
  have m1 : |binary32.toReal z - Real.logb 2 (binary32.toReal x)| ≤ 1 / 2 ^ 21 * |Real.logb 2 (binary32.toReal x)| :=
    (h2.near hb hP hrcp hx h1).2
  have n1 : |binary32.toReal u - Real.logb 10 (binary32.toReal x)| ≤ 1 / 2 ^ 21 * |Real.logb 10 (binary32.toReal x)| :=
    (h10.near hb hP hrcp hx h1).2
  have k {B v : ℝ} (hB : 1 < B) (h : |v - Real.logb B (binary32.toReal x)| ≤ 1 / 2 ^ 21 * |Real.logb B (binary32.toReal x)|) :
      |binary32.toReal y - Real.log B * v| ≤ 7.2e-7 * |Real.log (binary32.toReal x)| := by
    have hB0 := Real.log_pos hB
    have e : Real.log B * Real.logb B (binary32.toReal x) = Real.log (binary32.toReal x) := by
      unfold Real.logb; field_simp
    have h2 := mul_le_mul_of_nonneg_left h hB0.le
    rw [show Real.log B * (1 / 2 ^ 21 * |Real.logb B (binary32.toReal x)|) =
        1 / 2 ^ 21 * (Real.log B * |Real.logb B (binary32.toReal x)|) by ring] at h2
    have a (w : ℝ) : Real.log B * |w| = |Real.log B * w| := by rw [abs_mul, abs_of_pos hB0]
    rw [a, a, mul_sub, e] at h2
    have h4 : |binary32.toReal y - Real.log B * v| ≤ |binary32.toReal y - Real.log (binary32.toReal x)| +
        |Real.log B * v - Real.log (binary32.toReal x)| := by
      have := abs_add_le (binary32.toReal y - Real.log (binary32.toReal x)) (-(Real.log B * v - Real.log (binary32.toReal x)))
      rw [abs_neg, show binary32.toReal y - Real.log (binary32.toReal x) + -(Real.log B * v - Real.log (binary32.toReal x)) =
        binary32.toReal y - Real.log B * v by ring] at this
      exact this
    have hw := abs_nonneg (Real.log (binary32.toReal x))
    generalize |Real.log (binary32.toReal x)| = w at *
    norm_num at *
    linarith
  exact ⟨k (by norm_num) m1, k (by norm_num) n1⟩

/-- `square(signed_sqrt x) = |x|`. -/
theorem C102_square_sqrt (hb : b.simdMath = true) (hP : P.GoodLogs) (hrcp : P.GoodRcp) (hx : IsFin binary32 x)
    (hm : |binary32.toReal x| ≤ 2 ^ 120) (hr : Computes c b P .signedSqrt x y) (hs : Computes c' b P .square y z) :
    |binary32.toReal z - (|binary32.toReal x|)| ≤ 1.9e-7 * |binary32.toReal x| + 1 / 2 ^ 150 := by
  obtain ⟨fy, r1⟩ := hr.near hb hP hrcp hx trivial
  replace r1 : |binary32.toReal y - sgn (binary32.toReal x) * √(|binary32.toReal x|)| ≤
    6e-8 * √(|binary32.toReal x|) := r1
  have hS := Real.sqrt_nonneg (|binary32.toReal x|)
  have hSS := Real.mul_self_sqrt (abs_nonneg (binary32.toReal x))
  have hg2 : (sgn (binary32.toReal x) * √(|binary32.toReal x|)) ^ 2 = |binary32.toReal x| := by
    rw [mul_pow, sq √(|binary32.toReal x|), hSS]
    unfold sgn
    split_ifs with h1 h2
    · ring
    · rw [h2]; simp
    · ring
  have hu : |sgn (binary32.toReal x) * √(|binary32.toReal x|)| = √(|binary32.toReal x|) := by
    rw [← Real.sqrt_sq_eq_abs, hg2]
  have hS60 : √(|binary32.toReal x|) ≤ 2 ^ 60 := by
    rw [show (2 ^ 60 : ℝ) = √((2 ^ 60) ^ 2) by rw [Real.sqrt_sq (by norm_num)]]
    exact Real.sqrt_le_sqrt (hm.trans (by norm_num))
  generalize √(|binary32.toReal x|) = S at *
  generalize sgn (binary32.toReal x) * S = G at *
  have hy : |binary32.toReal y| ≤ 1.00000007 * S := by
    have := abs_add_le (binary32.toReal y - G) G
    rw [sub_add_cancel, hu] at this
    norm_num at *
    linarith
  have s1 : |binary32.toReal z - binary32.toReal y ^ 2| ≤ 6e-8 * binary32.toReal y ^ 2 + 1 / 2 ^ 150 :=
    (hs.near hb hP hrcp fy (show |binary32.toReal y| ≤ 2 ^ 63 by norm_num at *; linarith)).2
  have hyy : binary32.toReal y ^ 2 ≤ 1.0000002 * |binary32.toReal x| := by
    rw [← sq_abs, ← hSS]
    refine (pow_le_pow_left₀ (abs_nonneg _) hy 2).trans ?_
    have := mul_self_nonneg S
    rw [mul_pow, sq S]
    exact mul_le_mul_of_nonneg_right (by norm_num) this
  have hd : |binary32.toReal y ^ 2 - (|binary32.toReal x|)| ≤ 1.21e-7 * |binary32.toReal x| := by
    rw [← hg2, show binary32.toReal y ^ 2 - G ^ 2 = (binary32.toReal y - G) * (binary32.toReal y + G) by ring, abs_mul, hg2]
    have h2 : |binary32.toReal y + G| ≤ 2.0000001 * S := by
      refine (abs_add_le _ _).trans ?_
      rw [hu]
      norm_num at *
      linarith
    refine (mul_le_mul r1 h2 (abs_nonneg _) (by positivity)).trans ?_
    rw [← hSS, show 6e-8 * S * (2.0000001 * S) = (6e-8 * 2.0000001) * (S * S) by ring]
    exact mul_le_mul_of_nonneg_right (by norm_num) (mul_self_nonneg S)
  have k := abs_add_le (binary32.toReal z - binary32.toReal y ^ 2) (binary32.toReal y ^ 2 - |binary32.toReal x|)
  rw [sub_add_sub_cancel] at k
  have h0 := abs_nonneg (binary32.toReal x)
  generalize |binary32.toReal x| = X at *
  norm_num at *
  linarith

end

/-- A buffer through `log_vec_simd` and `exp_vec_simd`, in place: what comes back is what was there, up to the tolerance.  `f`
and `g` are the compiled loop bodies. -/
theorem C102_calls {c c' : Bool} {b : Build32} (hb : b.simdMath = true) {P : Platform 32} (hP : P.GoodLogs) (hrcp : P.GoodRcp)
    {f g : BitVec 32 → Except Fault (BitVec 32)}
    (hf : ∀ x, f x ∈ Contract.unary c (b.ops P) (b.lane P) P.r2 P.r10 .log x)
    (hg : ∀ x, g x ∈ Contract.unary c' (b.ops P) (b.lane P) P.r2 P.r10 .exp x)
    {m : Mem (BitVec 32)} {buf : Nat} {n : BitVec 32} {x : Nat → BitVec 32} (hn : 0 < n.toNat)
    (hmul : b.target.perLine ∣ n.toNat) (hal : b.target.align ∣ buf) (hin : Holds m buf n.toNat x)
    (hx : ∀ i, i < n.toNat → IsFin binary32 (x i) ∧ 1 / 2 ^ 126 ≤ binary32.toReal (x i) ∧
      -87.3 ≤ Real.log (binary32.toReal (x i)) ∧ Real.log (binary32.toReal (x i)) ≤ 88.7) :
    ∃ (m' : Mem (BitVec 32)) (z : Nat → BitVec 32),
      performVecSimd1 (b.vec P) f buf buf n m = .ok ((), m') ∧
      performVecSimd1 (b.vec P) g buf buf n m' = .ok ((), overwrite m buf n.toNat z) ∧
      ∀ i, i < n.toNat → |binary32.toReal (z i) - binary32.toReal (x i)| ≤
        (5e-7 + 2.5e-7 * |Real.log (binary32.toReal (x i))|) * binary32.toReal (x i) := by
  have call {k : BitVec 32 → Except Fault (BitVec 32)} {m : Mem (BitVec 32)} {x y : Nat → BitVec 32}
      (hin : Holds m buf n.toNat x) (hk : ∀ i, i < n.toNat → k (x i) = .ok (y i)) :
      performVecSimd1 (b.vec P) k buf buf n m = .ok ((), overwrite m buf n.toNat y) := by
    have hp := processed_eq b.target (b.env P) hmul
    rw [← hp]
    apply performVecSimd1_spec (b.target.lawful (b.env P)) (x := x) (perLine_le b.target (b.env P) hn hmul) hal <;> rw [hp]
    · exact fun i h => by rw [hin i h]; rfl
    · exact ⟨hal, hin, .inl le_rfl⟩
    · exact hk
  have tot {op : UnOp} {c : Bool} (hop : op = .log ∨ op = .exp) {k : BitVec 32 → Except Fault (BitVec 32)}
      (hk : ∀ x, k x ∈ Contract.unary c (b.ops P) (b.lane P) P.r2 P.r10 op x) (v : BitVec 32) : ∃ y, k v = .ok y := by
    rcases hop with rfl | rfl
    · obtain ⟨y, e, -⟩ := contract_map (p := fun _ => True) (hk v) fun _ _ => trivial
      exact ⟨y, e⟩
    · obtain ⟨y, e, -⟩ := contract_map (p := fun _ => True) (hk v) fun _ _ => trivial
      exact ⟨y, e⟩
  choose F hF using tot (.inl rfl) hf
  choose G hG using tot (.inr rfl) hg
  refine ⟨_, fun i => G (F (x i)), call hin (y := fun i => F (x i)) (fun i _ => hF _), ?_, fun i h => ?_⟩
  · rw [call (x := fun i => F (x i)) (y := fun i => G (F (x i))) ?_ (fun i _ => hG _)]
    · congr 2
      funext a
      unfold overwrite
      by_cases h : buf ≤ a ∧ a < buf + n.toNat
      · rw [if_pos h, if_pos h]
      · rw [if_neg h, if_neg h, if_neg h]
    · intro i h
      unfold overwrite
      rw [if_pos ⟨by omega, by omega⟩, Nat.add_sub_cancel_left]
  · obtain ⟨h1, h2, h3, h4⟩ := hx i h
    exact C102_exp_log hb hP hrcp h1 h2 h3 h4 (c := c) (c' := c') (by unfold Computes; rw [← hF]; exact hf _)
      (by unfold Computes; rw [← hG]; exact hg _)

/-- The hypotheses can be met: every element has a result (the uncontracted one), and the argument 1/2 lies in all ranges. -/
example (c : Bool) (b : Build32) (hb : b.simdMath = true) (P : Platform 32) :
    Computes c b P .sin 0x3f000000#32 ((b.lane P).sin 0x3f000000#32) ∧
    Computes c b P .log 0x3f000000#32 ((b.lane P).log 0x3f000000#32) ∧
    IsFin binary32 0x3f000000#32 ∧ |binary32.toReal 0x3f000000#32| ≤ 1 ∧ 1 / 2 ^ 126 ≤ binary32.toReal 0x3f000000#32 ∧
    -87.3 ≤ Real.log (binary32.toReal 0x3f000000#32) ∧ Real.log (binary32.toReal 0x3f000000#32) ≤ 88.7 ∧
    1 / 2 ^ 16 ≤ |Real.cos (binary32.toReal 0x3f000000#32)| := by
  refine ⟨C99_possible_unary c b hb P .sin _, C99_possible_unary c b hb P .log _, by decide, ?_⟩
  rw [toReal_half32']
  have l := Real.log_two_lt_d9
  have l' := Real.log_two_gt_d9
  have e : Real.log (1 / 2) = -Real.log 2 := by rw [one_div, Real.log_inv]
  have k := Real.one_sub_sq_div_two_le_cos (x := 1 / 2)
  refine ⟨by rw [abs_of_pos] <;> norm_num, by norm_num, ?_, ?_, ?_⟩
  · rw [e]; norm_num at *; linarith
  · rw [e]; norm_num at *; linarith
  · exact le_trans (by norm_num at *; linarith) (le_abs_self _)

end Nova
