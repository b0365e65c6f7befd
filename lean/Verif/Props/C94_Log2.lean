import Verif.Model.Cxx98
import Verif.SpecOps
import Verif.Lemmas.LogRange
import Verif.Lemmas.Witness
import Verif.Lemmas.UnitFinal
import Verif.Props.C01_Elementwise

/-!
# C94 log2 of doubles compiled before C++11

A language mode before C++11 multiplies the logarithm with a *float*.  Whatever the quality of the C library, every result of
log2 for doubles is then wrong by a relative error of more than `2^-27`: half of the digits of a double are lost.
-/

namespace Nova
open FP Spec

/-- The C library rounds `log(2.f)` correctly. -/
def GoodLogOfTwo (M : Libm 32) : Prop :=
  IsFin binary32 (M.log (binary32.ofInt 2)) ∧ |binary32.toReal (M.log (binary32.ofInt 2)) - Real.log 2| ≤ 1 / 2 ^ 25

/-- The C library computes `log` of this argument with an error of at most one unit in the last place. -/
def GoodLogAt {w : Nat} (F : Fmt w) (M : Libm w) (x : BitVec w) : Prop :=
  IsFin F (M.log x) ∧ |F.toReal (M.log x) - Real.log (F.toReal x)| ≤ 2 * F.u * |Real.log (F.toReal x)|

/-- The constant, whatever the C library does beside rounding `log(2.f)` correctly. -/
theorem rlog2_bits {M : Libm 32} (h : GoodLogOfTwo M) : Cxx98.rlog2 M = 0x3fb8aa3b#32 := by
  obtain ⟨hf, he⟩ := h
  have L1 := Real.log_two_gt_d9
  have L2 := Real.log_two_lt_d9
  have key : M.log (binary32.ofInt 2) = 0x3f317218#32 := by
    obtain ⟨o1, o2⟩ := val32 (x := 0x3f317218#32) (11629080 / 2 ^ 24) (by decide +kernel)
    generalize M.log (binary32.ofInt 2) = r at *
    refine binary32.eq_of_toReal ?_ (by rw [o2]; norm_num)
    rw [o2]
    rw [abs_le] at he
    have hg := grid_of_large (x := r) (s := 125) (by
      rw [abs_of_pos (by norm_num at he ⊢; linarith)]
      norm_num at he ⊢; linarith)
    obtain ⟨k, hk⟩ := hg
    have ev : binary32.toReal r = k / 2 ^ 24 := by
      unfold Fmt.toReal
      rw [hk, scale32]
      push_cast
      rw [show (2 : ℝ) ^ 149 = 2 ^ 125 * 2 ^ 24 by norm_num]
      field_simp
      norm_num
      ring
    rw [ev] at he ⊢
    have k1 : k < 11629081 := by
      have : (k : ℝ) < 11629081 := by norm_num at he; linarith [he.2]
      exact_mod_cast this
    have k2 : 11629079 < k := by
      have : (11629079 : ℝ) < k := by norm_num at he; linarith [he.1]
      exact_mod_cast this
    have : k = 11629080 := by omega
    rw [this]; norm_num
  unfold Cxx98.rlog2
  rw [key]
  decide +kernel

theorem rlog2_value {M : Libm 32} (h : GoodLogOfTwo M) :
    binary64.isFinite (widen (Cxx98.rlog2 M)) = true ∧ binary64.toReal (widen (Cxx98.rlog2 M)) = 12102203 / 2 ^ 23 := by
  obtain ⟨o1, o2⟩ := val32 (x := 0x3fb8aa3b#32) (12102203 / 2 ^ 23) (by decide +kernel)
  rw [rlog2_bits h]
  obtain ⟨w1, w2⟩ := widen_value o1
  exact ⟨w1, by rw [w2, o2]; norm_num⟩

/-- A product with a rounding error, against the exact quotient. -/
theorem log2_bounds {L p y r c u d : ℝ} (hp : |p - L| ≤ 2 * u * |L|) (hy : |y - p * r| ≤ u * |p * r|) (hu0 : 0 ≤ u) (hr : 0 < r)
    (hu : u ≤ 1 / 4) (hc : |r - c| = d) :
    |y - L * c| ≤ (d + 4 * u * r) * |L| ∧ (d - 4 * u * r) * |L| ≤ |y - L * c| := by
  have hL := abs_nonneg L
  have h1 : |p| ≤ (1 + 2 * u) * |L| := by
    have := abs_sub_abs_le_abs_sub p L
    linarith
  have h2 : |y - L * r| ≤ 4 * u * r * |L| := by
    have e : y - L * r = (y - p * r) + (p - L) * r := by ring
    have a1 : |p * r| ≤ (1 + 2 * u) * |L| * r := by
      rw [abs_mul, abs_of_pos hr]; exact mul_le_mul_of_nonneg_right h1 hr.le
    have a2 : |(p - L) * r| ≤ 2 * u * |L| * r := by
      rw [abs_mul, abs_of_pos hr]; exact mul_le_mul_of_nonneg_right hp hr.le
    have a3 : u * |p * r| ≤ u * ((1 + 2 * u) * |L| * r) := mul_le_mul_of_nonneg_left a1 hu0
    have a4 : u * (|L| * r) * u ≤ u * (|L| * r) * (1 / 4) :=
      mul_le_mul_of_nonneg_left hu (by positivity)
    have a5 : 0 ≤ u * (|L| * r) := by positivity
    rw [e]
    refine (abs_add_le _ _).trans ?_
    have a6 : u * ((1 + 2 * u) * |L| * r) = u * (|L| * r) + 2 * (u * (|L| * r) * u) := by ring
    have a7 : 4 * u * r * |L| = 4 * (u * (|L| * r)) := by ring
    have a8 : 2 * u * |L| * r = 2 * (u * (|L| * r)) := by ring
    rw [a7]; rw [a8] at a2; rw [a6] at a3
    linarith
  have h3 : |L * r - L * c| = d * |L| := by rw [← mul_sub, abs_mul, hc, mul_comm]
  have h4 : |y - L * c| ≤ |y - L * r| + |L * r - L * c| := by
    have : y - L * c = (y - L * r) + (L * r - L * c) := by ring
    rw [this]; exact abs_add_le _ _
  have h5 : |L * r - L * c| ≤ |y - L * r| + |y - L * c| := by
    have : L * r - L * c = -(y - L * r) + (y - L * c) := by ring
    rw [this]; refine (abs_add_le _ _).trans ?_; rw [abs_neg]
  constructor
  · rw [h3] at h4; linarith
  · rw [h3] at h5; linarith

/-- The error of log2 for doubles: never smaller than `2^-27`, never larger than `2^-26`. -/
theorem log2Double_error {M : Libm 64} {Mf : Libm 32} (hf : GoodLogOfTwo Mf) {x : BitVec 64} (hx : IsFin binary64 x)
    (hp : 0 < binary64.toReal x) (h1 : binary64.toReal x ≠ 1) (hl : GoodLogAt binary64 M x) :
    IsFin binary64 (Cxx98.log2Double M Mf x) ∧
    1 / 2 ^ 27 * |Real.logb 2 (binary64.toReal x)| ≤
      |binary64.toReal (Cxx98.log2Double M Mf x) - Real.logb 2 (binary64.toReal x)| ∧
    |binary64.toReal (Cxx98.log2Double M Mf x) - Real.logb 2 (binary64.toReal x)| ≤
      1 / 2 ^ 26 * |Real.logb 2 (binary64.toReal x)| := by
  have L1 := Real.log_two_gt_d9
  have L2 := Real.log_two_lt_d9
  obtain ⟨rf, rv⟩ := rlog2_value hf
  obtain ⟨lf, le⟩ := hl
  have hb : binary64.bias = 1023 := by decide
  have g1 := binary64.log_ge (by rw [hb]; decide) hp h1
  have g2 := binary64.log_le hx hp
  rw [hb, show binary64.mb = 52 from rfl] at g2
  rw [Fmt.u64] at le g1
  set L := Real.log (binary64.toReal x) with hL
  have hL0 := abs_nonneg L
  have hple : |binary64.toReal (M.log x)| ≤ 2 ^ 11 := by
    have := abs_sub_abs_le_abs_sub (binary64.toReal (M.log x)) L
    norm_num at g2 le ⊢
    linarith
  have hpge : 1 / 2 ^ 55 ≤ |binary64.toReal (M.log x)| := by
    have := abs_sub_abs_le_abs_sub L (binary64.toReal (M.log x))
    rw [abs_sub_comm] at this
    norm_num at g1 le ⊢
    linarith
  have hm := binary64.mul_near (x := M.log x) (y := widen (Cxx98.rlog2 Mf)) lf rf (by
    rw [rv, hb, abs_mul]
    have e : |(12102203 : ℝ) / 2 ^ 23| ≤ 2 := by rw [abs_of_pos (by norm_num)]; norm_num
    calc _ ≤ (2 : ℝ) ^ 11 * 2 := mul_le_mul hple e (abs_nonneg _) (by positivity)
      _ = 2 ^ 12 := by norm_num
      _ ≤ 2 ^ 1023 := pow_le_pow_right₀ (by norm_num) (by norm_num))
  obtain ⟨yf, ye⟩ := hm
  refine ⟨yf, ?_⟩
  rw [rv] at ye
  have hv : 1 / 2 ^ 55 ≤ |binary64.toReal (M.log x) * (12102203 / 2 ^ 23)| := by
    rw [abs_mul, abs_of_pos (show (0 : ℝ) < 12102203 / 2 ^ 23 by norm_num)]
    norm_num at hpge ⊢
    linarith
  have heta : binary64.eta ≤ binary64.u * |binary64.toReal (M.log x) * (12102203 / 2 ^ 23)| := by
    rw [Fmt.eta64, Fmt.u64]
    have e : (1 : ℝ) / 2 ^ 1075 ≤ 1 / 2 ^ 108 :=
      one_div_le_one_div_of_le (by positivity) (pow_le_pow_right₀ (by norm_num) (by norm_num))
    refine e.trans ?_
    have : (1 : ℝ) / 2 ^ 108 = 1 / 2 ^ 53 * (1 / 2 ^ 55) := by norm_num
    rw [this]
    exact mul_le_mul_of_nonneg_left hv (by positivity)
  rw [max_eq_left heta, Fmt.u64] at ye
  have hc : |(12102203 : ℝ) / 2 ^ 23 - 1 / Real.log 2| = 1 / Real.log 2 - 12102203 / 2 ^ 23 := by
    rw [abs_of_neg, neg_sub]
    rw [sub_neg, lt_div_iff₀ (by linarith)]
    norm_num; linarith
  obtain ⟨b1, b2⟩ := log2_bounds (y := binary64.toReal (Cxx98.log2Double M Mf x)) le ye (by norm_num) (by norm_num)
    (by norm_num) hc
  have ec : Real.logb 2 (binary64.toReal x) = L * (1 / Real.log 2) := by
    unfold Real.logb; rw [hL]; ring
  have hpos : 0 < 1 / Real.log 2 := by positivity
  rw [ec]
  have ea : |L * (1 / Real.log 2)| = 1 / Real.log 2 * |L| := by rw [abs_mul, abs_of_pos hpos, mul_comm]
  rw [ea]
  have c1 : 1 / Real.log 2 ≤ 1.442695042 := by rw [div_le_iff₀ (by linarith)]; norm_num; linarith
  have c2 : 1.442695039 ≤ 1 / Real.log 2 := by rw [le_div_iff₀ (by linarith)]; norm_num; linarith
  generalize 1 / Real.log 2 = c at *
  constructor
  · refine le_trans ?_ b2
    rw [← mul_assoc]
    refine mul_le_mul_of_nonneg_right ?_ hL0
    norm_num at c1 c2 ⊢
    linarith
  · refine b1.trans ?_
    rw [← mul_assoc]
    refine mul_le_mul_of_nonneg_right ?_ hL0
    norm_num at c1 c2 ⊢
    linarith

/-- Every double build takes log2 from detail/math.hpp. -/
theorem lane64_log2 (b : Build64) (P : Platform 64) : (b.lane P).log2 = P.M.log2 := by
  cases b <;> rfl

/-- log2 of doubles, one element: in a language mode before C++11, every build has a relative error between `2^-27` and `2^-26`
for *every* positive argument but 1. -/
theorem C94_log2_double (b : Build64) (P : Platform 64) {Mf : Libm 32} (hf : GoodLogOfTwo Mf) {x : BitVec 64}
    (hx : IsFin binary64 x) (hp : 0 < binary64.toReal x) (h1 : binary64.toReal x ≠ 1) (hl : GoodLogAt binary64 P.M x) :
    ∃ r, UnOp.log2.f (b.lane (Cxx98.double P Mf)) x = .ok r ∧ IsFin binary64 r ∧
      1 / 2 ^ 27 * |Real.logb 2 (binary64.toReal x)| ≤ |binary64.toReal r - Real.logb 2 (binary64.toReal x)| ∧
      |binary64.toReal r - Real.logb 2 (binary64.toReal x)| ≤ 1 / 2 ^ 26 * |Real.logb 2 (binary64.toReal x)| := by
  refine ⟨_, rfl, ?_⟩
  have e : (b.lane (Cxx98.double P Mf)).log2 x = Cxx98.log2Double P.M Mf x := by rw [lane64_log2]; rfl
  rw [e]
  exact log2Double_error hf hx hp h1 hl

/-- A whole call `log2_vec_simd(out, in, n)` on doubles: the result is a double next to the logarithm to base 2 only up to the
precision of a float. -/
theorem C94_log2_double_simd_partial (b : Build64) (P : Platform 64) {Mf : Libm 32} (hf : GoodLogOfTwo Mf)
    {m : Mem (BitVec 64)} {out inp : Nat} {n : BitVec 32} {x : Nat → BitVec 64} (hn : 0 < n.toNat)
    (hmul : b.target.perLine ∣ n.toNat) (hoal : b.target.align ∣ out) (hial : b.target.align ∣ inp)
    (hout : Allocated m out n.toNat) (hin : Holds m inp n.toNat x) (hs : SafePlacement out inp n.toNat)
    (hx : ∀ i, i < n.toNat → IsFin binary64 (x i) ∧ 0 < binary64.toReal (x i) ∧ binary64.toReal (x i) ≠ 1 ∧
      GoodLogAt binary64 P.M (x i)) :
    ∃ y : Nat → BitVec 64,
      UnOp.log2.vecSimd (b.vec (Cxx98.double P Mf)) out inp n m = .ok ((), overwrite m out n.toNat y) ∧
      ∀ i, i < n.toNat → IsFin binary64 (y i) ∧
        1 / 2 ^ 27 * |Real.logb 2 (binary64.toReal (x i))| ≤ |binary64.toReal (y i) - Real.logb 2 (binary64.toReal (x i))| ∧
        |binary64.toReal (y i) - Real.logb 2 (binary64.toReal (x i))| ≤ 1 / 2 ^ 26 * |Real.logb 2 (binary64.toReal (x i))| := by
  refine ⟨fun i => (b.lane (Cxx98.double P Mf)).log2 (x i), ?_, fun i h => ?_⟩
  · exact C01_unary_simd b.target (b.env (Cxx98.double P Mf)) .log2 hn hmul hoal hial hout hin hs fun i _ => rfl
  · obtain ⟨h0, hp, h1, hl⟩ := hx i h
    obtain ⟨r, e, g⟩ := C94_log2_double b P hf h0 hp h1 hl
    obtain rfl : _ = r := Except.ok.inj e
    exact g

/-- No argument but 1 has a result of double precision, which would be a relative error of `2^-51` or less. -/
theorem C94_negation_double_precision (b : Build64) (P : Platform 64) {Mf : Libm 32} (hf : GoodLogOfTwo Mf) {x : BitVec 64}
    (hx : IsFin binary64 x) (hp : 0 < binary64.toReal x) (h1 : binary64.toReal x ≠ 1) (hl : GoodLogAt binary64 P.M x) :
    ¬ ∃ r, UnOp.log2.f (b.lane (Cxx98.double P Mf)) x = .ok r ∧
      |binary64.toReal r - Real.logb 2 (binary64.toReal x)| ≤ 1 / 2 ^ 51 * |Real.logb 2 (binary64.toReal x)| := by
  rintro ⟨r, h2, h3⟩
  obtain ⟨r', h4, _, h5, _⟩ := C94_log2_double b P hf hx hp h1 hl
  obtain rfl : r' = r := Except.ok.inj (h4.symm.trans h2)
  have hne : 0 < |Real.logb 2 (binary64.toReal x)| := by
    refine abs_pos.mpr fun h => ?_
    rcases Real.logb_eq_zero.mp h with h | h | h | h | h | h
    · norm_num at h
    · norm_num at h
    · norm_num at h
    · exact hp.ne' h
    · exact h1 h
    · linarith
  have := h5.trans h3
  have h6 : (1 : ℝ) / 2 ^ 51 * |Real.logb 2 (binary64.toReal x)| < 1 / 2 ^ 27 * |Real.logb 2 (binary64.toReal x)| :=
    mul_lt_mul_of_pos_right (by norm_num) hne
  linarith

/-- Floats keep their precision in the same language modes: a relative error of at most `2^-21`. -/
theorem C94_log2_float (P : Platform 32) (hf : GoodLogOfTwo P.M) {x : BitVec 32} (hx : IsFin binary32 x)
    (hp : 0 < binary32.toReal x) (h1 : binary32.toReal x ≠ 1) (hl : GoodLogAt binary32 P.M x) :
    ∃ r, UnOp.log2.f (Build32.generic.lane (Cxx98.float P)) x = .ok r ∧ IsFin binary32 r ∧
      |binary32.toReal r - Real.logb 2 (binary32.toReal x)| ≤ 1 / 2 ^ 21 * |Real.logb 2 (binary32.toReal x)| := by
  refine ⟨_, rfl, ?_⟩
  change IsFin binary32 (Cxx98.log2Float P.M x) ∧ |binary32.toReal (Cxx98.log2Float P.M x) - _| ≤ _
  have L1 := Real.log_two_gt_d9
  have L2 := Real.log_two_lt_d9
  obtain ⟨rf, rv⟩ := val32 (x := 0x3fb8aa3b#32) (12102203 / 2 ^ 23) (by decide +kernel)
  rw [← rlog2_bits hf] at rf rv
  obtain ⟨lf, le⟩ := hl
  have hb : binary32.bias = 127 := by decide
  have g1 := binary32.log_ge (by rw [hb]; decide) hp h1
  have g2 := binary32.log_le hx hp
  rw [hb, show binary32.mb = 23 from rfl] at g2
  rw [Fmt.u32] at le g1
  set L := Real.log (binary32.toReal x) with hL
  have hL0 := abs_nonneg L
  have hple : |binary32.toReal (P.M.log x)| ≤ 2 ^ 9 := by
    have := abs_sub_abs_le_abs_sub (binary32.toReal (P.M.log x)) L
    norm_num at g2 le ⊢
    linarith
  have hpge : 1 / 2 ^ 26 ≤ |binary32.toReal (P.M.log x)| := by
    have := abs_sub_abs_le_abs_sub L (binary32.toReal (P.M.log x))
    rw [abs_sub_comm] at this
    norm_num at g1 le ⊢
    linarith
  have rv' : binary32.toReal (Cxx98.rlog2 P.M) = 12102203 / 2 ^ 23 := by rw [rv]; norm_num
  obtain ⟨yf, ye⟩ := binary32.mul_near (x := P.M.log x) (y := Cxx98.rlog2 P.M) lf rf (by
    rw [rv', hb, abs_mul]
    have e : |(12102203 : ℝ) / 2 ^ 23| ≤ 2 := by rw [abs_of_pos (by norm_num)]; norm_num
    calc _ ≤ (2 : ℝ) ^ 9 * 2 := mul_le_mul hple e (abs_nonneg _) (by positivity)
      _ = 2 ^ 10 := by norm_num
      _ ≤ 2 ^ 127 := pow_le_pow_right₀ (by norm_num) (by norm_num))
  refine ⟨yf, ?_⟩
  rw [rv'] at ye
  have hv : 1 / 2 ^ 26 ≤ |binary32.toReal (P.M.log x) * (12102203 / 2 ^ 23)| := by
    rw [abs_mul, abs_of_pos (show (0 : ℝ) < 12102203 / 2 ^ 23 by norm_num)]
    norm_num at hpge ⊢
    linarith
  have heta : binary32.eta ≤ binary32.u * |binary32.toReal (P.M.log x) * (12102203 / 2 ^ 23)| := by
    rw [Fmt.eta32, Fmt.u32]
    refine le_trans (by norm_num) (mul_le_mul_of_nonneg_left hv (by positivity))
  rw [max_eq_left heta, Fmt.u32] at ye
  have hc : |(12102203 : ℝ) / 2 ^ 23 - 1 / Real.log 2| = 1 / Real.log 2 - 12102203 / 2 ^ 23 := by
    rw [abs_of_neg, neg_sub]
    rw [sub_neg, lt_div_iff₀ (by linarith)]
    norm_num; linarith
  obtain ⟨b1, -⟩ := log2_bounds (y := binary32.toReal (Cxx98.log2Float P.M x)) le ye (by norm_num) (by norm_num) (by norm_num) hc
  have ec : Real.logb 2 (binary32.toReal x) = L * (1 / Real.log 2) := by
    unfold Real.logb; rw [hL]; ring
  have hpos : 0 < 1 / Real.log 2 := by positivity
  rw [ec]
  have ea : |L * (1 / Real.log 2)| = 1 / Real.log 2 * |L| := by rw [abs_mul, abs_of_pos hpos, mul_comm]
  rw [ea]
  have c1 : 1 / Real.log 2 ≤ 1.442695042 := by rw [div_le_iff₀ (by linarith)]; norm_num; linarith
  have c2 : 1.442695039 ≤ 1 / Real.log 2 := by rw [le_div_iff₀ (by linarith)]; norm_num; linarith
  generalize 1 / Real.log 2 = c at *
  refine b1.trans ?_
  rw [← mul_assoc]
  refine mul_le_mul_of_nonneg_right ?_ hL0
  norm_num at c1 c2 ⊢
  linarith

/-! ## The hypotheses are satisfiable -/

theorem goodLogOfTwo_example (M : Libm 32) : GoodLogOfTwo { M with log := fun _ => 0x3f317218#32 } := by
  obtain ⟨o1, o2⟩ := val32 (x := 0x3f317218#32) (11629080 / 2 ^ 24) (by decide +kernel)
  have L1 := Real.log_two_gt_d9
  have L2 := Real.log_two_lt_d9
  refine ⟨o1, ?_⟩
  change |binary32.toReal 0x3f317218#32 - _| ≤ _
  rw [o2, abs_le]
  norm_num at *
  constructor <;> linarith

/-- `log2(2.0)` of doubles: a C library that returns the double next to `log 2`.  The result is not 1. -/
example (b : Build64) (P : Platform 64) (M : Libm 32) :
    ∃ r, UnOp.log2.f (b.lane (Cxx98.double { P with M := { P.M with log := fun _ => 0x3fe62e42fefa39ef#64 } }
        { M with log := fun _ => 0x3f317218#32 })) 0x4000000000000000#64 = .ok r ∧
      r = 0x3feffffff8d53924#64 ∧ binary64.eqb r 0x3ff0000000000000#64 = false := by
  refine ⟨_, rfl, ?_⟩
  have e : (b.lane (Cxx98.double { P with M := { P.M with log := fun _ => 0x3fe62e42fefa39ef#64 } }
      { M with log := fun _ => 0x3f317218#32 })).log2 0x4000000000000000#64 = 0x3feffffff8d53924#64 := by
    rw [lane64_log2]
    unfold Cxx98.double Cxx98.log2Double Cxx98.rlog2
    dsimp only
    decide +kernel
  change (b.lane _).log2 _ = _ ∧ binary64.eqb ((b.lane _).log2 _) _ = false
  rw [e]
  exact ⟨rfl, by decide +kernel⟩

end Nova
