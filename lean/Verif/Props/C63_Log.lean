import Verif.Lemmas.LogFinal
import Verif.Lemmas.Witness
import Mathlib.Analysis.SpecialFunctions.Log.Base

/-!
# C63 the accuracy of log, log2 and log10, C65 log outside its domain

For every build with the vector versions (SSE2 and AVX, with or without SSE4.1 and FMA) and every normal positive float,
all rounding errors included: log has a relative error below `2^-22`, and is exactly 0 at 1; log2 and log10 have one below
`2^-21`, if their constant factor is within a relative `2^-24` of `1 / log 2` or `1 / log 10`.

Zero, negative numbers, infinities and NaNs give finite results without meaning (`C65_finite`, `C65_negation`), zero and
positive subnormal numbers about -88 (`C65_subnormal`).
-/

namespace Nova
open FP VecMath

/-- The relative error of log. -/
theorem C63_log (b : Build32) (hb : b.simdMath = true) (P : Platform 32) (x : BitVec 32)
    (hx : IsNormal x) (hn : 0 < binary32.toReal x) :
    IsFin binary32 ((b.lane P).log x) ∧
    |binary32.toReal ((b.lane P).log x) - Real.log (binary32.toReal x)| ≤
      1 / 2 ^ 22 * |Real.log (binary32.toReal x)| := by
  have T := b.templates hb P
  rw [T.log]
  exact vecLog_error T.ieee T.x86 hx (neg_of_toReal hn)

/-- A positive number is at least `2^-26` away from log = 0, or the number 1. -/
theorem log_away {V : LaneOps 32} (h : V.Ieee) (h86 : IsX86Class V) {x : BitVec 32} (hx : IsNormal x) (hn : 0 < binary32.toReal x) :
    (Real.log (binary32.toReal x) = 0 ∨ 1 / 2 ^ 26 ≤ |Real.log (binary32.toReal x)|) ∧
    |Real.log (binary32.toReal x)| ≤ 100 := by
  obtain ⟨t, fe, v, k, -, -, h1, h2, h3, hk, -, -, hX⟩ :=
    log_reduce h h86 hx (neg_of_toReal hn)
  have hp : (0 : ℝ) < 1 + v := by norm_num at *; linarith
  have hL : Real.log (binary32.toReal x) = Real.log (1 + v) + k * Real.log 2 := by
    rw [hX, Real.log_mul hp.ne' (zpow_pos (by norm_num) _).ne', Real.log_zpow]
  rw [hL]
  have hl := log_half h1 h2
  have L1 := Real.log_two_gt_d9
  have hlow : |(k : ℝ)| * Real.log 2 - 0.34659 ≤ |Real.log (1 + v) + k * Real.log 2| := by
    have := abs_sub_abs_le_abs_sub ((k : ℝ) * Real.log 2) (-Real.log (1 + v))
    rw [abs_mul, abs_of_pos (show 0 < Real.log 2 by linarith), abs_neg, sub_neg_eq_add, add_comm (k * Real.log 2)] at this
    linarith
  have hkr : |(k : ℝ)| ≤ 128 := by exact_mod_cast hk
  have L2 := Real.log_two_lt_d9
  refine ⟨?_, ?_⟩
  rotate_left
  · refine (abs_add_le _ _).trans ?_
    rw [abs_mul, abs_of_pos (show 0 < Real.log 2 by linarith)]
    have := mul_le_mul hkr L2.le (by linarith) (by norm_num)
    norm_num at *
    linarith
  by_cases h0 : k = 0
  · subst h0
    rcases h3 with h3 | h3
    · left; rw [h3]; simp
    · right
      have := (log_size h1 h2).1
      rw [Int.cast_zero, zero_mul, add_zero]
      norm_num at *
      linarith
  · right
    have hk1 : (1 : ℝ) ≤ |(k : ℝ)| := by exact_mod_cast Int.one_le_abs h0
    have h5 : 1 * Real.log 2 - 0.34659 ≤ |Real.log (1 + v) + k * Real.log 2| :=
      le_trans (sub_le_sub_right (mul_le_mul_of_nonneg_right hk1 (by linarith)) _) hlow
    norm_num at *
    linarith

/-- A logarithm `y` times the factor `r` of another base: rounded, and as an exact product. -/
theorem logBase_of {y r : BitVec 32} {L c : ℝ} (f : IsFin binary32 y) (e : |binary32.toReal y - L| ≤ 1 / 2 ^ 22 * |L|)
    (haway : L = 0 ∨ 1 / 2 ^ 26 ≤ |L|) (hupper : |L| ≤ 100) (hc0 : 1 / 4 ≤ c) (hc1 : c ≤ 2) (hr : IsFin binary32 r)
    (hc : |binary32.toReal r - c| ≤ 1 / 2 ^ 24 * c) :
    IsFin binary32 (binary32.mul y r) ∧
    |binary32.toReal (binary32.mul y r) - L * c| ≤ 1 / 2 ^ 21 * |L * c| ∧
    |binary32.toReal y * binary32.toReal r - L * c| ≤ 1 / 2 ^ 21 * |L * c| := by
  have hL0 := abs_nonneg L
  have T1 : Tr y L (1 / 2 ^ 22 * |L|) |L| := ⟨f, e, le_rfl⟩
  have T2 : Tr r c (1 / 2 ^ 24 * c) c := ⟨hr, hc, by rw [abs_of_nonneg (by linarith)]⟩
  rw [abs_mul, abs_of_nonneg (show 0 ≤ c by linarith)]
  rcases haway with h0 | h0
  · subst h0
    rw [abs_zero, mul_zero, sub_zero] at e
    have y0 := abs_nonpos_iff.mp e
    have := mul_zero32 f hr y0
    refine ⟨this.1, ?_, ?_⟩
    · rw [this.2]; simp
    · rw [y0]; simp
  · have hLc : 1 / 2 ^ 28 ≤ |L| * c := by
      calc (1 / 2 ^ 28 : ℝ) = 1 / 2 ^ 26 * (1 / 4) := by norm_num
        _ ≤ |L| * c := mul_le_mul h0 hc0 (by norm_num) hL0
    have hLc2 : |L| * c ≤ 200 := by
      calc |L| * c ≤ 100 * 2 := mul_le_mul hupper hc1 (by linarith) (by norm_num)
        _ = 200 := by norm_num
    have := Tr.mul (D := |L| * c) (E := 1 / 2 ^ 21 * (|L| * c)) T1 T2 le_rfl
      (by
        have e1 : 1 / 2 ^ 22 * |L| * c + 1 / 2 ^ 24 * c * |L| + 1 / 2 ^ 22 * |L| * (1 / 2 ^ 24 * c) =
          (1 / 2 ^ 22 + 1 / 2 ^ 24 + 1 / 2 ^ 46) * (|L| * c) := by ring
        rw [e1]
        generalize |L| * c = q at *
        norm_num at *
        linarith)
      (by
        have e1 : 1 / 2 ^ 22 * |L| * c + 1 / 2 ^ 24 * c * |L| + 1 / 2 ^ 22 * |L| * (1 / 2 ^ 24 * c) =
          (1 / 2 ^ 22 + 1 / 2 ^ 24 + 1 / 2 ^ 46) * (|L| * c) := by ring
        rw [e1]
        generalize |L| * c = q at *
        norm_num at *
        linarith)
    refine ⟨this.fin, this.err, ?_⟩
    have e2 := hc
    rw [show binary32.toReal y * binary32.toReal r - L * c = (binary32.toReal y - L) * c +
      L * (binary32.toReal r - c) + (binary32.toReal y - L) * (binary32.toReal r - c) by ring]
    have hc2 : (0 : ℝ) ≤ c := by linarith
    have t1 : |(binary32.toReal y - L) * c| ≤ 1 / 2 ^ 22 * (|L| * c) := by
      rw [abs_mul, abs_of_nonneg hc2, ← mul_assoc]; exact mul_le_mul_of_nonneg_right e hc2
    have t2 : |L * (binary32.toReal r - c)| ≤ 1 / 2 ^ 24 * (|L| * c) := by
      rw [abs_mul]
      calc _ ≤ |L| * (1 / 2 ^ 24 * c) := mul_le_mul_of_nonneg_left hc hL0
        _ = _ := by ring
    have t3 : |(binary32.toReal y - L) * (binary32.toReal r - c)| ≤ 1 / 2 ^ 46 * (|L| * c) := by
      rw [abs_mul]
      calc _ ≤ (1 / 2 ^ 22 * |L|) * (1 / 2 ^ 24 * c) := mul_le_mul e hc (abs_nonneg _) (by positivity)
        _ = _ := by ring
    have t4 := abs_add_le ((binary32.toReal y - L) * c + L * (binary32.toReal r - c))
      ((binary32.toReal y - L) * (binary32.toReal r - c))
    have t5 := abs_add_le ((binary32.toReal y - L) * c) (L * (binary32.toReal r - c))
    generalize |L| * c = q at *
    refine t4.trans ((add_le_add (t5.trans (add_le_add t1 t2)) t3).trans ?_)
    norm_num at hLc ⊢
    linarith

theorem vecLogBase_error {V : LaneOps 32} (h : V.Ieee) (h86 : IsX86Class V) {x r : BitVec 32} (hx : IsNormal x)
    (hn : 0 < binary32.toReal x) {c : ℝ} (hc0 : 1 / 4 ≤ c) (hc1 : c ≤ 2) (hr : IsFin binary32 r)
    (hc : |binary32.toReal r - c| ≤ 1 / 2 ^ 24 * c) :
    IsFin binary32 (vecLogBase V r x) ∧
    |binary32.toReal (vecLogBase V r x) - Real.log (binary32.toReal x) * c| ≤
      1 / 2 ^ 21 * |Real.log (binary32.toReal x) * c| := by
  obtain ⟨f, e⟩ := vecLog_error h h86 hx (neg_of_toReal hn)
  obtain ⟨haway, hupper⟩ := log_away h h86 hx hn
  unfold vecLogBase
  rw [h.mul]
  have := logBase_of f e haway hupper hc0 hc1 hr hc
  exact ⟨this.1, this.2.1⟩

/-- The relative error of log2 and log10. -/
theorem C63_log2 (b : Build32) (hb : b.simdMath = true) (P : Platform 32) (x : BitVec 32)
    (hx : IsNormal x) (hn : 0 < binary32.toReal x) (hf : IsFin binary32 P.r2)
    (hc : |binary32.toReal P.r2 - 1 / Real.log 2| ≤ 1 / 2 ^ 24 * (1 / Real.log 2)) :
    IsFin binary32 ((b.lane P).log2 x) ∧
    |binary32.toReal ((b.lane P).log2 x) - Real.logb 2 (binary32.toReal x)| ≤
      1 / 2 ^ 21 * |Real.logb 2 (binary32.toReal x)| := by
  have T := b.templates hb P
  have L1 := Real.log_two_gt_d9
  have L2 := Real.log_two_lt_d9
  have := vecLogBase_error T.ieee T.x86 hx hn (c := 1 / Real.log 2)
    (by rw [le_div_iff₀ (by linarith)]; linarith) (by rw [div_le_iff₀ (by linarith)]; linarith) hf hc
  rw [mul_one_div] at this
  rw [T.log2]
  exact this

theorem C63_log10 (b : Build32) (hb : b.simdMath = true) (P : Platform 32) (x : BitVec 32)
    (hx : IsNormal x) (hn : 0 < binary32.toReal x) (hf : IsFin binary32 P.r10)
    (hc : |binary32.toReal P.r10 - 1 / Real.log 10| ≤ 1 / 2 ^ 24 * (1 / Real.log 10)) :
    IsFin binary32 ((b.lane P).log10 x) ∧
    |binary32.toReal ((b.lane P).log10 x) - Real.logb 10 (binary32.toReal x)| ≤
      1 / 2 ^ 21 * |Real.logb 10 (binary32.toReal x)| := by
  have T := b.templates hb P
  have L1 := Real.log_two_gt_d9
  have L2 := Real.log_two_lt_d9
  have L3 : Real.log 2 ≤ Real.log 10 := Real.log_le_log (by norm_num) (by norm_num)
  have L4 : Real.log 10 ≤ 4 * Real.log 2 := by
    have : (4 : ℝ) * Real.log 2 = Real.log (2 ^ 4) := by rw [Real.log_pow]; push_cast; ring
    rw [this]; exact Real.log_le_log (by norm_num) (by norm_num)
  have := vecLogBase_error T.ieee T.x86 hx hn (c := 1 / Real.log 10)
    (by rw [le_div_iff₀ (by linarith)]; linarith) (by rw [div_le_iff₀ (by linarith)]; linarith) hf hc
  rw [mul_one_div] at this
  rw [T.log10]
  exact this

theorem avx_log_special :
    vecLog (AvxF.ops true (platform0.x86 binary32)) 0x00000000#32 = 0xc2b00f34#32 ∧
    vecLog (AvxF.ops true (platform0.x86 binary32)) 0xbf800000#32 = 0xc3c7cc62#32 ∧
    vecLog (AvxF.ops true (platform0.x86 binary32)) 0x7f800000#32 = 0x42b17218#32 ∧
    vecLog (AvxF.ops true (platform0.x86 binary32)) 0x7fc00000#32 = 0x42b241b1#32 := by
  refine ⟨?_, ?_, ?_, ?_⟩
  · exact log_eval _ _ 0x00000000#32 0xc2fe0000#32 0x3eaaaaaa#32
      0x3cdcc382#32 _ (by decide +kernel) (by decide +kernel)
      (by decide +kernel) (by decide +kernel) (by decide +kernel)
  · exact log_eval _ _ 0xc0000000#32 0x00000000#32 0x4245cc62#32
      0xc3c6cc62#32 _ (by decide +kernel) (by decide +kernel)
      (by decide +kernel) (by decide +kernel) (by decide +kernel)
  · exact log_eval _ _ 0x00000000#32 0x43000000#32 0x3eaaaaaa#32
      0xbcde8083#32 _ (by decide +kernel) (by decide +kernel)
      (by decide +kernel) (by decide +kernel) (by decide +kernel)
  · exact log_eval _ _ 0xbe800000#32 0x43010000#32 0x3ed2c422#32
      0xbd853ba3#32 _ (by decide +kernel) (by decide +kernel)
      (by decide +kernel) (by decide +kernel) (by decide +kernel)

theorem sse_log_special :
    vecLog (Sse.ops ⟨true, false, false⟩ (platform0.x86 binary32)) 0x00000000#32 = 0xc2b00f34#32 ∧
    vecLog (Sse.ops ⟨true, false, false⟩ (platform0.x86 binary32)) 0xbf800000#32 = 0xc3c7cc62#32 ∧
    vecLog (Sse.ops ⟨true, false, false⟩ (platform0.x86 binary32)) 0x7f800000#32 = 0x42b17218#32 ∧
    vecLog (Sse.ops ⟨true, false, false⟩ (platform0.x86 binary32)) 0x7fc00000#32 = 0x42b241b1#32 := by
  refine ⟨?_, ?_, ?_, ?_⟩
  · exact log_eval _ _ 0x00000000#32 0xc2fe0000#32 0x3eaaaaaa#32
      0x3cdcc382#32 _ (by decide +kernel) (by decide +kernel)
      (by decide +kernel) (by decide +kernel) (by decide +kernel)
  · exact log_eval _ _ 0xc0000000#32 0x00000000#32 0x4245cc62#32
      0xc3c6cc62#32 _ (by decide +kernel) (by decide +kernel)
      (by decide +kernel) (by decide +kernel) (by decide +kernel)
  · exact log_eval _ _ 0x00000000#32 0x43000000#32 0x3eaaaaaa#32
      0xbcde8083#32 _ (by decide +kernel) (by decide +kernel)
      (by decide +kernel) (by decide +kernel) (by decide +kernel)
  · exact log_eval _ _ 0xbe800000#32 0x43010000#32 0x3ed2c422#32
      0xbd853ba3#32 _ (by decide +kernel) (by decide +kernel)
      (by decide +kernel) (by decide +kernel) (by decide +kernel)

/-- Outside its domain log returns finite numbers: -88.03 for 0, and other finite numbers for -1, infinity and a NaN. -/
theorem C65_negation (P : Platform 32) :
    ∀ x ∈ [0x00000000#32, 0xbf800000#32, 0x7f800000#32, 0x7fc00000#32],
      IsFin binary32 (((Build32.avx true).lane P).log x) ∧
      IsFin binary32 (((Build32.sse false ⟨true, false, false⟩).lane P).log x) := by
  have ha : ((Build32.avx true).lane P).log = vecLog (AvxF.ops true (platform0.x86 binary32)) := by
    rw [((Build32.avx true).templates rfl P).log]
    funext x
    exact avx_log0 true P x
  have hs : ((Build32.sse false ⟨true, false, false⟩).lane P).log =
      vecLog (Sse.ops ⟨true, false, false⟩ (platform0.x86 binary32)) := by
    rw [((Build32.sse false ⟨true, false, false⟩).templates rfl P).log]
    funext x
    exact sse_log0 _ P x
  rw [ha, hs]
  obtain ⟨a1, a2, a3, a4⟩ := avx_log_special
  obtain ⟨s1, s2, s3, s4⟩ := sse_log_special
  intro x hx
  simp only [List.mem_cons, List.not_mem_nil, or_false] at hx
  rcases hx with h | h | h | h <;> subst h
  · rw [a1, s1]; decide
  · rw [a2, s2]; decide
  · rw [a3, s3]; decide
  · rw [a4, s4]; decide

/-- No argument at all gives an infinity or a NaN. -/
theorem C65_finite (b : Build32) (hb : b.simdMath = true) (P : Platform 32) (x : BitVec 32) :
    IsFin binary32 ((b.lane P).log x) := by
  have T := b.templates hb P
  rw [T.log]
  exact vecLog_fin T.ieee T.x86 x

/-- Zero and positive subnormal numbers give a number between -88.03 and -87.33, though the logarithm falls to -103.28
and is minus infinity at 0. -/
theorem C65_subnormal (b : Build32) (hb : b.simdMath = true) (P : Platform 32) (x : BitVec 32) (hx : x.toNat < 2 ^ 23) :
    IsFin binary32 ((b.lane P).log x) ∧
    -88.03 ≤ binary32.toReal ((b.lane P).log x) ∧ binary32.toReal ((b.lane P).log x) ≤ -87.33 := by
  have T := b.templates hb P
  rw [T.log]
  refine vecLog_subnormal T.ieee T.x86 ?_ ?_
  · unfold expField; rw [code32]; omega
  · unfold Fmt.neg; rw [BitVec.msb_eq_decide]; exact decide_eq_false (by omega)

/-- Zero and the smallest positive number are such numbers. -/
example : (0#32).toNat < 2 ^ 23 ∧ (1#32).toNat < 2 ^ 23 := by decide

/-- The hypotheses hold for 1.5. -/
example : IsNormal 0x3fc00000#32 ∧ 0 < binary32.toReal 0x3fc00000#32 := by
  have v1 : binary32.toReal 0x3fc00000#32 = (3/2 : ℚ) := isVal_value (by decide +kernel)
  rw [v1]
  refine ⟨⟨by decide, by decide⟩, by norm_num⟩

end Nova
