import Verif.Lemmas.PowFinal
import Verif.Props.C63_Log
import Verif.Props.C33_Bits
import Verif.Props.C37_MinMax

/-!
# The unit conversions in single precision
-/

namespace Nova
open FP VecMath

theorem lane_mul32 (b : Build32) (hb : b.simdMath = true) (P : Platform 32) : (b.lane P).mul = binary32.mul := by
  cases b <;> first | rfl | exact absurd hb (by decide)
theorem lane_add32 (b : Build32) (P : Platform 32) : (b.lane P).add = binary32.add := by cases b <;> rfl
theorem lane_lit32 (b : Build32) (P : Platform 32) : (b.lane P).lit = litD32 := by cases b <;> rfl
theorem lane_abs32 (b : Build32) (P : Platform 32) (x : BitVec 32) : (b.lane P).abs x = binary32.fabs x :=
  abs_lane32 b P x

/-! ## Literals -/

theorem lit2 : litD32 2 = 0x40000000#32 := by decide +kernel
theorem lit10 : litD32 10 = 0x41200000#32 := by decide +kernel
theorem lit440 : litD32 440 = 0x43dc0000#32 := by decide +kernel
theorem lit69 : litD32 69 = 0x428a0000#32 := by decide +kernel
theorem lit12 : litD32 12 = 0x41400000#32 := by decide +kernel
theorem lit20 : litD32 20 = 0x41a00000#32 := by decide +kernel
theorem lit475 : litD32 4.75 = 0x40980000#32 := by decide +kernel
theorem litTwelfth : litD32 0.083333333333 = 0x3daaaaab#32 := by decide +kernel
theorem litTwentieth : litD32 0.05 = 0x3d4ccccd#32 := by decide +kernel
theorem litPitch : litD32 0.0022727272727 = 0x3b14f209#32 := by decide +kernel

/-- The value of a literal. -/
theorem val32 {x : BitVec 32} (q : ℚ) (h : isVal x q = true) : IsFin binary32 x ∧ binary32.toReal x = q :=
  ⟨isVal_fin h, isVal_value h⟩

/-! ## Relative errors -/

/-- A product with a constant that stands for `w`. -/
theorem mul_rel {x y : BitVec 32} {v w a : ℝ} (hx : IsFin binary32 x) (hy : IsFin binary32 y)
    (hv : |binary32.toReal x - v| ≤ a * |v|) (hw : |binary32.toReal y - w| ≤ 6e-8 * |w|) (ha : 0 ≤ a) (ha1 : a ≤ 1e-6)
    (hr : |v * w| ≤ 2 ^ 126) :
    IsFin binary32 (binary32.mul x y) ∧
    |binary32.toReal (binary32.mul x y) - v * w| ≤ (a + 1.197e-7) * |v * w| + 1 / 2 ^ 150 := by
  have hvw := abs_nonneg (v * w)
  have e1 : |binary32.toReal x * binary32.toReal y - v * w| ≤ (a + 6.001e-8) * |v * w| := by
    rw [show binary32.toReal x * binary32.toReal y - v * w =
      (binary32.toReal x - v) * w + v * (binary32.toReal y - w) +
      (binary32.toReal x - v) * (binary32.toReal y - w) by ring]
    have t1 : |(binary32.toReal x - v) * w| ≤ a * |v * w| := by
      rw [abs_mul, abs_mul, ← mul_assoc]; exact mul_le_mul_of_nonneg_right hv (abs_nonneg _)
    have t2 : |v * (binary32.toReal y - w)| ≤ 6e-8 * |v * w| := by
      rw [abs_mul, abs_mul]
      calc _ ≤ |v| * (6e-8 * |w|) := mul_le_mul_of_nonneg_left hw (abs_nonneg _)
        _ = _ := by ring
    have t3 : |(binary32.toReal x - v) * (binary32.toReal y - w)| ≤ 1e-13 * |v * w| := by
      rw [abs_mul, abs_mul]
      calc _ ≤ (a * |v|) * (6e-8 * |w|) := mul_le_mul hv hw (abs_nonneg _) (mul_nonneg ha (abs_nonneg _))
        _ = (a * 6e-8) * (|v| * |w|) := by ring
        _ ≤ 1e-13 * (|v| * |w|) := by
          refine mul_le_mul_of_nonneg_right ?_ (by positivity)
          norm_num at ha1 ⊢; linarith
    have t4 := abs_add_le ((binary32.toReal x - v) * w + v * (binary32.toReal y - w))
      ((binary32.toReal x - v) * (binary32.toReal y - w))
    have t5 := abs_add_le ((binary32.toReal x - v) * w) (v * (binary32.toReal y - w))
    rw [add_mul]
    norm_num [-abs_mul] at t1 t2 t3 ⊢
    linarith
  have e2 : |binary32.toReal x * binary32.toReal y| ≤ 1.0001 * |v * w| := by
    have := abs_add_le (binary32.toReal x * binary32.toReal y - v * w) (v * w)
    rw [sub_add_cancel] at this
    have e3 : (a + 6.001e-8) * |v * w| ≤ 0.00001 * |v * w| := by
      refine mul_le_mul_of_nonneg_right ?_ hvw
      norm_num at ha1 ⊢; linarith
    norm_num at *
    linarith
  obtain ⟨f, e3⟩ := mul_near32 hx hy (e2.trans (by
    calc _ ≤ 1.0001 * (2 : ℝ) ^ 126 := mul_le_mul_of_nonneg_left hr (by norm_num)
      _ ≤ _ := by norm_num))
  refine ⟨f, ?_⟩
  have e4 := abs_sub_le (binary32.toReal (binary32.mul x y)) (binary32.toReal x * binary32.toReal y) (v * w)
  rw [add_mul] at e1 ⊢
  norm_num [-abs_mul] at e1 e2 e3 e4 ⊢
  linarith

/-- `R` has the accuracy of `pow(g, y)` (what C74 says about it, and C99 about its contracted forms). -/
def PowOk (g y R : BitVec 32) : Prop :=
  IsNormal g → 0 < binary32.toReal g → IsFin binary32 y →
    -87.3 ≤ binary32.toReal y * Real.log (binary32.toReal g) →
    binary32.toReal y * Real.log (binary32.toReal g) ≤ 88.7228 →
    IsNormal R ∧ |binary32.toReal R - binary32.toReal g ^ binary32.toReal y| ≤
      (4e-7 + 3.1e-7 * |binary32.toReal y * Real.log (binary32.toReal g)|) * binary32.toReal g ^ binary32.toReal y

theorem vecPow_ok {V : LaneOps 32} (h : V.Ieee) (hV : IsX86Class V) (g y : BitVec 32) : PowOk g y (vecPow V g y) :=
  fun h1 h2 h3 h4 h5 => vecPow_error h hV h1 h2 h3 h4 h5

/-- A power with an exponent that is known up to a relative error. -/
theorem pow_near {g y R : BitVec 32} {T : ℝ} (hR : PowOk g y R) (hg : IsNormal g)
    (hp : 1 < binary32.toReal g) (hg10 : binary32.toReal g ≤ 10) (hy : IsFin binary32 y)
    (he : |binary32.toReal y - T| ≤ 2e-7 * |T| + 1 / 2 ^ 140)
    (hT : |T * Real.log (binary32.toReal g)| ≤ 80) :
    IsFin binary32 R ∧
    |binary32.toReal R - binary32.toReal g ^ T| ≤
      (4.1e-7 + 5.2e-7 * |T * Real.log (binary32.toReal g)|) * binary32.toReal g ^ T := by
  have hL0 : 0 < Real.log (binary32.toReal g) := Real.log_pos hp
  have hL1 : Real.log (binary32.toReal g) ≤ 9 := by
    have := Real.log_le_sub_one_of_pos (show 0 < binary32.toReal g by linarith)
    linarith
  have hd : |binary32.toReal y * Real.log (binary32.toReal g) - T * Real.log (binary32.toReal g)| ≤
      2e-7 * |T * Real.log (binary32.toReal g)| + 1 / 2 ^ 130 := by
    rw [← sub_mul, abs_mul, abs_mul, abs_of_pos hL0]
    have := mul_le_mul_of_nonneg_right he hL0.le
    rw [add_mul] at this
    have h2 : 1 / 2 ^ 140 * Real.log (binary32.toReal g) ≤ 1 / 2 ^ 130 := by
      calc (1 / 2 ^ 140 : ℝ) * Real.log (binary32.toReal g) ≤ 1 / 2 ^ 140 * 9 := mul_le_mul_of_nonneg_left hL1 (by norm_num)
        _ ≤ _ := by norm_num
    rw [mul_assoc] at this
    linarith
  have hYL := abs_sub_abs_le_abs_sub (binary32.toReal y * Real.log (binary32.toReal g)) (T * Real.log (binary32.toReal g))
  have hYL2 : |binary32.toReal y * Real.log (binary32.toReal g)| ≤ |T * Real.log (binary32.toReal g)| + 1 / 10 ^ 4 := by
    norm_num [-abs_mul] at hd hT ⊢
    linarith
  have hb := abs_le.mp (hYL2.trans (add_le_add_left hT _))
  obtain ⟨f, e⟩ := hR hg (by linarith) hy (by norm_num at hb ⊢; linarith) (by norm_num at hb ⊢; linarith)
  refine ⟨f.2, ?_⟩
  rw [Real.rpow_def_of_pos (by linarith), mul_comm (Real.log _)] at e ⊢
  generalize binary32.toReal R = R at *
  generalize binary32.toReal y * Real.log (binary32.toReal g) = M at *
  generalize T * Real.log (binary32.toReal g) = L at *
  have hM : M = L + (M - L) := by ring
  generalize M - L = d at *
  have hd1 : |d| ≤ 1 / 10 ^ 4 := by
    refine hd.trans ?_
    norm_num at hT ⊢; linarith
  have x1 := Real.abs_exp_sub_one_sub_id_le (x := d) (hd1.trans (by norm_num))
  have x2 : |Real.exp d - 1| ≤ 1.0001 * |d| := by
    have a1 := abs_add_le (Real.exp d - 1 - d) d
    rw [sub_add_cancel] at a1
    have a2 : d ^ 2 ≤ 1 / 10 ^ 4 * |d| := by
      rw [← sq_abs, sq]; exact mul_le_mul_of_nonneg_right hd1 (abs_nonneg _)
    norm_num at a2 ⊢
    linarith
  rw [show Real.exp M = Real.exp L * Real.exp d by rw [← Real.exp_add, ← hM]] at e
  have hE := Real.exp_pos L
  generalize Real.exp L = E at *
  have x3 : |E * Real.exp d - E| ≤ E * (1.0001 * |d|) := by
    rw [show E * Real.exp d - E = E * (Real.exp d - 1) by ring, abs_mul, abs_of_pos hE]
    exact mul_le_mul_of_nonneg_left x2 hE.le
  have x4 : Real.exp d ≤ 1.0002 := by
    have := (abs_le.mp x2).2
    norm_num at *; linarith
  have x5 : (4e-7 + 3.1e-7 * |M|) * (E * Real.exp d) ≤ E * ((4e-7 + 3.1e-7 * |M|) * 1.0002) := by
    calc _ ≤ (4e-7 + 3.1e-7 * |M|) * (E * 1.0002) := by gcongr
      _ = _ := by ring
  have x6 := abs_sub_le R (E * Real.exp d) E
  refine x6.trans ((add_le_add (e.trans x5) x3).trans ?_)
  rw [← mul_add, mul_comm]
  refine mul_le_mul_of_nonneg_right ?_ hE.le
  have := abs_nonneg L
  norm_num at hd hYL2 ⊢
  linarith

theorem exp_80 : Real.exp 80 ≤ 2 ^ 116 ∧ 1 / 2 ^ 116 ≤ Real.exp (-80) := by
  have h : Real.exp 80 ≤ 2 ^ 116 := by
    rw [show (80 : ℝ) = (80 : ℕ) * 1 by norm_num, Real.exp_nat_mul]
    calc Real.exp 1 ^ 80 ≤ 2.7182818286 ^ 80 := pow_le_pow_left₀ (Real.exp_pos _).le Real.exp_one_lt_d9.le _
      _ ≤ _ := by norm_num
  refine ⟨h, ?_⟩
  rw [Real.exp_neg, ← one_div]
  exact one_div_le_one_div_of_le (Real.exp_pos _) h

/-- The size of a power. -/
theorem rpow_range {g T : ℝ} (hg : 0 < g) (hT : |T * Real.log g| ≤ 80) : 1 / 2 ^ 116 ≤ g ^ T ∧ g ^ T ≤ 2 ^ 116 := by
  rw [Real.rpow_def_of_pos hg, mul_comm]
  obtain ⟨h1, h2⟩ := abs_le.mp hT
  exact ⟨exp_80.2.trans (Real.exp_le_exp.mpr h1), (Real.exp_le_exp.mpr h2).trans exp_80.1⟩

/-- A product with an exactly represented positive constant. -/
theorem const_mul_rel {c r : BitVec 32} {W ε k : ℝ} (hc : IsFin binary32 c) (hk : binary32.toReal c = k) (hk1 : 1 ≤ k)
    (hk2 : k ≤ 500) (hr : IsFin binary32 r) (he : |binary32.toReal r - W| ≤ ε * |W|) (hε : ε ≤ 1e-4)
    (hW : 1 / 2 ^ 116 ≤ |W|) (hW2 : |W| ≤ 2 ^ 116) :
    IsFin binary32 (binary32.mul c r) ∧
    |binary32.toReal (binary32.mul c r) - k * W| ≤ (ε + 6e-8) * (k * |W|) := by
  have hk0 : 0 ≤ k := by linarith
  have e1 : |k * binary32.toReal r - k * W| ≤ ε * (k * |W|) := by
    rw [← mul_sub, abs_mul, abs_of_nonneg hk0]
    calc _ ≤ k * (ε * |W|) := mul_le_mul_of_nonneg_left he hk0
      _ = _ := by ring
  have hkW : 1 / 2 ^ 116 ≤ k * |W| := by
    calc (1 / 2 ^ 116 : ℝ) ≤ 1 * |W| := by rw [one_mul]; exact hW
      _ ≤ _ := mul_le_mul_of_nonneg_right hk1 (abs_nonneg _)
  have hkW2 : k * |W| ≤ 500 * 2 ^ 116 := mul_le_mul hk2 hW2 (abs_nonneg _) (by norm_num)
  have e2 : |k * binary32.toReal r| ≤ 1.0001 * (k * |W|) := by
    have := abs_add_le (k * binary32.toReal r - k * W) (k * W)
    rw [sub_add_cancel, abs_mul k W, abs_of_nonneg hk0] at this
    have e3 : ε * (k * |W|) ≤ 1e-4 * (k * |W|) := mul_le_mul_of_nonneg_right hε (le_trans (by positivity) hkW)
    norm_num at e3 ⊢
    norm_num at this e1
    linarith
  obtain ⟨f, e3⟩ := mul_near32 hc hr (by rw [hk]; exact e2.trans (by norm_num at hkW2 ⊢; linarith))
  rw [hk] at e3
  refine ⟨f, ?_⟩
  have e4 := abs_sub_le (binary32.toReal (binary32.mul c r)) (k * binary32.toReal r) (k * W)
  rw [add_mul]
  generalize |k * binary32.toReal r| = g1 at *
  generalize k * |W| = g2 at *
  generalize ε * g2 = g3 at *
  norm_num at e2 e3 hkW ⊢
  linarith

/-- Finite floats are below `2^128`. -/
theorem toReal_le_max {x : BitVec 32} (hx : IsFin binary32 x) : |binary32.toReal x| ≤ 2 ^ 128 := by
  have hc := binary32.finite_code hx
  have hm : mag 23 (binary32.code x) < 2 ^ 277 := by
    refine lt_of_lt_of_eq (mag_strictMono 23 hc) ?_
    rw [show binary32.infCode = (254 + 1) * 2 ^ 23 by decide, mag_two_pow]
  have hm' : ((mag 23 (binary32.code x) : ℕ) : ℝ) ≤ 2 ^ 277 := by
    have : ((mag 23 (binary32.code x) : ℕ) : ℝ) ≤ ((2 ^ 277 : ℕ) : ℝ) := Nat.cast_le.mpr hm.le
    rwa [Nat.cast_pow, Nat.cast_ofNat] at this
  rw [binary32.toReal_eq, abs_mul, show |(if binary32.neg x = true then -1 else 1 : ℝ)| = 1 by
    cases binary32.neg x <;> simp, one_mul, abs_of_nonneg (by positivity), div_le_iff₀ (by positivity),
    show binary32.scale = 149 by decide, ← pow_add]
  exact hm'

/-- The argument of the logarithm of a rounded product, and the effect of its rounding. -/
theorem log_scaled_of {f c : BitVec 32} {w k : ℝ} (hf : IsFin binary32 f)
    (hf1 : 1 / 2 ^ 100 ≤ |binary32.toReal f|) (hc : IsFin binary32 c) (hw : 1 / 2 ^ 10 ≤ w) (hw1 : w ≤ 1 / 2 ^ 2)
    (hcw : |binary32.toReal c - w| ≤ 6e-8 * |w|) (hk0 : 1 / 4 ≤ k) :
    IsNormal (binary32.fabs (binary32.mul f c)) ∧ 0 < binary32.toReal (binary32.fabs (binary32.mul f c)) ∧
    ∀ v : ℝ, |v - Real.log (binary32.toReal (binary32.fabs (binary32.mul f c))) * k| ≤
        1 / 2 ^ 21 * |Real.log (binary32.toReal (binary32.fabs (binary32.mul f c))) * k| →
      |v - Real.log (|binary32.toReal f| * w) * k| ≤ 1.21e-7 * k + 4.77e-7 * |Real.log (|binary32.toReal f| * w) * k| := by
  have hfm : |binary32.toReal f| ≤ 2 ^ 128 := toReal_le_max hf
  have hw0 : 0 < w := lt_of_lt_of_le (by norm_num) hw
  have hfw : 1 / 2 ^ 110 ≤ |binary32.toReal f| * w := by
    calc (1 / 2 ^ 110 : ℝ) = 1 / 2 ^ 100 * (1 / 2 ^ 10) := by norm_num
      _ ≤ _ := mul_le_mul hf1 hw (by norm_num) (abs_nonneg _)
  have hfw2 : |binary32.toReal f * w| ≤ 2 ^ 126 := by
    rw [abs_mul, abs_of_pos hw0]
    calc _ ≤ (2 : ℝ) ^ 128 * (1 / 2 ^ 2) := mul_le_mul hfm hw1 hw0.le (by norm_num)
      _ = _ := by norm_num
  obtain ⟨f1, e1⟩ := mul_rel (a := 0) (v := binary32.toReal f) hf hc (by rw [sub_self, abs_zero, zero_mul]) hcw le_rfl
    (by norm_num) hfw2
  rw [abs_mul, abs_of_pos hw0, zero_add] at e1
  have hfin : IsFin binary32 (binary32.fabs (binary32.mul f c)) := by
    unfold IsFin at f1 ⊢; rw [binary32.isFinite_fabs]; exact f1
  have e2 : |binary32.toReal (binary32.fabs (binary32.mul f c)) - |binary32.toReal f| * w| ≤ 1.2e-7 * (|binary32.toReal f| * w) := by
    rw [binary32.toReal_fabs]
    have := abs_abs_sub_abs_le_abs_sub (binary32.toReal (binary32.mul f c)) (binary32.toReal f * w)
    rw [abs_mul (binary32.toReal f) w, abs_of_pos hw0] at this
    refine this.trans (e1.trans ?_)
    generalize |binary32.toReal f| * w = q at *
    norm_num at hfw ⊢
    linarith
  generalize binary32.fabs (binary32.mul f c) = z at *
  generalize |binary32.toReal f| * w = q at *
  have hq : 0 < q := lt_of_lt_of_le (by norm_num) hfw
  have hz := abs_le.mp e2
  have hz0 : 1 / 2 ^ 120 ≤ binary32.toReal z := by norm_num at hz hfw ⊢; linarith
  have hz1 : 0 < binary32.toReal z := lt_of_lt_of_le (by norm_num) hz0
  have hn : IsNormal z := isNormal_of_value hfin (by
    rw [abs_of_pos hz1]; exact le_trans (by norm_num) hz0)
  refine ⟨hn, hz1, fun v e3 => ?_⟩
  -- the logarithms of z and q
  have hl : |Real.log (binary32.toReal z) - Real.log q| ≤ 1.201e-7 := by
    rw [← Real.log_div hz1.ne' hq.ne']
    have hd : |binary32.toReal z / q - 1| ≤ 1.2e-7 := by
      rw [div_sub_one hq.ne', abs_div, abs_of_pos hq, div_le_iff₀ hq]; exact e2
    generalize binary32.toReal z / q = t at *
    obtain ⟨d1, d2⟩ := abs_le.mp hd
    have ht : 0 < t := by norm_num at d1; linarith
    have u1 := Real.log_le_sub_one_of_pos ht
    have u2 := Real.one_sub_inv_le_log_of_pos ht
    have u3 : 1 - t⁻¹ ≥ -1.201e-7 := by
      have : t⁻¹ ≤ 1.0000001201 := by
        rw [inv_le_comm₀ ht (by norm_num)]
        norm_num at d1 ⊢; linarith
      norm_num at this ⊢; linarith
    rw [abs_le]
    norm_num at d2 u3 ⊢
    constructor <;> linarith
  have hk0' : 0 ≤ k := by linarith
  have hlk : |Real.log (binary32.toReal z) * k - Real.log q * k| ≤ 1.201e-7 * k := by
    rw [← sub_mul, abs_mul, abs_of_nonneg hk0']; exact mul_le_mul_of_nonneg_right hl hk0'
  have t1 := abs_sub_le v (Real.log (binary32.toReal z) * k) (Real.log q * k)
  have t2 := abs_add_le (Real.log (binary32.toReal z) * k - Real.log q * k) (Real.log q * k)
  rw [sub_add_cancel] at t2
  have t3 := abs_nonneg (Real.log q * k)
  generalize |Real.log (binary32.toReal z) * k| = g1 at *
  generalize |Real.log q * k| = g2 at *
  norm_num at e3 hlk t1 t2 ⊢
  linarith

/-- A logarithm of a rounded product, to a base given by its factor. -/
theorem log_scaled {V : LaneOps 32} (h : V.Ieee) (hV : IsX86Class V) {f c r : BitVec 32} {w k : ℝ} (hf : IsFin binary32 f)
    (hf1 : 1 / 2 ^ 100 ≤ |binary32.toReal f|) (hc : IsFin binary32 c) (hw : 1 / 2 ^ 10 ≤ w) (hw1 : w ≤ 1 / 2 ^ 2)
    (hcw : |binary32.toReal c - w| ≤ 6e-8 * |w|)
    (hk0 : 1 / 4 ≤ k) (hk1 : k ≤ 2) (hr : IsFin binary32 r)
    (hk : |binary32.toReal r - k| ≤ 1 / 2 ^ 24 * k) :
    IsFin binary32 (vecLogBase V r (binary32.fabs (binary32.mul f c))) ∧
    |binary32.toReal (vecLogBase V r (binary32.fabs (binary32.mul f c))) - Real.log (|binary32.toReal f| * w) * k| ≤
      1.21e-7 * k + 4.77e-7 * |Real.log (|binary32.toReal f| * w) * k| := by
  obtain ⟨hn, hz, H⟩ := log_scaled_of hf hf1 hc hw hw1 hcw hk0
  obtain ⟨f3, e3⟩ := vecLogBase_error h hV hn hz hk0 hk1 hr hk
  exact ⟨f3, H _ e3⟩

end Nova
