import Verif.Lemmas.LogZero
import Verif.Props.C44_Exponent
import Verif.Lemmas.ExpFinal

/-!
# `vec_log_float`: argument reduction and the error of the result
-/

namespace Nova
open FP VecMath

section
attribute [local irreducible] litD litF
theorem vecLog_eq (V : LaneOps 32) (x : BitVec 32) :
    vecLog V x = logTail V (V.add (frexp V x).1
      (V.sub ((frexp V x).1 &&& V.maskLt (frexp V x).1 (litF 0.707106781186547524)) V.one))
      (V.convertToFloat ((frexp V x).2 + V.maskLt (frexp V x).1 (litF 0.707106781186547524))) := rfl
end

section
attribute [local irreducible] litD litF

/-- `y` of `vec_log_float`, from the inner polynomial `p` (detail/vec_math.hpp:190-194) -/
def logMiddle (V : LaneOps 32) (p x fe : BitVec 32) : BitVec 32 :=
  V.sub (V.add (V.mul (V.mul (V.mul p x) x) x) (V.mul fe (litD (-2.12194440e-4)))) (V.mul (V.mul (litD 0.5) x) x)

/-- Evaluation in steps. -/
theorem log_eval (V : LaneOps 32) (x t fe p y r : BitVec 32)
    (h1 : V.add (frexp V x).1
      (V.sub ((frexp V x).1 &&& V.maskLt (frexp V x).1 (litF 0.707106781186547524)) V.one) = t)
    (h2 : V.convertToFloat ((frexp V x).2 + V.maskLt (frexp V x).1 (litF 0.707106781186547524)) = fe)
    (h3 : logHorner V t = p) (h4 : logMiddle V p t fe = y)
    (h5 : V.add (V.add t y) (V.mul (litD 0.693359375) fe) = r) : vecLog V x = r := by
  rw [vecLog_eq, h1, h2, ← h5, ← h4, ← h3]; rfl
end

theorem one_units : (2 ^ 125 : ℤ) ∣ binary32.units 0x3f800000#32 :=
  grid_of_value (k := 2 ^ 24) (by rw [toReal_one32']; norm_num)

theorem log_grid {m y : BitVec 32} {w : ℝ} (gm : (2 ^ 125 : ℤ) ∣ binary32.units m)
    (gy : (2 ^ 125 : ℤ) ∣ binary32.units y) (hw : binary32.toReal y = w) :
    binary32.toReal m + w = 0 ∨ 1 / 2 ^ 24 ≤ |binary32.toReal m + w| := by
  obtain ⟨a, ha⟩ := gm
  obtain ⟨b, hb⟩ := gy
  have e : binary32.toReal m + w = ((a + b : ℤ) : ℝ) / 2 ^ 24 := by
    rw [← hw]
    unfold Fmt.toReal
    rw [ha, hb, show binary32.scale = 149 by decide]
    push_cast
    norm_num
    ring
  rw [e]
  by_cases h0 : a + b = 0
  · left; rw [h0]; simp
  · right
    rw [abs_div, abs_of_pos (show (0 : ℝ) < 2 ^ 24 by norm_num), div_le_div_iff_of_pos_right (by norm_num)]
    have : 1 ≤ |a + b| := Int.one_le_abs h0
    exact_mod_cast this

theorem exp_sub_toInt {E : Nat} (hE : E ≤ 255) : (126#32 - BitVec.ofNat 32 E).toInt = 126 - (E : Int) := by
  rcases toInt_cases (126#32 - BitVec.ofNat 32 E) with ⟨k, h1, h2, h3⟩ | ⟨k, h0, h1, h2, h3⟩ <;>
  · rw [h2]
    rw [BitVec.toNat_sub] at h3
    simp only [BitVec.toNat_ofNat] at h3
    omega

theorem exp_sub_toInt' {E : Nat} (hE : E ≤ 255) : (BitVec.ofNat 32 E - 126#32).toInt = (E : Int) - 126 := by
  rcases toInt_cases (BitVec.ofNat 32 E - 126#32) with ⟨k, h1, h2, h3⟩ | ⟨k, h0, h1, h2, h3⟩ <;>
  · rw [h2]
    rw [BitVec.toNat_sub] at h3
    simp only [BitVec.toNat_ofNat] at h3
    omega

/-- The significand of every pattern is a number in [1/2, 1), with its sign. -/
theorem frexp_range {V : LaneOps 32} (hV : IsX86Class V) (x : BitVec 32) :
    1 / 2 ≤ |binary32.toReal (frexp V x).1| ∧ |binary32.toReal (frexp V x).1| < 1 ∧
    IsFin binary32 (frexp V x).1 ∧ binary32.neg (frexp V x).1 = binary32.neg x ∧
    (frexp V x).2.toInt = (expField x : Int) - 126 := by
  have hE := expField_lt x
  rw [frexp_eq hV.exps]
  have hn1 := exp_sub_toInt (E := expField x) (by omega)
  have hn2 := exp_sub_toInt' (E := expField x) (by omega)
  obtain ⟨h1, h2⟩ := ldexp_code hV.exps (x := x) (n := 126#32 - BitVec.ofNat 32 (expField x))
    (by omega) (by omega)
  dsimp only
  rw [hn2]
  rw [hn1] at h2
  set y := ldexp V x (126#32 - BitVec.ofNat 32 (expField x)) with hy
  have hxE : expField x = binary32.code x / 2 ^ 23 := rfl
  have hlo : 126 * 2 ^ 23 ≤ binary32.code y := by omega
  have hhi : binary32.code y < 127 * 2 ^ 23 := by omega
  have habs : |binary32.toReal y| = (mag 23 (binary32.code y) : ℝ) / 2 ^ 149 := by
    rw [← binary32.toReal_fabs]
    unfold Fmt.toReal Fmt.units
    rw [binary32.neg_fabs, binary32.code_fabs]
    have hs : binary32.scale = 149 := by decide
    have hmb : binary32.mb = 23 := rfl
    simp only [Bool.false_eq_true, if_false, hs, hmb]; push_cast; rfl
  have m1 : 2 ^ 148 ≤ mag 23 (binary32.code y) := by
    have : mag 23 (126 * 2 ^ 23) = 2 ^ 148 := by decide
    rw [← this]; exact mag_le_iff.mpr hlo
  have m2 : mag 23 (binary32.code y) < 2 ^ 149 := by
    have : mag 23 (127 * 2 ^ 23) = 2 ^ 149 := by decide
    rw [← this]; exact mag_lt_iff.mpr hhi
  refine ⟨?_, ?_, ?_, h1, rfl⟩
  · rw [habs, le_div_iff₀ (by positivity)]
    have : (2 : ℝ) ^ 148 ≤ mag 23 (binary32.code y) := by exact_mod_cast m1
    linarith [show (1 / 2 : ℝ) * 2 ^ 149 = 2 ^ 148 by norm_num]
  · rw [habs, div_lt_one (by positivity)]
    exact_mod_cast m2
  · unfold IsFin Fmt.isFinite
    rw [decide_eq_true_eq, show binary32.infCode = 255 * 2 ^ 23 by decide]
    omega

section
attribute [local irreducible] litD litF
/-- The reduced argument of `vec_log_float` (detail/vec_math.hpp:172-180) -/
def logArg (V : LaneOps 32) (x : BitVec 32) : BitVec 32 :=
  V.add (frexp V x).1 (V.sub ((frexp V x).1 &&& V.maskLt (frexp V x).1 (litF 0.707106781186547524)) V.one)

/-- The exponent of `vec_log_float` as a number (detail/vec_math.hpp:172-180) -/
def logExp (V : LaneOps 32) (x : BitVec 32) : BitVec 32 :=
  V.convertToFloat ((frexp V x).2 + V.maskLt (frexp V x).1 (litF 0.707106781186547524))
end

/-- The reduced argument and the exponent. -/
theorem log_reduce_parts {V : LaneOps 32} (h : V.Ieee) (h86 : IsX86Class V) {x : BitVec 32} (hx : expField x ≤ 254)
    (hn : binary32.neg x = false) :
    ∃ (v : ℝ) (k : ℤ), Tr (logArg V x) v 0 0.41422 ∧
      -0.29290 ≤ v ∧ v ≤ 0.41422 ∧ (v = 0 ∨ 1 / 2 ^ 24 ≤ |v|) ∧ |k| ≤ 128 ∧ IsFin binary32 (logExp V x) ∧
      binary32.toReal (logExp V x) = k ∧ binary32.toReal (frexp V x).1 * 2 ^ ((expField x : ℤ) - 126) = (1 + v) * 2 ^ k := by
  obtain ⟨f2, f3, f4, f5, hk0⟩ := frexp_range h86 x
  rw [hn] at f5
  have hpos := toReal_nonneg f5
  rw [abs_of_nonneg hpos] at f2 f3
  unfold logArg logExp
  generalize (frexp V x).1 = m at *
  generalize (frexp V x).2 = e at *
  have cv : binary32.toReal (litF 0.707106781186547524) = ((11863283/2^24 : ℚ) : ℝ) := isVal_value (by decide +kernel)
  have cf : IsFin binary32 (litF 0.707106781186547524) := isVal_fin (q := 11863283/2^24) (by decide +kernel)
  rw [h.lt, toReal_lt_of_ltb f4 cf, cv, h.one, h.ofInt, h.add, h.sub]
  have gm : (2 ^ 125 : ℤ) ∣ binary32.units m := grid_of_large (by rw [abs_of_nonneg hpos]; norm_num at *; linarith)
  have of : IsFin binary32 0x3f800000#32 := by decide
  by_cases hlt : binary32.toReal m < ((11863283/2^24 : ℚ) : ℝ)
  · rw [decide_eq_true hlt, show m &&& maskOf true = m from by rw [BitVec.and_comm, maskOf_and]; rfl]
    obtain ⟨s1, s2⟩ := sub_grid32 f4 of 125 gm one_units (by
      rw [toReal_one32', abs_le]; constructor <;> norm_num <;> linarith) (by norm_num)
    rw [toReal_one32'] at s2
    have gs : (2 ^ 125 : ℤ) ∣ binary32.units (binary32.sub m 0x3f800000#32) := by
      obtain ⟨k, hk⟩ := gm
      refine grid_of_value (k := k - 2 ^ 24) ?_
      rw [s2]
      unfold Fmt.toReal
      rw [hk, show binary32.scale = 149 by decide]
      push_cast
      norm_num
      ring
    push_cast at hlt
    obtain ⟨a1, a2⟩ := add_grid32 f4 s1 125 gm gs (by
      rw [s2, abs_le]; constructor <;> norm_num at * <;> linarith) (by norm_num)
    rw [s2] at a2
    have ke : (e + maskOf true).toInt = (expField x : ℤ) - 127 := by
      have e1 : (maskOf true : BitVec 32) = BitVec.ofInt 32 (-1) := by decide
      rw [e1, BitVec.toInt_add, hk0, show (BitVec.ofInt 32 (-1)).toInt = -1 from by decide]
      rw [Int.bmod_eq_of_le (by omega) (by omega)]; ring
    have hfe : binary32.ofInt32 (e + maskOf true) = binary32.ofInt ((expField x : ℤ) - 127) := by
      unfold Fmt.ofInt32; rw [ke]
    obtain ⟨q1, q2⟩ := ofInt_value (k := (expField x : ℤ) - 127) (by omega)
    have hv1 : -0.29290 ≤ binary32.toReal m + (binary32.toReal m - 1) := by norm_num at *; linarith
    have hv2 : binary32.toReal m + (binary32.toReal m - 1) ≤ 0.41422 := by norm_num at *; linarith
    refine ⟨binary32.toReal m + (binary32.toReal m - 1), (expField x : ℤ) - 127,
      ⟨a1, by rw [a2, sub_self, abs_zero], ?_⟩, hv1, hv2, ?_, ?_, hfe ▸ q1, hfe ▸ q2, ?_⟩
    · rw [abs_le]; norm_num at *; constructor <;> linarith
    · exact log_grid gm gs s2
    · rw [abs_le]; omega
    · rw [show (expField x : ℤ) - 126 = ((expField x : ℤ) - 127) + 1 by ring,
        zpow_add₀ (by norm_num : (2 : ℝ) ≠ 0), zpow_one]
      ring
  · rw [decide_eq_false hlt, show m &&& maskOf false = 0#32 from by simp [maskOf]]
    have zf : IsFin binary32 0#32 := by decide
    have zv : binary32.toReal 0#32 = 0 := by
      rw [binary32.toReal_eq, show mag binary32.mb (binary32.code 0#32) = 0 by decide +kernel]; simp
    have gz : (2 ^ 125 : ℤ) ∣ binary32.units 0#32 := ⟨0, by decide +kernel⟩
    obtain ⟨s1, s2⟩ := sub_grid32 zf of 125 gz one_units (by
      rw [toReal_one32', zv, abs_le]; constructor <;> norm_num) (by norm_num)
    rw [toReal_one32', zv, zero_sub] at s2
    have gs : (2 ^ 125 : ℤ) ∣ binary32.units (binary32.sub 0#32 0x3f800000#32) :=
      grid_of_value (k := -2 ^ 24) (by rw [s2]; norm_num)
    rw [not_lt] at hlt
    push_cast at hlt
    obtain ⟨a1, a2⟩ := add_grid32 f4 s1 125 gm gs (by
      rw [s2, abs_le]; constructor <;> norm_num at * <;> linarith) (by norm_num)
    rw [s2] at a2
    have ke : (e + maskOf false).toInt = (expField x : ℤ) - 126 := by
      rw [show (maskOf false : BitVec 32) = 0#32 from by decide, BitVec.add_zero, hk0]
    have hfe : binary32.ofInt32 (e + maskOf false) = binary32.ofInt ((expField x : ℤ) - 126) := by
      unfold Fmt.ofInt32; rw [ke]
    obtain ⟨q1, q2⟩ := ofInt_value (k := (expField x : ℤ) - 126) (by omega)
    have hv1 : -0.29290 ≤ binary32.toReal m + -1 := by norm_num at *; linarith
    have hv2 : binary32.toReal m + -1 ≤ 0.41422 := by norm_num at *; linarith
    refine ⟨binary32.toReal m + -1, (expField x : ℤ) - 126,
      ⟨a1, by rw [a2, sub_self, abs_zero], ?_⟩, hv1, hv2, ?_, ?_, hfe ▸ q1, hfe ▸ q2, ?_⟩
    · rw [abs_le]; norm_num at *; constructor <;> linarith
    · exact log_grid gm gs s2
    · rw [abs_le]; omega
    · ring

theorem log_reduce_any {V : LaneOps 32} (h : V.Ieee) (h86 : IsX86Class V) {x : BitVec 32} (hx : expField x ≤ 254)
    (hn : binary32.neg x = false) :
    ∃ (t fe : BitVec 32) (v : ℝ) (k : ℤ), vecLog V x = logTail V t fe ∧ Tr t v 0 0.41422 ∧
      -0.29290 ≤ v ∧ v ≤ 0.41422 ∧ (v = 0 ∨ 1 / 2 ^ 24 ≤ |v|) ∧ |k| ≤ 128 ∧ IsFin binary32 fe ∧
      binary32.toReal fe = k ∧ binary32.toReal (frexp V x).1 * 2 ^ ((expField x : ℤ) - 126) = (1 + v) * 2 ^ k := by
  obtain ⟨v, k, H⟩ := log_reduce_parts h h86 hx hn
  exact ⟨logArg V x, logExp V x, v, k, vecLog_eq V x, H⟩

/-- … of a normal number. -/
theorem log_reduce {V : LaneOps 32} (h : V.Ieee) (h86 : IsX86Class V) {x : BitVec 32} (hx : IsNormal x)
    (hn : binary32.neg x = false) :
    ∃ (t fe : BitVec 32) (v : ℝ) (k : ℤ), vecLog V x = logTail V t fe ∧ Tr t v 0 0.41422 ∧
      -0.29290 ≤ v ∧ v ≤ 0.41422 ∧ (v = 0 ∨ 1 / 2 ^ 24 ≤ |v|) ∧ |k| ≤ 128 ∧ IsFin binary32 fe ∧
      binary32.toReal fe = k ∧ binary32.toReal x = (1 + v) * 2 ^ k := by
  obtain ⟨t, fe, v, k, e1, ht, h1, h2, h3, hk, hf, hfv, hX⟩ := log_reduce_any h h86 (expField_normal hx).2 hn
  refine ⟨t, fe, v, k, e1, ht, h1, h2, h3, hk, hf, hfv, ?_⟩
  rw [(C44_frexp h86 x hx).1, (frexp_range h86 x).2.2.2.2, hX]

theorem mul_zero32' {x y : BitVec 32} (hx : IsFin binary32 x) (hy : IsFin binary32 y)
    (h0 : binary32.toReal y = 0) :
    IsFin binary32 (binary32.mul x y) ∧ binary32.toReal (binary32.mul x y) = 0 := by
  have := mul_exact32 hx hy (m := 0) (s := 0) (by norm_num) (by norm_num) (by rw [h0]; norm_num)
  rw [h0, mul_zero] at this
  exact this

/-- The logarithm of 1 is exactly 0. -/
theorem log_tail_one {V : LaneOps 32} (h : V.Ieee) {x fe : BitVec 32} {v : ℝ} (ht : Tr x v 0 0.41422)
    (h0 : binary32.toReal x = 0) (hf : IsFin binary32 fe) (hf0 : binary32.toReal fe = 0) :
    IsFin binary32 (logTail V x fe) ∧ binary32.toReal (logTail V x fe) = 0 := by
  have hp := logHorner_track h ht
  have c1 : IsFin binary32 (litD (-2.12194440e-4)) := isVal_fin (q := -14581891/2^36) (by decide +kernel)
  have c2 : IsFin binary32 (litD 0.693359375) := isVal_fin (q := 355/2^9) (by decide +kernel)
  have c3 : IsFin binary32 (litD 0.5) := isVal_fin (q := 1/2) (by decide +kernel)
  have a1 := mul_zero32' hp.fin ht.fin h0
  have a2 := mul_zero32' a1.1 ht.fin h0
  have a3 := mul_zero32' a2.1 ht.fin h0
  have a4 := mul_zero32 hf c1 hf0
  have a5 := add_zero32 a3.1 a4.1 a4.2
  have a6 := mul_zero32' (mul_zero32' c3 ht.fin h0).1 ht.fin h0
  have a7 := sub_zero32 a5.1 a6.1 a6.2
  have a8 := add_zero32 ht.fin a7.1 (a7.2.trans (a5.2.trans a3.2))
  have a9 := mul_zero32' c2 hf hf0
  have a10 := add_zero32 a8.1 a9.1 a9.2
  unfold logTail
  dsimp only
  rw [logPoly_eq, h.add, h.mul, h.sub]
  exact ⟨a10.1, a10.2.trans (a8.2.trans h0)⟩

/-- The relative error of a logarithm, from the errors for the powers of two. -/
theorem log_error_of {R : BitVec 32} {X v : ℝ} {k : ℤ} (h1 : -0.29290 ≤ v) (h2 : v ≤ 0.41422)
    (h3 : v = 0 ∨ 1 / 2 ^ 24 ≤ |v|) (hX : X = (1 + v) * 2 ^ k)
    (H0 : k = 0 → v = 0 → IsFin binary32 R ∧ binary32.toReal R = 0)
    (H1 : k = 0 → 1 / 2 ^ 24 ≤ |v| → IsFin binary32 R ∧ |binary32.toReal R - Real.log (1 + v)| ≤ 2581/2^34 * |v|)
    (H2 : |k| = 1 → IsFin binary32 R ∧ |binary32.toReal R - (Real.log (1 + v) + k * Real.log 2)| ≤
      53 / 10 ^ 9 + 1 / 2 ^ 24 * |Real.log (1 + v) + k * Real.log 2|)
    (H3 : IsFin binary32 R ∧ |binary32.toReal R - (Real.log (1 + v) + k * Real.log 2)| ≤
      74 / 10 ^ 9 + 1 / 2 ^ 24 * |Real.log (1 + v) + k * Real.log 2|) :
    IsFin binary32 R ∧ |binary32.toReal R - Real.log X| ≤ 1 / 2 ^ 22 * |Real.log X| := by
  have hp : (0 : ℝ) < 1 + v := by norm_num at *; linarith
  have hL : Real.log X = Real.log (1 + v) + k * Real.log 2 := by
    rw [hX, Real.log_mul hp.ne' (zpow_pos (by norm_num) _).ne', Real.log_zpow]
  rw [hL]
  have hl := log_half h1 h2
  have L1 := Real.log_two_gt_d9
  have L2 := Real.log_two_lt_d9
  have hlow : |(k : ℝ)| * Real.log 2 - 0.34659 ≤ |Real.log (1 + v) + k * Real.log 2| := by
    have := abs_sub_abs_le_abs_sub ((k : ℝ) * Real.log 2) (-Real.log (1 + v))
    rw [abs_mul, abs_of_pos (show 0 < Real.log 2 by linarith), abs_neg, sub_neg_eq_add, add_comm (k * Real.log 2)] at this
    linarith
  rcases (show k = 0 ∨ |k| = 1 ∨ 2 ≤ |k| by have := abs_nonneg k; have := abs_eq_zero (a := k); omega) with h0 | h0 | h0
  · clear H2 H3
    subst h0
    rw [Int.cast_zero, zero_mul, add_zero]
    rcases h3 with h3 | h3
    · obtain ⟨r1, r2⟩ := H0 rfl h3
      refine ⟨r1, ?_⟩
      rw [r2, h3]; simp
    · obtain ⟨r1, r2⟩ := H1 rfl h3
      refine ⟨r1, r2.trans ?_⟩
      have := (log_size h1 h2).1
      have := abs_nonneg v
      norm_num at *
      linarith
  · have hk1 : |(k : ℝ)| = 1 := by exact_mod_cast h0
    obtain ⟨r1, r2⟩ := H2 h0
    refine ⟨r1, r2.trans ?_⟩
    rw [hk1] at hlow
    clear H0 H1 H2 H3 r2
    generalize |Real.log (1 + v) + k * Real.log 2| = L at *
    norm_num at *
    linarith
  · have hk2 : (2 : ℝ) ≤ |(k : ℝ)| := by exact_mod_cast h0
    obtain ⟨r1, r2⟩ := H3
    refine ⟨r1, r2.trans ?_⟩
    have h5 : 2 * Real.log 2 - 0.34659 ≤ |Real.log (1 + v) + k * Real.log 2| :=
      le_trans (sub_le_sub_right (mul_le_mul_of_nonneg_right hk2 (by linarith)) _) hlow
    clear H0 H1 H2 r2
    generalize |Real.log (1 + v) + k * Real.log 2| = L at *
    norm_num at *
    linarith

/-- The relative error of `vec_log_float`, from the reduced argument. -/
theorem vecLog_error_any {V : LaneOps 32} (h : V.Ieee) {x : BitVec 32} {X : ℝ}
    (hr : ∃ (t fe : BitVec 32) (v : ℝ) (k : ℤ), vecLog V x = logTail V t fe ∧ Tr t v 0 0.41422 ∧
      -0.29290 ≤ v ∧ v ≤ 0.41422 ∧ (v = 0 ∨ 1 / 2 ^ 24 ≤ |v|) ∧ |k| ≤ 128 ∧ IsFin binary32 fe ∧
      binary32.toReal fe = k ∧ X = (1 + v) * 2 ^ k) :
    IsFin binary32 (vecLog V x) ∧
    |binary32.toReal (vecLog V x) - Real.log X| ≤ 1 / 2 ^ 22 * |Real.log X| := by
  obtain ⟨t, fe, v, k, e1, ht, h1, h2, h3, hk, hf, hfv, hX⟩ := hr
  rw [e1]
  have hkr : |(k : ℝ)| ≤ 128 := by exact_mod_cast hk
  have hTf : ∀ K : ℝ, |(k : ℝ)| ≤ K → Tr fe k 0 K := fun K hK => ⟨hf, by rw [hfv, sub_self, abs_zero], hK⟩
  refine log_error_of h1 h2 h3 hX ?_ ?_ ?_ ?_
  · intro h0 h3
    have ht0 : binary32.toReal t = 0 := by
      have := ht.err; rw [abs_nonpos_iff, sub_eq_zero] at this; rw [this, h3]
    exact log_tail_one h ht ht0 hf (by rw [hfv, h0]; simp)
  · intro h0 h3
    subst h0
    rw [Int.cast_zero] at hTf
    exact log_tail0 h ht h1 h2 (hTf 1 (by simp)) h3
  · intro h0
    have hk1 : |(k : ℝ)| = 1 := by exact_mod_cast h0
    exact log_tail1 h ht h1 h2 (hTf 1 hk1.le) h0.le
  · exact log_tail128 h ht h1 h2 (hTf 128 hkr) hk

/-- The relative error of `vec_log_float` for normal positive numbers. -/
theorem vecLog_error {V : LaneOps 32} (h : V.Ieee) (h86 : IsX86Class V) {x : BitVec 32} (hx : IsNormal x)
    (hn : binary32.neg x = false) :
    IsFin binary32 (vecLog V x) ∧
    |binary32.toReal (vecLog V x) - Real.log (binary32.toReal x)| ≤ 1 / 2 ^ 22 * |Real.log (binary32.toReal x)| :=
  vecLog_error_any h (log_reduce h h86 hx hn)

theorem log_subnormal_of {V : LaneOps 32} (h86 : IsX86Class V) {x R : BitVec 32} (hx : expField x = 0)
    (hn : binary32.neg x = false)
    (r2 : |binary32.toReal R - Real.log (binary32.toReal (frexp V x).1 * 2 ^ ((expField x : ℤ) - 126))| ≤
      1 / 2 ^ 22 * |Real.log (binary32.toReal (frexp V x).1 * 2 ^ ((expField x : ℤ) - 126))|) :
    -88.03 ≤ binary32.toReal R ∧ binary32.toReal R ≤ -87.33 := by
  obtain ⟨f2, f3, -, f5, -⟩ := frexp_range h86 x
  rw [hn] at f5
  rw [abs_of_nonneg (toReal_nonneg f5)] at f2 f3
  rw [hx] at r2
  generalize binary32.toReal (frexp V x).1 = m at *
  have L1 := Real.log_two_gt_d9
  have L2 := Real.log_two_lt_d9
  have hL : Real.log (m * 2 ^ (((0 : ℕ) : ℤ) - 126)) = Real.log m - 126 * Real.log 2 := by
    rw [Real.log_mul (by linarith) (zpow_pos (by norm_num) _).ne', Real.log_zpow]; push_cast; ring
  have h1 : -Real.log 2 ≤ Real.log m := by
    rw [← Real.log_inv]; exact Real.log_le_log (by norm_num) (by linarith)
  have h2 : Real.log m ≤ 0 := Real.log_nonpos (by linarith) f3.le
  rw [hL, abs_of_neg (show Real.log m - 126 * Real.log 2 < 0 by linarith)] at r2
  refine ⟨?_, ?_⟩ <;> (rw [abs_le] at r2; norm_num at *; linarith [r2.1, r2.2])

/-- The logarithm of zero and of subnormal numbers is about that of `2^-127`. -/
theorem vecLog_subnormal {V : LaneOps 32} (h : V.Ieee) (h86 : IsX86Class V) {x : BitVec 32} (hx : expField x = 0)
    (hn : binary32.neg x = false) :
    IsFin binary32 (vecLog V x) ∧ -88.03 ≤ binary32.toReal (vecLog V x) ∧ binary32.toReal (vecLog V x) ≤ -87.33 := by
  obtain ⟨r1, r2⟩ := vecLog_error_any h (log_reduce_any h h86 (by omega) hn)
  exact ⟨r1, log_subnormal_of h86 hx hn r2⟩

/-! ## Every argument gives a finite number -/

/-- A finite number below `2^k`. -/
def Within2 (k : Nat) (x : BitVec 32) : Prop := IsFin binary32 x ∧ |binary32.toReal x| ≤ 2 ^ k

theorem Within2.of_near {k : Nat} {v : ℝ} {x : BitVec 32} (h : binary32.Near v x) (hv : |v| ≤ 2 ^ k) : Within2 (k + 1) x := by
  refine ⟨h.1, ?_⟩
  have h2 := h.2
  rw [Fmt.u32, Fmt.eta32] at h2
  have h1 : (1 : ℝ) ≤ 2 ^ k := one_le_pow₀ (by norm_num)
  have hm : max (1 / 2 ^ 24 * |v|) (1 / 2 ^ 150) ≤ (2 : ℝ) ^ k := by
    apply max_le
    · have := abs_nonneg v; norm_num at *; linarith
    · norm_num at *; linarith
  have := abs_sub_abs_le_abs_sub (binary32.toReal x) v
  rw [pow_succ]; linarith

theorem Within2.add {i j : Nat} {x y : BitVec 32} (hx : Within2 i x) (hy : Within2 j y) (h : max i j + 1 ≤ 127) :
    Within2 (max i j + 2) (binary32.add x y) := by
  have hb : |binary32.toReal x + binary32.toReal y| ≤ 2 ^ (max i j + 1) := by
    have h1 : (2 : ℝ) ^ i ≤ 2 ^ max i j := pow_le_pow_right₀ (by norm_num) (le_max_left _ _)
    have h2 : (2 : ℝ) ^ j ≤ 2 ^ max i j := pow_le_pow_right₀ (by norm_num) (le_max_right _ _)
    have := abs_add_le (binary32.toReal x) (binary32.toReal y)
    rw [pow_succ]; linarith [hx.2, hy.2]
  exact .of_near (Fmt.add_near hx.1 hy.1 (hb.trans (pow_le_pow_right₀ (by norm_num) h))).near hb

theorem Within2.sub {i j : Nat} {x y : BitVec 32} (hx : Within2 i x) (hy : Within2 j y) (h : max i j + 1 ≤ 127) :
    Within2 (max i j + 2) (binary32.sub x y) := by
  have hb : |binary32.toReal x - binary32.toReal y| ≤ 2 ^ (max i j + 1) := by
    have h1 : (2 : ℝ) ^ i ≤ 2 ^ max i j := pow_le_pow_right₀ (by norm_num) (le_max_left _ _)
    have h2 : (2 : ℝ) ^ j ≤ 2 ^ max i j := pow_le_pow_right₀ (by norm_num) (le_max_right _ _)
    have := abs_sub (binary32.toReal x) (binary32.toReal y)
    rw [pow_succ]; linarith [hx.2, hy.2]
  exact .of_near (Fmt.sub_near hx.1 hy.1 (hb.trans (pow_le_pow_right₀ (by norm_num) h))).near hb

theorem Within2.mul {i j : Nat} {x y : BitVec 32} (hx : Within2 i x) (hy : Within2 j y) (h : i + j ≤ 127) :
    Within2 (i + j + 1) (binary32.mul x y) := by
  have hb : |binary32.toReal x * binary32.toReal y| ≤ 2 ^ (i + j) := by
    rw [abs_mul, pow_add]
    exact mul_le_mul hx.2 hy.2 (abs_nonneg _) (by positivity)
  exact .of_near (Fmt.mul_near hx.1 hy.1 (hb.trans (pow_le_pow_right₀ (by norm_num) h))) hb

/-- A constant of at most 1. -/
theorem Within2.lit {x : BitVec 32} (h : binary32.code x ≤ 0x3f800000) : Within2 0 x := by
  have hc : binary32.code 0x3f800000#32 = 0x3f800000 := by decide
  refine ⟨?_, ?_⟩
  · unfold IsFin Fmt.isFinite
    rw [decide_eq_true_eq, show binary32.infCode = 255 * 2 ^ 23 by decide]
    omega
  · have h1 := toReal_one32'
    rw [binary32.toReal_eq, hc, show binary32.neg 0x3f800000#32 = false by decide] at h1
    rw [binary32.toReal_eq, abs_mul, show |(if binary32.neg x = true then -1 else 1 : ℝ)| = 1 by
      cases binary32.neg x <;> simp, one_mul, abs_of_nonneg (by positivity), pow_zero, ← h1]
    simp only [Bool.false_eq_true, if_false, one_mul]
    rw [div_le_div_iff_of_pos_right (by positivity)]
    exact_mod_cast mag_le_iff.mpr h

/-- The logarithm of every bit pattern is finite. -/
theorem vecLog_fin {V : LaneOps 32} (h : V.Ieee) (h86 : IsX86Class V) (x : BitVec 32) : IsFin binary32 (vecLog V x) := by
  obtain ⟨-, f3, f4, -, hk⟩ := frexp_range h86 x
  have hE := expField_lt x
  rw [vecLog_eq]
  have hm : Within2 0 (frexp V x).1 := ⟨f4, by rw [pow_zero]; exact f3.le⟩
  generalize (frexp V x).1 = m at *
  generalize (frexp V x).2 = e at *
  rw [h.lt, h.one, h.ofInt, h.add, h.sub]
  generalize binary32.ltb m (litF 0.707106781186547524) = c
  have hone : Within2 0 0x3f800000#32 := .lit (by decide)
  have hma : Within2 0 (m &&& maskOf c) := by
    cases c
    · rw [show m &&& maskOf false = 0#32 from by simp [maskOf]]; exact .lit (by decide)
    · rw [show m &&& maskOf true = m from by rw [BitVec.and_comm, maskOf_and]; rfl]; exact hm
  have ht := hm.add (hma.sub hone (by decide)) (by decide)
  have hf : Within2 8 (binary32.ofInt32 (e + maskOf c)) := by
    have ke : ∃ k : ℤ, (e + maskOf c).toInt = k ∧ |k| ≤ 256 := by
      cases c
      · refine ⟨_, rfl, ?_⟩
        rw [show (maskOf false : BitVec 32) = 0#32 from by decide, BitVec.add_zero, hk, abs_le]; omega
      · refine ⟨_, rfl, ?_⟩
        have e1 : (maskOf true : BitVec 32) = BitVec.ofInt 32 (-1) := by decide
        rw [e1, BitVec.toInt_add, hk, show (BitVec.ofInt 32 (-1)).toInt = -1 from by decide,
          Int.bmod_eq_of_le (by omega) (by omega), abs_le]; omega
    obtain ⟨k, k1, k2⟩ := ke
    rw [show binary32.ofInt32 (e + maskOf c) = binary32.ofInt k by unfold Fmt.ofInt32; rw [k1]]
    obtain ⟨q1, q2⟩ := ofInt_value (k := k) (by rw [abs_le] at k2; omega)
    refine ⟨q1, ?_⟩
    rw [q2]; norm_num; exact_mod_cast k2
  generalize binary32.add m _ = t at ht ⊢
  generalize binary32.ofInt32 _ = fe at hf ⊢
  have p0 := ((Within2.lit (x := litD 7.0376836292e-2) (by decide +kernel)).mul ht (by decide)).sub
    (.lit (x := litD 1.1514610310e-1) (by decide +kernel)) (by decide)
  have p1 := (p0.mul ht (by decide)).add (.lit (x := litD 1.1676998740e-1) (by decide +kernel)) (by decide)
  have p2 := (p1.mul ht (by decide)).sub (.lit (x := litD 1.2420140846e-1) (by decide +kernel)) (by decide)
  have p3 := (p2.mul ht (by decide)).add (.lit (x := litD 1.4249322787e-1) (by decide +kernel)) (by decide)
  have p4 := (p3.mul ht (by decide)).sub (.lit (x := litD 1.6668057665e-1) (by decide +kernel)) (by decide)
  have p5 := (p4.mul ht (by decide)).add (.lit (x := litD 2.0000714765e-1) (by decide +kernel)) (by decide)
  have p6 := (p5.mul ht (by decide)).sub (.lit (x := litD 2.4999993993e-1) (by decide +kernel)) (by decide)
  have p7 := (p6.mul ht (by decide)).add (.lit (x := litD 3.3333331174e-1) (by decide +kernel)) (by decide)
  have q := ((p7.mul ht (by decide)).mul ht (by decide)).mul ht (by decide)
  have r := (q.add (hf.mul (.lit (x := litD (-2.12194440e-4)) (by decide +kernel)) (by decide)) (by decide)).sub
    (((Within2.lit (x := litD 0.5) (by decide +kernel)).mul ht (by decide)).mul ht (by decide)) (by decide)
  have z := (ht.add r (by decide)).add ((Within2.lit (x := litD 0.693359375) (by decide +kernel)).mul hf (by decide)) (by decide)
  unfold logTail
  dsimp only
  rw [logPoly_eq, logHorner, h.add, h.mul, h.sub]
  exact z.1

end Nova
