import Verif.Lemmas.RoundTrip
import Verif.SpecRoundTrip
import Verif.Props.C76_Accuracy

/-!
# C96 converting a unit and back returns the value one started with, up to a stated error

`freq2midi` after `midi2freq`, `midi2freq` after `freq2midi` and the six other round trips of `Spec.Trip`, on every single
precision build with vector mathematics.  Two calls are made one after the other through an intermediate buffer; every element of the
final buffer is a finite float within `Trip.Near` of the element the first call read.
-/

namespace Nova
open FP VecMath Spec

theorem logTwo : 0.69314718 < Real.log 2 ∧ Real.log 2 < 0.6931472 := by
  have L1 := Real.log_two_gt_d9
  have L2 := Real.log_two_lt_d9
  exact ⟨lt_trans (by norm_num) L1, lt_trans L2 (by norm_num)⟩

theorem exp2 (k : ℝ) (x : ℝ) : (2 : ℝ) ^ (x / k) = Real.exp (Real.log 2 / k * x) := by
  rw [Real.rpow_def_of_pos (by norm_num)]; congr 1; ring

theorem exp10 (k : ℝ) (x : ℝ) : (10 : ℝ) ^ (x / k) = Real.exp (Real.log 10 / k * x) := by
  rw [Real.rpow_def_of_pos (by norm_num)]; congr 1; ring

theorem logb_scale (b k x : ℝ) : k * Real.logb b x = Real.log x / (Real.log b / k) := by
  rw [Real.logb, div_div_eq_mul_div]; ring

/-- A round trip is announced only where the first conversion is accurate. -/
theorem trip_range (t : Trip) {x : ℝ} (hr : t.Range x) : UnRange t.there x := by
  cases t with
  | midiFreq => exact (show |x - 69| ≤ 240 from hr).trans (by norm_num)
  | midiRatio => exact (show |x| ≤ 240 from hr).trans (by norm_num)
  | octFreq => exact (show |x - 4.75| ≤ 20 from hr).trans (by norm_num)
  | dbAmp => exact (show |x| ≤ 200 from hr).trans (by norm_num)
  | freqMidi => exact le_trans (by norm_num) ((show 440 / 2 ^ 20 ≤ x ∧ _ from hr).1.trans (le_abs_self x))
  | freqOct => exact le_trans (by norm_num) ((show 440 / 2 ^ 20 ≤ x ∧ _ from hr).1.trans (le_abs_self x))
  | ratioMidi => exact le_trans (by norm_num) (show 1 / 2 ^ 20 ≤ x ∧ _ from hr).1
  | ampDb => exact le_trans (by norm_num) ((show 1 / 10 ^ 10 ≤ x ∧ _ from hr).1.trans (le_abs_self x))

theorem near_midiFreq {x m z : ℝ} (hr : Trip.Range .midiFreq x) (h1 : UnNear (Trip.there .midiFreq) x m) :
    UnRange (Trip.back .midiFreq) m ∧ (UnNear (Trip.back .midiFreq) m z → Trip.Near .midiFreq x z) := by
  obtain ⟨l1, l2⟩ := logTwo
  obtain ⟨t1, t2⟩ := log_ten
  have q20 : Real.log (2 ^ 20 : ℝ) = 20 * Real.log 2 := by rw [Real.log_pow]; norm_num
  have q10 : Real.log (10 ^ 10 : ℝ) = 10 * Real.log 10 := by rw [Real.log_pow]; norm_num
  change |x - 69| ≤ 240 at hr
  change |m - 440 * 2 ^ ((x - 69) / 12)| ≤ (4.8e-7 + 3.1e-8 * |x - 69|) * (440 * 2 ^ ((x - 69) / 12)) at h1
  rw [exp2] at h1
  have hs : (4.8e-7 + 3.1e-8 * |x - 69| : ℝ) ≤ 1 / 1000 := by norm_num at *; linarith
  have hL : 0 < Real.log 2 / 12 := by linarith
  have hm := trip_up_range (Q := 2 ^ 20) hL (by norm_num) (by norm_num) h1 hs (by rw [q20]; nlinarith)
  have hm0 : 0 < m := lt_of_lt_of_le (by norm_num) hm
  refine ⟨?_, fun h2 => ?_⟩
  · change 1 / 2 ^ 100 ≤ |m|
    rw [abs_of_pos hm0]; exact le_trans (by norm_num) hm
  · change |z - (69 + 12 * Real.logb 2 (|m| / 440))| ≤ 6.5e-6 + 7.3e-6 * |Real.logb 2 (|m| / 440)| at h2
    have e : (7.3e-6 : ℝ) * |Real.logb 2 (|m| / 440)| = 7.3e-6 / 12 * |12 * Real.logb 2 (|m| / 440)| := by
      rw [abs_mul, abs_of_pos (a := (12 : ℝ)) (by norm_num)]; ring
    rw [e, logb_scale, abs_of_pos hm0] at h2
    refine (trip_up hL (by norm_num) (by norm_num) (by norm_num) (by norm_num) h1 hs h2 ?_ ?_).1
    · have : (4.8e-7 : ℝ) / (Real.log 2 / 12) ≤ 4.8e-7 / (0.69314718 / 12) :=
        div_le_div_of_nonneg_left (by norm_num) (by norm_num) (by linarith)
      norm_num at *; linarith
    · have : (3.1e-8 : ℝ) / (Real.log 2 / 12) ≤ 3.1e-8 / (0.69314718 / 12) :=
        div_le_div_of_nonneg_left (by norm_num) (by norm_num) (by linarith)
      norm_num at *; linarith

theorem near_midiRatio {x m z : ℝ} (hr : Trip.Range .midiRatio x) (h1 : UnNear (Trip.there .midiRatio) x m) :
    UnRange (Trip.back .midiRatio) m ∧ (UnNear (Trip.back .midiRatio) m z → Trip.Near .midiRatio x z) := by
  obtain ⟨l1, l2⟩ := logTwo
  obtain ⟨t1, t2⟩ := log_ten
  have q20 : Real.log (2 ^ 20 : ℝ) = 20 * Real.log 2 := by rw [Real.log_pow]; norm_num
  have q10 : Real.log (10 ^ 10 : ℝ) = 10 * Real.log 10 := by rw [Real.log_pow]; norm_num
  change |x| ≤ 240 at hr
  change |m - 2 ^ (x / 12)| ≤ (4.1e-7 + 3.1e-8 * |x|) * 2 ^ (x / 12) at h1
  rw [exp2] at h1
  have h1' : |m - 1 * Real.exp (Real.log 2 / 12 * (x - 0))| ≤
      (4.1e-7 + 3.1e-8 * |x - 0|) * (1 * Real.exp (Real.log 2 / 12 * (x - 0))) := by
    rw [sub_zero, one_mul]; exact h1
  have hs : (4.1e-7 + 3.1e-8 * |x - 0| : ℝ) ≤ 1 / 1000 := by rw [sub_zero]; norm_num at *; linarith
  have hL : 0 < Real.log 2 / 12 := by linarith
  have hm := trip_up_range (Q := 2 ^ 20) hL (by norm_num) (by norm_num) h1' hs (by rw [q20, sub_zero]; nlinarith)
  refine ⟨?_, fun h2 => ?_⟩
  · change 1 / 2 ^ 126 ≤ m
    exact le_trans (by norm_num) hm
  · change |z - 12 * Real.logb 2 m| ≤ 5.5e-7 * |12 * Real.logb 2 m| at h2
    rw [logb_scale] at h2
    have h2' : |z - (0 + Real.log (m / 1) / (Real.log 2 / 12))| ≤ 0 + 5.5e-7 * |Real.log (m / 1) / (Real.log 2 / 12)| := by
      rw [div_one, zero_add, zero_add]; exact h2
    have g := (trip_up (A := 7.2e-6) (A' := 1.1e-6) hL (by norm_num) (by norm_num) (by norm_num) (by norm_num) h1' hs h2' ?_ ?_).1
    · rw [sub_zero] at g; exact g
    · have : (4.1e-7 : ℝ) / (Real.log 2 / 12) ≤ 4.1e-7 / (0.69314718 / 12) :=
        div_le_div_of_nonneg_left (by norm_num) (by norm_num) (by linarith)
      norm_num at *; linarith
    · have : (3.1e-8 : ℝ) / (Real.log 2 / 12) ≤ 3.1e-8 / (0.69314718 / 12) :=
        div_le_div_of_nonneg_left (by norm_num) (by norm_num) (by linarith)
      norm_num at *; linarith

theorem near_octFreq {x m z : ℝ} (hr : Trip.Range .octFreq x) (h1 : UnNear (Trip.there .octFreq) x m) :
    UnRange (Trip.back .octFreq) m ∧ (UnNear (Trip.back .octFreq) m z → Trip.Near .octFreq x z) := by
  obtain ⟨l1, l2⟩ := logTwo
  obtain ⟨t1, t2⟩ := log_ten
  have q20 : Real.log (2 ^ 20 : ℝ) = 20 * Real.log 2 := by rw [Real.log_pow]; norm_num
  have q10 : Real.log (10 ^ 10 : ℝ) = 10 * Real.log 10 := by rw [Real.log_pow]; norm_num
  change |x - 4.75| ≤ 20 at hr
  change |m - 440 * 2 ^ (x - 4.75)| ≤ (4.8e-7 + 3.7e-7 * |x - 4.75|) * (440 * 2 ^ (x - 4.75)) at h1
  rw [← div_one (x - 4.75 : ℝ), exp2, div_one (x - 4.75 : ℝ)] at h1
  have hs : (4.8e-7 + 3.7e-7 * |x - 4.75| : ℝ) ≤ 1 / 1000 := by norm_num at *; linarith
  have hL : 0 < Real.log 2 / 1 := by linarith
  have hm := trip_up_range (Q := 2 ^ 20) hL (by norm_num) (by norm_num) h1 hs (by rw [q20]; nlinarith)
  have hm0 : 0 < m := lt_of_lt_of_le (by norm_num) hm
  refine ⟨?_, fun h2 => ?_⟩
  · change 1 / 2 ^ 100 ≤ |m|
    rw [abs_of_pos hm0]; exact le_trans (by norm_num) hm
  · change |z - (4.75 + Real.logb 2 (|m| / 440))| ≤ 5e-7 + 5.4e-7 * |Real.logb 2 (|m| / 440)| at h2
    rw [← one_mul (Real.logb 2 _), logb_scale, abs_of_pos hm0] at h2
    refine (trip_up hL (by norm_num) (by norm_num) (by norm_num) (by norm_num) h1 hs h2 ?_ ?_).1
    · have : (4.8e-7 : ℝ) / (Real.log 2 / 1) ≤ 4.8e-7 / (0.69314718 / 1) :=
        div_le_div_of_nonneg_left (by norm_num) (by norm_num) (by linarith)
      norm_num at *; linarith
    · have : (3.7e-7 : ℝ) / (Real.log 2 / 1) ≤ 3.7e-7 / (0.69314718 / 1) :=
        div_le_div_of_nonneg_left (by norm_num) (by norm_num) (by linarith)
      norm_num at *; linarith

theorem near_dbAmp {x m z : ℝ} (hr : Trip.Range .dbAmp x) (h1 : UnNear (Trip.there .dbAmp) x m) :
    UnRange (Trip.back .dbAmp) m ∧ (UnNear (Trip.back .dbAmp) m z → Trip.Near .dbAmp x z) := by
  obtain ⟨l1, l2⟩ := logTwo
  obtain ⟨t1, t2⟩ := log_ten
  have q20 : Real.log (2 ^ 20 : ℝ) = 20 * Real.log 2 := by rw [Real.log_pow]; norm_num
  have q10 : Real.log (10 ^ 10 : ℝ) = 10 * Real.log 10 := by rw [Real.log_pow]; norm_num
  change |x| ≤ 200 at hr
  change |m - 10 ^ (x / 20)| ≤ (4.1e-7 + 6e-8 * |x|) * 10 ^ (x / 20) at h1
  rw [exp10] at h1
  have h1' : |m - 1 * Real.exp (Real.log 10 / 20 * (x - 0))| ≤
      (4.1e-7 + 6e-8 * |x - 0|) * (1 * Real.exp (Real.log 10 / 20 * (x - 0))) := by
    rw [sub_zero, one_mul]; exact h1
  have hs : (4.1e-7 + 6e-8 * |x - 0| : ℝ) ≤ 1 / 1000 := by rw [sub_zero]; norm_num at *; linarith
  have hL : 0 < Real.log 10 / 20 := by linarith
  have hm := trip_up_range (Q := 10 ^ 10) hL (by norm_num) (by norm_num) h1' hs (by rw [q10, sub_zero]; nlinarith)
  have hm0 : 0 < m := lt_of_lt_of_le (by norm_num) hm
  refine ⟨?_, fun h2 => ?_⟩
  · change 1 / 2 ^ 126 ≤ |m|
    rw [abs_of_pos hm0]; exact le_trans (by norm_num) hm
  · change |z - 20 * Real.logb 10 (|m|)| ≤ 5.5e-7 * |20 * Real.logb 10 (|m|)| at h2
    rw [logb_scale, abs_of_pos hm0] at h2
    have h2' : |z - (0 + Real.log (m / 1) / (Real.log 10 / 20))| ≤ 0 + 5.5e-7 * |Real.log (m / 1) / (Real.log 10 / 20)| := by
      rw [div_one, zero_add, zero_add]; exact h2
    have g := (trip_up (A := 3.6e-6) (A' := 1.1e-6) hL (by norm_num) (by norm_num) (by norm_num) (by norm_num) h1' hs h2' ?_ ?_).1
    · rw [sub_zero] at g; exact g
    · have : (4.1e-7 : ℝ) / (Real.log 10 / 20) ≤ 4.1e-7 / (2.302 / 20) :=
        div_le_div_of_nonneg_left (by norm_num) (by norm_num) (by linarith)
      norm_num at *; linarith
    · have : (6e-8 : ℝ) / (Real.log 10 / 20) ≤ 6e-8 / (2.302 / 20) :=
        div_le_div_of_nonneg_left (by norm_num) (by norm_num) (by linarith)
      norm_num at *; linarith

theorem near_freqMidi {x m z : ℝ} (hr : Trip.Range .freqMidi x) (h1 : UnNear (Trip.there .freqMidi) x m) :
    UnRange (Trip.back .freqMidi) m ∧ (UnNear (Trip.back .freqMidi) m z → Trip.Near .freqMidi x z) := by
  obtain ⟨l1, l2⟩ := logTwo
  obtain ⟨t1, t2⟩ := log_ten
  have q20 : Real.log (2 ^ 20 : ℝ) = 20 * Real.log 2 := by rw [Real.log_pow]; norm_num
  have q10 : Real.log (10 ^ 10 : ℝ) = 10 * Real.log 10 := by rw [Real.log_pow]; norm_num
  change 440 / 2 ^ 20 ≤ x ∧ x ≤ 440 * 2 ^ 20 at hr
  have hL : 0 < Real.log 2 / 12 := by linarith
  obtain ⟨hx, hd⟩ := trip_down_range (D := 240) hL (by norm_num) (by norm_num) hr.1 hr.2 (by rw [q20]; linarith)
  change |m - (69 + 12 * Real.logb 2 (|x| / 440))| ≤ 6.5e-6 + 7.3e-6 * |Real.logb 2 (|x| / 440)| at h1
  have e : |Real.logb 2 (x / 440)| = 1 / 12 * |Real.log (x / 440) / (Real.log 2 / 12)| := by
    rw [← logb_scale, abs_mul, abs_of_pos (a := (12 : ℝ)) (by norm_num)]; ring
  rw [abs_of_pos hx, logb_scale, e, ← mul_assoc] at h1
  refine ⟨?_, fun h2 => ?_⟩
  · change |m - 69| ≤ 1300
    generalize hg : Real.log (x / 440) / (Real.log 2 / 12) = g at *
    have : m - 69 = (m - (69 + g)) + g := by ring
    rw [this]
    refine (abs_add_le _ _).trans ?_
    norm_num at *; linarith
  · change |z - 440 * 2 ^ ((m - 69) / 12)| ≤ (4.8e-7 + 3.1e-8 * |m - 69|) * (440 * 2 ^ ((m - 69) / 12)) at h2
    rw [exp2] at h2
    change |z - x| ≤ (9e-7 + 8e-7 * |Real.logb 2 (x / 440)|) * x
    rw [e, ← mul_assoc]
    refine trip_down hL (by norm_num) hx (by norm_num) (by norm_num) (by norm_num) (by norm_num) h1 h2 ?_ ?_ ?_
    · generalize |Real.log (x / 440) / (Real.log 2 / 12)| = g at *
      have : 6.5e-6 + 7.3e-6 * (1 / 12) * g ≤ (1 / 5000 : ℝ) := by norm_num at *; linarith
      nlinarith
    · norm_num at *; linarith
    · norm_num at *; linarith

theorem near_ratioMidi {x m z : ℝ} (hr : Trip.Range .ratioMidi x) (h1 : UnNear (Trip.there .ratioMidi) x m) :
    UnRange (Trip.back .ratioMidi) m ∧ (UnNear (Trip.back .ratioMidi) m z → Trip.Near .ratioMidi x z) := by
  obtain ⟨l1, l2⟩ := logTwo
  obtain ⟨t1, t2⟩ := log_ten
  have q20 : Real.log (2 ^ 20 : ℝ) = 20 * Real.log 2 := by rw [Real.log_pow]; norm_num
  have q10 : Real.log (10 ^ 10 : ℝ) = 10 * Real.log 10 := by rw [Real.log_pow]; norm_num
  change 1 / 2 ^ 20 ≤ x ∧ x ≤ 2 ^ 20 at hr
  have hL : 0 < Real.log 2 / 12 := by linarith
  obtain ⟨hx, hd⟩ := trip_down_range (D := 240) (K := 1) hL (by norm_num) (by norm_num) hr.1 (by rw [one_mul]; exact hr.2)
    (by rw [q20]; linarith)
  change |m - 12 * Real.logb 2 x| ≤ 5.5e-7 * |12 * Real.logb 2 x| at h1
  have e : |Real.logb 2 x| = 1 / 12 * |Real.log (x / 1) / (Real.log 2 / 12)| := by
    rw [div_one, ← logb_scale, abs_mul, abs_of_pos (a := (12 : ℝ)) (by norm_num)]; ring
  rw [logb_scale] at h1
  have h1' : |m - (0 + Real.log (x / 1) / (Real.log 2 / 12))| ≤ 0 + 5.5e-7 * |Real.log (x / 1) / (Real.log 2 / 12)| := by
    rw [div_one, zero_add, zero_add]; exact h1
  refine ⟨?_, fun h2 => ?_⟩
  · change |m| ≤ 1300
    generalize hg : Real.log (x / 1) / (Real.log 2 / 12) = g at *
    have : m = (m - (0 + g)) + g := by ring
    rw [this]
    refine (abs_add_le _ _).trans ?_
    norm_num at *; linarith
  · change |z - 2 ^ (m / 12)| ≤ (4.1e-7 + 3.1e-8 * |m|) * 2 ^ (m / 12) at h2
    rw [exp2] at h2
    have h2' : |z - 1 * Real.exp (Real.log 2 / 12 * (m - 0))| ≤
        (4.1e-7 + 3.1e-8 * |m - 0|) * (1 * Real.exp (Real.log 2 / 12 * (m - 0))) := by
      rw [sub_zero, one_mul]; exact h2
    change |z - x| ≤ (4.2e-7 + 7.6e-7 * |Real.logb 2 x|) * x
    rw [e, ← mul_assoc]
    refine trip_down hL (by norm_num) hx (by norm_num) (by norm_num) (by norm_num) (by norm_num) h1' h2' ?_ ?_ ?_
    · generalize |Real.log (x / 1) / (Real.log 2 / 12)| = g at *
      have : 0 + 5.5e-7 * g ≤ (1 / 5000 : ℝ) := by norm_num at *; linarith
      nlinarith
    · norm_num at *
    · norm_num at *; linarith

theorem near_freqOct {x m z : ℝ} (hr : Trip.Range .freqOct x) (h1 : UnNear (Trip.there .freqOct) x m) :
    UnRange (Trip.back .freqOct) m ∧ (UnNear (Trip.back .freqOct) m z → Trip.Near .freqOct x z) := by
  obtain ⟨l1, l2⟩ := logTwo
  obtain ⟨t1, t2⟩ := log_ten
  have q20 : Real.log (2 ^ 20 : ℝ) = 20 * Real.log 2 := by rw [Real.log_pow]; norm_num
  have q10 : Real.log (10 ^ 10 : ℝ) = 10 * Real.log 10 := by rw [Real.log_pow]; norm_num
  change 440 / 2 ^ 20 ≤ x ∧ x ≤ 440 * 2 ^ 20 at hr
  have hL : 0 < Real.log 2 / 1 := by linarith
  obtain ⟨hx, hd⟩ := trip_down_range (D := 20) hL (by norm_num) (by norm_num) hr.1 hr.2 (by rw [q20]; linarith)
  change |m - (4.75 + Real.logb 2 (|x| / 440))| ≤ 5e-7 + 5.4e-7 * |Real.logb 2 (|x| / 440)| at h1
  rw [← one_mul (Real.logb 2 _), logb_scale, abs_of_pos hx] at h1
  refine ⟨?_, fun h2 => ?_⟩
  · change |m - 4.75| ≤ 115
    generalize hg : Real.log (x / 440) / (Real.log 2 / 1) = g at *
    have : m - 4.75 = (m - (4.75 + g)) + g := by ring
    rw [this]
    refine (abs_add_le _ _).trans ?_
    norm_num at *; linarith
  · change |z - 440 * 2 ^ (m - 4.75)| ≤ (4.8e-7 + 3.7e-7 * |m - 4.75|) * (440 * 2 ^ (m - 4.75)) at h2
    rw [← div_one (m - 4.75 : ℝ), exp2, div_one (m - 4.75 : ℝ)] at h2
    change |z - x| ≤ (8.4e-7 + 7.5e-7 * |Real.logb 2 (x / 440)|) * x
    rw [← one_mul (Real.logb 2 _), logb_scale]
    refine trip_down hL (by norm_num) hx (by norm_num) (by norm_num) (by norm_num) (by norm_num) h1 h2 ?_ ?_ ?_
    · generalize |Real.log (x / 440) / (Real.log 2 / 1)| = g at *
      have : 5e-7 + 5.4e-7 * g ≤ (1 / 50000 : ℝ) := by norm_num at *; linarith
      nlinarith
    · norm_num at *; linarith
    · norm_num at *; linarith

theorem near_ampDb {x m z : ℝ} (hr : Trip.Range .ampDb x) (h1 : UnNear (Trip.there .ampDb) x m) :
    UnRange (Trip.back .ampDb) m ∧ (UnNear (Trip.back .ampDb) m z → Trip.Near .ampDb x z) := by
  obtain ⟨l1, l2⟩ := logTwo
  obtain ⟨t1, t2⟩ := log_ten
  have q20 : Real.log (2 ^ 20 : ℝ) = 20 * Real.log 2 := by rw [Real.log_pow]; norm_num
  have q10 : Real.log (10 ^ 10 : ℝ) = 10 * Real.log 10 := by rw [Real.log_pow]; norm_num
  change 1 / 10 ^ 10 ≤ x ∧ x ≤ 10 ^ 10 at hr
  have hL : 0 < Real.log 10 / 20 := by linarith
  obtain ⟨hx, hd⟩ := trip_down_range (D := 200) (K := 1) hL (by norm_num) (by norm_num) hr.1 (by rw [one_mul]; exact hr.2)
    (by rw [q10]; linarith)
  change |m - 20 * Real.logb 10 (|x|)| ≤ 5.5e-7 * |20 * Real.logb 10 (|x|)| at h1
  rw [logb_scale, abs_of_pos hx] at h1
  have h1' : |m - (0 + Real.log (x / 1) / (Real.log 10 / 20))| ≤ 0 + 5.5e-7 * |Real.log (x / 1) / (Real.log 10 / 20)| := by
    rw [div_one, zero_add, zero_add]; exact h1
  refine ⟨?_, fun h2 => ?_⟩
  · change |m| ≤ 690
    generalize hg : Real.log (x / 1) / (Real.log 10 / 20) = g at *
    have : m = (m - (0 + g)) + g := by ring
    rw [this]
    refine (abs_add_le _ _).trans ?_
    norm_num at *; linarith
  · change |z - 10 ^ (m / 20)| ≤ (4.1e-7 + 6e-8 * |m|) * 10 ^ (m / 20) at h2
    rw [exp10] at h2
    have h2' : |z - 1 * Real.exp (Real.log 10 / 20 * (m - 0))| ≤
        (4.1e-7 + 6e-8 * |m - 0|) * (1 * Real.exp (Real.log 10 / 20 * (m - 0))) := by
      rw [sub_zero, one_mul]; exact h2
    change |z - x| ≤ (4.2e-7 + 1.25e-7 * |20 * Real.logb 10 x|) * x
    rw [logb_scale, ← div_one x]
    have g := trip_down (A := 4.2e-7) (A' := 1.25e-7) hL (by norm_num) hx (by norm_num) (by norm_num) (by norm_num) (by norm_num) h1' h2' ?_ ?_ ?_
    · rw [div_one] at g ⊢; exact g
    · generalize |Real.log (x / 1) / (Real.log 10 / 20)| = g at *
      have : 0 + 5.5e-7 * g ≤ (1 / 5000 : ℝ) := by norm_num at *; linarith
      nlinarith
    · norm_num at *
    · norm_num at *; linarith

/-- The errors of two conversions in a row. -/
theorem trip_near (t : Trip) {x m z : ℝ} (hr : t.Range x) (h1 : UnNear t.there x m) :
    UnRange t.back m ∧ (UnNear t.back m z → t.Near x z) := by
  cases t with
  | midiFreq => exact near_midiFreq hr h1
  | midiRatio => exact near_midiRatio hr h1
  | octFreq => exact near_octFreq hr h1
  | dbAmp => exact near_dbAmp hr h1
  | freqMidi => exact near_freqMidi hr h1
  | ratioMidi => exact near_ratioMidi hr h1
  | freqOct => exact near_freqOct hr h1
  | ampDb => exact near_ampDb hr h1

/-- One element. -/
theorem C96_roundtrip (b : Build32) (hb : b.simdMath = true) (P : Platform 32) (hP : P.GoodLogs) (hrcp : P.GoodRcp)
    (t : Trip) (x : BitVec 32) (hx : IsFin binary32 x) (hr : t.Range (binary32.toReal x)) :
    ∃ u z, t.there.f (b.lane P) x = .ok u ∧ t.back.f (b.lane P) u = .ok z ∧ IsFin binary32 z ∧
      t.Near (binary32.toReal x) (binary32.toReal z) := by
  obtain ⟨u, h1, h2, h3⟩ := C76_unary b hb P hP hrcp t.there x hx (trip_range t hr)
  obtain ⟨z, h4, h5, h6⟩ := C76_unary b hb P hP hrcp t.back u h2 (trip_near t (z := 0) hr h3).1
  exact ⟨u, z, h1, h4, h5, (trip_near t hr h3).2 h6⟩

/-- Two calls: `there_vec_simd(mid, in, n); back_vec_simd(out, mid, n);`.  The three buffers may coincide. -/
theorem C96_roundtrip_simd (b : Build32) (hb : b.simdMath = true) (P : Platform 32) (hP : P.GoodLogs) (hrcp : P.GoodRcp)
    (t : Trip) {m : Mem (BitVec 32)} {out mid inp : Nat} {n : BitVec 32} {x : Nat → BitVec 32} (hn : 0 < n.toNat)
    (hmul : b.target.perLine ∣ n.toNat) (hoal : b.target.align ∣ out) (hmal : b.target.align ∣ mid) (hial : b.target.align ∣ inp)
    (hout : Allocated m out n.toNat) (hmid : Allocated m mid n.toNat) (hin : Holds m inp n.toNat x)
    (hs : SafePlacement mid inp n.toNat) (hs' : SafePlacement out mid n.toNat)
    (hx : ∀ i, i < n.toNat → IsFin binary32 (x i) ∧ t.Range (binary32.toReal (x i))) :
    ∃ u z : Nat → BitVec 32,
      (do t.there.vecSimd (b.vec P) mid inp n; t.back.vecSimd (b.vec P) out mid n) m =
        .ok ((), overwrite (overwrite m mid n.toNat u) out n.toNat z) ∧
      ∀ i, i < n.toNat → IsFin binary32 (z i) ∧ t.Near (binary32.toReal (x i)) (binary32.toReal (z i)) := by
  obtain ⟨u, h1, h2⟩ := C76_unary_simd b hb P hP hrcp t.there hn hmul hmal hial hmid hin hs
    fun i h => ⟨(hx i h).1, trip_range t (hx i h).2⟩
  obtain ⟨z, h3, h4⟩ := C76_unary_simd b hb P hP hrcp t.back (m := overwrite m mid n.toNat u) (x := u) hn hmul hoal hmal
    (fun i h => overwrite_alloc (hout i h)) (fun i h => overwrite_inside h) hs' fun i h => ⟨(h2 i h).1, (trip_near t (z := 0) (hx i h).2 (h2 i h).2).1⟩
  refine ⟨u, z, ?_, fun i h => ⟨(h4 i h).1, (trip_near t (hx i h).2 (h2 i h).2).2 (h4 i h).2⟩⟩
  rw [Exec.bind_ok h1]
  exact h3

/-- 440 Hz, as sixteen floats in one buffer, converted in place to a note number and back on SSE2. -/
example (P : Platform 32) (hP : P.GoodLogs) (hrcp : P.GoodRcp) :
    ∃ u z : Nat → BitVec 32,
      (do UnOp.freq2midi.vecSimd ((Build32.sse false ⟨true, false, false⟩).vec P) 0 0 16#32
          UnOp.midi2freq.vecSimd ((Build32.sse false ⟨true, false, false⟩).vec P) 0 0 16#32)
        (fun i => if i < 16 then some 0x43dc0000#32 else none) =
        .ok ((), overwrite (overwrite (fun i => if i < 16 then some 0x43dc0000#32 else none) 0 16 u) 0 16 z) ∧
      ∀ i, i < 16 → IsFin binary32 (z i) ∧ Trip.Near .freqMidi (binary32.toReal 0x43dc0000#32) (binary32.toReal (z i)) := by
  refine C96_roundtrip_simd (.sse false ⟨true, false, false⟩) rfl P hP hrcp .freqMidi (n := 16#32) (x := fun _ => 0x43dc0000#32)
    (by decide) (by decide) (by decide) (by decide) (by decide) (by unfold Allocated; decide) (by unfold Allocated; decide)
    (by unfold Holds; decide) (.inl le_rfl) (.inl le_rfl) fun i _ => ⟨val440.1, ?_⟩
  change 440 / 2 ^ 20 ≤ binary32.toReal 0x43dc0000#32 ∧ binary32.toReal 0x43dc0000#32 ≤ 440 * 2 ^ 20
  rw [val440.2]; norm_num

end Nova
