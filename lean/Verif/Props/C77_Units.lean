import Verif.Lemmas.UnitFinal

/-!
# C77 the accuracy of the unit conversions in single precision

`midi2freq`, `freq2midi`, … of the builds with vector mathematics (SSE2 and AVX, with or without SSE4.1 and FMA), for every
float of a range far beyond the audible one, with all rounding errors: of the literals, of the argument, of power and
logarithm, and of the result.  `P.r2` and `P.r10` are the constants `1/log(2)` and `1/log(10)` the compiler computes; they are
assumed to be rounded correctly.
-/

namespace Nova
open FP VecMath

/-- The constants of log2 and log10 are the floats next to `1/log 2` and `1/log 10`. -/
structure Platform.GoodLogs (P : Platform 32) : Prop where
  fin2 : IsFin binary32 P.r2
  two : |binary32.toReal P.r2 - 1 / Real.log 2| ≤ 1 / 2 ^ 24 * (1 / Real.log 2)
  fin10 : IsFin binary32 P.r10
  ten : |binary32.toReal P.r10 - 1 / Real.log 10| ≤ 1 / 2 ^ 24 * (1 / Real.log 10)

theorem val2 : IsFin binary32 0x40000000#32 ∧ binary32.toReal 0x40000000#32 = 2 := by
  obtain ⟨h1, h2⟩ := val32 (x := 0x40000000#32) 2 (by decide +kernel)
  exact ⟨h1, by rw [h2]; norm_num⟩
theorem val10 : IsFin binary32 0x41200000#32 ∧ binary32.toReal 0x41200000#32 = 10 := by
  obtain ⟨h1, h2⟩ := val32 (x := 0x41200000#32) 10 (by decide +kernel)
  exact ⟨h1, by rw [h2]; norm_num⟩
theorem val12 : IsFin binary32 0x41400000#32 ∧ binary32.toReal 0x41400000#32 = 12 := by
  obtain ⟨h1, h2⟩ := val32 (x := 0x41400000#32) 12 (by decide +kernel)
  exact ⟨h1, by rw [h2]; norm_num⟩
theorem val20 : IsFin binary32 0x41a00000#32 ∧ binary32.toReal 0x41a00000#32 = 20 := by
  obtain ⟨h1, h2⟩ := val32 (x := 0x41a00000#32) 20 (by decide +kernel)
  exact ⟨h1, by rw [h2]; norm_num⟩
theorem val69 : IsFin binary32 0x428a0000#32 ∧ binary32.toReal 0x428a0000#32 = 69 := by
  obtain ⟨h1, h2⟩ := val32 (x := 0x428a0000#32) 69 (by decide +kernel)
  exact ⟨h1, by rw [h2]; norm_num⟩
theorem val475 : IsFin binary32 0x40980000#32 ∧ binary32.toReal 0x40980000#32 = 4.75 := by
  obtain ⟨h1, h2⟩ := val32 (x := 0x40980000#32) (19 / 4) (by decide +kernel)
  exact ⟨h1, by rw [h2]; norm_num⟩
theorem val440 : IsFin binary32 0x43dc0000#32 ∧ binary32.toReal 0x43dc0000#32 = 440 := by
  obtain ⟨h1, h2⟩ := val32 (x := 0x43dc0000#32) 440 (by decide +kernel)
  exact ⟨h1, by rw [h2]; norm_num⟩
theorem valTwelfth : IsFin binary32 0x3daaaaab#32 ∧ |binary32.toReal 0x3daaaaab#32 - 1 / 12| ≤ 6e-8 * |(1 / 12 : ℝ)| := by
  obtain ⟨h1, h2⟩ := val32 (x := 0x3daaaaab#32) (11184811 / 134217728) (by decide +kernel)
  refine ⟨h1, ?_⟩
  rw [h2, abs_le]; norm_num [abs_of_pos]
theorem valTwentieth : IsFin binary32 0x3d4ccccd#32 ∧ |binary32.toReal 0x3d4ccccd#32 - 1 / 20| ≤ 6e-8 * |(1 / 20 : ℝ)| := by
  obtain ⟨h1, h2⟩ := val32 (x := 0x3d4ccccd#32) (13421773 / 268435456) (by decide +kernel)
  refine ⟨h1, ?_⟩
  rw [h2, abs_le]; norm_num [abs_of_pos]
theorem valPitch : IsFin binary32 0x3b14f209#32 ∧ |binary32.toReal 0x3b14f209#32 - 1 / 440| ≤ 6e-8 * |(1 / 440 : ℝ)| := by
  obtain ⟨h1, h2⟩ := val32 (x := 0x3b14f209#32) (9761289 / 4294967296) (by decide +kernel)
  refine ⟨h1, ?_⟩
  rw [h2, abs_le]; norm_num [abs_of_pos]

theorem log_two_abs {T B : ℝ} (h : |T| ≤ B) : |T * Real.log 2| ≤ 0.6932 * B ∧ |T * Real.log 2| ≤ 0.6932 * |T| := by
  have L1 := Real.log_two_gt_d9
  have L2 := Real.log_two_lt_d9
  rw [abs_mul, abs_of_pos (a := Real.log 2) (by linarith)]
  have h1 : |T| * Real.log 2 ≤ |T| * 0.6932 := mul_le_mul_of_nonneg_left (by norm_num at *; linarith) (abs_nonneg _)
  constructor <;> linarith

/-- Multiplication is commutative unless both operands are NaN (then the payload is the first operand's). -/
theorem mul_comm_not_nan {w : ℕ} (F : Fmt w) {x y : BitVec w} (hx : F.isNaN x = false) (hy : F.isNaN y = false) :
    F.mul x y = F.mul y x := by
  unfold Fmt.mul
  have e : (F.neg x != F.neg y) = (F.neg y != F.neg x) := Bool.xor_comm _ _
  simp only [hx, hy, Bool.or_self, Bool.false_eq_true, if_false, e, Bool.or_comm (F.isInf x), Bool.or_comm (F.isZero x),
    Nat.mul_comm (mag F.mb (F.code x))]

theorem log_ten_close : 2.302585092 ≤ Real.log 10 ∧ Real.log 10 ≤ 2.302585098 := by
  have L1 := Real.log_two_gt_d9
  have L2 := Real.log_two_lt_d9
  have key : ∀ a b : ℕ, 10 ^ b ≤ 2 ^ a → (b : ℝ) * Real.log 10 ≤ a * Real.log 2 := by
    intro a b h
    rw [← Real.log_pow, ← Real.log_pow]
    refine Real.log_le_log (by positivity) ?_
    have : ((10 ^ b : ℕ) : ℝ) ≤ ((2 ^ a : ℕ) : ℝ) := Nat.cast_le.mpr h
    rwa [Nat.cast_pow, Nat.cast_pow, Nat.cast_ofNat, Nat.cast_ofNat] at this
  have key' : ∀ a b : ℕ, 2 ^ a ≤ 10 ^ b → (a : ℝ) * Real.log 2 ≤ b * Real.log 10 := by
    intro a b h
    rw [← Real.log_pow, ← Real.log_pow]
    refine Real.log_le_log (by positivity) ?_
    have : ((2 ^ a : ℕ) : ℝ) ≤ ((10 ^ b : ℕ) : ℝ) := Nat.cast_le.mpr h
    rwa [Nat.cast_pow, Nat.cast_pow, Nat.cast_ofNat, Nat.cast_ofNat] at this
  have k1 := key 70777 21306 (by decide +kernel)
  have k2 := key' 254370 76573 (by decide +kernel)
  norm_num at *
  constructor <;> linarith

theorem log_ten : 2.302 ≤ Real.log 10 ∧ Real.log 10 ≤ 2.3027 := by
  have L1 := Real.log_two_gt_d9
  have L2 := Real.log_two_lt_d9
  constructor
  · -- 10^3 ≥ 2^9.96…
    have h1 : (93 : ℝ) * Real.log 2 ≤ 28 * Real.log 10 := by
      have : Real.log (2 ^ 93) ≤ Real.log (10 ^ 28) := Real.log_le_log (by norm_num) (by norm_num)
      rw [Real.log_pow, Real.log_pow] at this
      exact_mod_cast this
    norm_num at *
    linarith
  · have h1 : 59 * Real.log 10 ≤ (196 : ℝ) * Real.log 2 := by
      have : Real.log (10 ^ 59) ≤ Real.log (2 ^ 196) := Real.log_le_log (by norm_num) (by norm_num)
      rw [Real.log_pow, Real.log_pow] at this
      exact_mod_cast this
    norm_num at *
    linarith

/-- A power of 2 of a rounded product or difference. -/
theorem two_pow_near {y R : BitVec 32} {T : ℝ} (hR : PowOk 0x40000000#32 y R)
    (hy : IsFin binary32 y) (he : |binary32.toReal y - T| ≤ 2e-7 * |T| + 1 / 2 ^ 140) (hT : |T| ≤ 115) :
    IsFin binary32 R ∧
    |binary32.toReal R - 2 ^ T| ≤ (4.1e-7 + 3.61e-7 * |T|) * 2 ^ T ∧
    |T * Real.log 2| ≤ 80 := by
  have hL := log_two_abs hT
  have hT80 : |T * Real.log 2| ≤ 80 := hL.1.trans (by norm_num)
  obtain ⟨v1, v2⟩ := val2
  have := pow_near hR (T := T) ⟨by decide, by decide⟩ (by rw [v2]; norm_num)
    (by rw [v2]; norm_num) hy he (by rw [v2]; exact hT80)
  rw [v2] at this
  refine ⟨this.1, this.2.trans (mul_le_mul_of_nonneg_right ?_ (Real.rpow_nonneg (by norm_num) _)), hT80⟩
  have h2 := hL.2
  have h3 := abs_nonneg T
  norm_num [-abs_mul] at h2 ⊢
  linarith

theorem lane_powOk (b : Build32) (hb : b.simdMath = true) (P : Platform 32) (g y : BitVec 32) :
    PowOk g y ((b.lane P).pow g y) := by
  have tp := b.templates hb P
  rw [tp.pow]
  exact vecPow_ok tp.ieee tp.x86 g y

theorem midi2ratio_of {x R : BitVec 32} (hx : IsFin binary32 x)
    (hr : |binary32.toReal x| ≤ 1300)
    (hR : PowOk 0x40000000#32 (binary32.mul x 0x3daaaaab#32) R) :
    IsFin binary32 R ∧
      |binary32.toReal R - 2 ^ (binary32.toReal x / 12)| ≤
        (4.1e-7 + 3.1e-8 * |binary32.toReal x|) * 2 ^ (binary32.toReal x / 12) := by
  obtain ⟨c1, c2⟩ := valTwelfth
  have hv : |binary32.toReal x * (1 / 12)| ≤ 115 := by
    rw [abs_mul, abs_of_pos (a := (1 / 12 : ℝ)) (by norm_num)]; linarith
  obtain ⟨f1, e1⟩ := mul_rel (a := 0) (v := binary32.toReal x) (w := 1 / 12) hx c1 (by simp) c2 le_rfl (by norm_num)
    (hv.trans (by norm_num))
  rw [mul_one_div] at e1 hv
  obtain ⟨f2, e2, -⟩ := two_pow_near hR f1 (T := binary32.toReal x / 12)
    (by have := abs_nonneg (binary32.toReal x / 12); generalize |binary32.toReal x / 12| = g at *
        norm_num at e1 ⊢; linarith) hv
  refine ⟨f2, e2.trans (mul_le_mul_of_nonneg_right ?_ (Real.rpow_nonneg (by norm_num) _))⟩
  rw [abs_div, abs_of_pos (a := (12 : ℝ)) (by norm_num)]
  have := abs_nonneg (binary32.toReal x)
  norm_num
  linarith

/-- `midi2ratio`: relative error at most 4.1e-7 + 3.1e-8 |midi| (for ±127 semitones below 5e-6). -/
theorem C77_midi2ratio (b : Build32) (hb : b.simdMath = true) (P : Platform 32) (x : BitVec 32) (hx : IsFin binary32 x)
    (hr : |binary32.toReal x| ≤ 1300) :
    ∃ r, UnOp.midi2ratio.f (b.lane P) x = .ok r ∧ IsFin binary32 r ∧
      |binary32.toReal r - 2 ^ (binary32.toReal x / 12)| ≤
        (4.1e-7 + 3.1e-8 * |binary32.toReal x|) * 2 ^ (binary32.toReal x / 12) := by
  refine ⟨_, rfl, ?_⟩
  unfold Functor.midi2ratio
  rw [lane_lit32, lane_mul32 b hb, lit2, litTwelfth]
  exact midi2ratio_of hx hr (lane_powOk b hb P _ _)

theorem midi2freq_of {x R : BitVec 32} (hx : IsFin binary32 x)
    (hr : |binary32.toReal x - 69| ≤ 1300)
    (hR : PowOk 0x40000000#32 (binary32.mul (binary32.sub x 0x428a0000#32) 0x3daaaaab#32) R) :
    IsFin binary32 (binary32.mul 0x43dc0000#32 R) ∧
      |binary32.toReal (binary32.mul 0x43dc0000#32 R) - 440 * 2 ^ ((binary32.toReal x - 69) / 12)| ≤
        (4.8e-7 + 3.1e-8 * |binary32.toReal x - 69|) * (440 * 2 ^ ((binary32.toReal x - 69) / 12)) := by
  obtain ⟨c1, c2⟩ := valTwelfth
  obtain ⟨s1, s2⟩ := sub_near32 hx val69.1 (by rw [val69.2]; exact hr.trans (by norm_num))
  rw [val69.2] at s2
  generalize binary32.toReal x - 69 = D at *
  have hv : |D * (1 / 12)| ≤ 115 := by
    rw [abs_mul, abs_of_pos (a := (1 / 12 : ℝ)) (by norm_num)]; linarith
  obtain ⟨f1, e1⟩ := mul_rel (a := 1 / 2 ^ 24) (v := D) (w := 1 / 12) s1 c1 s2 c2 (by norm_num) (by norm_num)
    (hv.trans (by norm_num))
  rw [mul_one_div] at e1 hv
  obtain ⟨f2, e2, hT⟩ := two_pow_near hR f1 (T := D / 12)
    (by have := abs_nonneg (D / 12); generalize |D / 12| = g at *
        norm_num at e1 ⊢; linarith) hv
  obtain ⟨r1, r2⟩ := rpow_range (g := 2) (by norm_num) hT
  have h0 : (0 : ℝ) < 2 ^ (D / 12) := Real.rpow_pos_of_pos (by norm_num) _
  have hD := abs_nonneg D
  have e3 : |D / 12| = |D| / 12 := by rw [abs_div, abs_of_pos (a := (12 : ℝ)) (by norm_num)]
  rw [e3] at e2
  obtain ⟨f3, e4⟩ := const_mul_rel (k := 440) (W := 2 ^ (D / 12)) (ε := 4.1e-7 + 3.61e-7 * (|D| / 12)) val440.1 val440.2
    (by norm_num) (by norm_num) f2 (by rw [abs_of_pos h0]; exact e2) (by norm_num; linarith) (by rw [abs_of_pos h0]; exact r1)
    (by rw [abs_of_pos h0]; exact r2)
  rw [abs_of_pos h0] at e4
  refine ⟨f3, e4.trans (mul_le_mul_of_nonneg_right ?_ (by positivity))⟩
  norm_num
  linarith

/-- `midi2freq`: relative error at most 4.8e-7 + 3.1e-8 |midi - 69|; A4 is exact up to 4.8e-7. -/
theorem C77_midi2freq (b : Build32) (hb : b.simdMath = true) (P : Platform 32) (x : BitVec 32) (hx : IsFin binary32 x)
    (hr : |binary32.toReal x - 69| ≤ 1300) :
    ∃ r, UnOp.midi2freq.f (b.lane P) x = .ok r ∧ IsFin binary32 r ∧
      |binary32.toReal r - 440 * 2 ^ ((binary32.toReal x - 69) / 12)| ≤
        (4.8e-7 + 3.1e-8 * |binary32.toReal x - 69|) * (440 * 2 ^ ((binary32.toReal x - 69) / 12)) := by
  refine ⟨_, rfl, ?_⟩
  unfold Functor.midi2freq
  rw [lane_lit32, lane_mul32 b hb, lane_sub32, lit2, litTwelfth, lit440, lit69]
  exact midi2freq_of hx hr (lane_powOk b hb P _ _)

theorem oct2freq_of {x R : BitVec 32} (hx : IsFin binary32 x)
    (hr : |binary32.toReal x - 4.75| ≤ 115)
    (hR : PowOk 0x40000000#32 (binary32.sub x 0x40980000#32) R) :
    IsFin binary32 (binary32.mul 0x43dc0000#32 R) ∧
      |binary32.toReal (binary32.mul 0x43dc0000#32 R) - 440 * 2 ^ (binary32.toReal x - 4.75)| ≤
        (4.8e-7 + 3.7e-7 * |binary32.toReal x - 4.75|) * (440 * 2 ^ (binary32.toReal x - 4.75)) := by
  obtain ⟨s1, s2⟩ := sub_near32 hx val475.1 (by rw [val475.2]; exact hr.trans (by norm_num))
  rw [val475.2] at s2
  generalize binary32.toReal x - 4.75 = D at *
  obtain ⟨f2, e2, hT⟩ := two_pow_near hR s1 (T := D)
    (by have := abs_nonneg D; norm_num at s2 ⊢; linarith) hr
  obtain ⟨r1, r2⟩ := rpow_range (g := 2) (by norm_num) hT
  have h0 : (0 : ℝ) < 2 ^ D := Real.rpow_pos_of_pos (by norm_num) _
  have hD := abs_nonneg D
  obtain ⟨f3, e4⟩ := const_mul_rel (k := 440) (W := 2 ^ D) (ε := 4.1e-7 + 3.61e-7 * |D|) val440.1 val440.2
    (by norm_num) (by norm_num) f2 (by rw [abs_of_pos h0]; exact e2) (by norm_num; linarith) (by rw [abs_of_pos h0]; exact r1)
    (by rw [abs_of_pos h0]; exact r2)
  rw [abs_of_pos h0] at e4
  refine ⟨f3, e4.trans (mul_le_mul_of_nonneg_right ?_ (by positivity))⟩
  norm_num
  linarith

/-- `oct2freq`. -/
theorem C77_oct2freq (b : Build32) (hb : b.simdMath = true) (P : Platform 32) (x : BitVec 32) (hx : IsFin binary32 x)
    (hr : |binary32.toReal x - 4.75| ≤ 115) :
    ∃ r, UnOp.oct2freq.f (b.lane P) x = .ok r ∧ IsFin binary32 r ∧
      |binary32.toReal r - 440 * 2 ^ (binary32.toReal x - 4.75)| ≤
        (4.8e-7 + 3.7e-7 * |binary32.toReal x - 4.75|) * (440 * 2 ^ (binary32.toReal x - 4.75)) := by
  refine ⟨_, rfl, ?_⟩
  unfold Functor.oct2freq
  rw [lane_lit32, lane_mul32 b hb, lane_sub32, lit2, lit440, lit475]
  exact oct2freq_of hx hr (lane_powOk b hb P _ _)

theorem db2amp_of {x R : BitVec 32} (hx : IsFin binary32 x)
    (hr : |binary32.toReal x| ≤ 690)
    (hR : PowOk 0x41200000#32 (binary32.mul x 0x3d4ccccd#32) R) :
    IsFin binary32 R ∧
      |binary32.toReal R - 10 ^ (binary32.toReal x / 20)| ≤
        (4.1e-7 + 6e-8 * |binary32.toReal x|) * 10 ^ (binary32.toReal x / 20) := by
  obtain ⟨c1, c2⟩ := valTwentieth
  have hv : |binary32.toReal x * (1 / 20)| ≤ 34.5 := by
    rw [abs_mul, abs_of_pos (a := (1 / 20 : ℝ)) (by norm_num)]; norm_num; linarith
  obtain ⟨f1, e1⟩ := mul_rel (a := 0) (v := binary32.toReal x) (w := 1 / 20) hx c1 (by simp) c2 le_rfl (by norm_num)
    (hv.trans (by norm_num))
  rw [mul_one_div] at e1 hv
  have hx0 := abs_nonneg (binary32.toReal x)
  have e3 : |binary32.toReal x / 20| = |binary32.toReal x| / 20 := by
    rw [abs_div, abs_of_pos (a := (20 : ℝ)) (by norm_num)]
  obtain ⟨l1, l2⟩ := log_ten
  have hL : |binary32.toReal x / 20 * Real.log 10| ≤ |binary32.toReal x| / 20 * 2.3027 := by
    rw [abs_mul, abs_of_pos (a := Real.log 10) (by norm_num at l1; linarith), e3]
    exact mul_le_mul_of_nonneg_left l2 (by positivity)
  obtain ⟨v1, v2⟩ := val10
  have := pow_near hR (T := binary32.toReal x / 20) ⟨by decide, by decide⟩
    (by rw [v2]; norm_num) (by rw [v2]) f1
    (by rw [e3] at e1 ⊢; norm_num at e1 ⊢; linarith) (by rw [v2]; exact hL.trans (by norm_num; linarith))
  rw [v2] at this
  refine ⟨this.1, this.2.trans (mul_le_mul_of_nonneg_right ?_ (Real.rpow_nonneg (by norm_num) _))⟩
  norm_num at hL ⊢
  linarith

/-- `db2amp`: relative error at most 4.1e-7 + 6e-8 |dB|. -/
theorem C77_db2amp (b : Build32) (hb : b.simdMath = true) (P : Platform 32) (x : BitVec 32) (hx : IsFin binary32 x)
    (hr : |binary32.toReal x| ≤ 690) :
    ∃ r, UnOp.db2amp.f (b.lane P) x = .ok r ∧ IsFin binary32 r ∧
      |binary32.toReal r - 10 ^ (binary32.toReal x / 20)| ≤
        (4.1e-7 + 6e-8 * |binary32.toReal x|) * 10 ^ (binary32.toReal x / 20) := by
  refine ⟨_, rfl, ?_⟩
  unfold Functor.db2amp
  rw [lane_lit32, lane_mul32 b hb, lit10, litTwentieth]
  exact db2amp_of hx hr (lane_powOk b hb P _ _)

theorem ratio2midi_of {V : LaneOps 32} (h : V.Ieee) (hV : IsX86Class V) {x l : BitVec 32} (hx : IsNormal x)
    (hp : 0 < binary32.toReal x) (f1 : IsFin binary32 l)
    (e1 : |binary32.toReal l - Real.logb 2 (binary32.toReal x)| ≤ 1 / 2 ^ 21 * |Real.logb 2 (binary32.toReal x)|) :
    IsFin binary32 (binary32.mul 0x41400000#32 l) ∧
      |binary32.toReal (binary32.mul 0x41400000#32 l) - 12 * Real.logb 2 (binary32.toReal x)| ≤
        5.5e-7 * |12 * Real.logb 2 (binary32.toReal x)| := by
  obtain ⟨ha, hu⟩ := log_away h hV hx hp
  have L1 := Real.log_two_gt_d9
  have L2 := Real.log_two_lt_d9
  have hlb : Real.logb 2 (binary32.toReal x) = Real.log (binary32.toReal x) / Real.log 2 := rfl
  rcases ha with h0 | h0
  · rw [hlb, h0, zero_div] at e1 ⊢
    rw [abs_zero, mul_zero, sub_zero] at e1
    have := mul_zero32' val12.1 f1 (abs_nonpos_iff.mp e1)
    refine ⟨this.1, ?_⟩
    rw [this.2]; simp
  · have hW : 1 / 2 ^ 26 ≤ |Real.logb 2 (binary32.toReal x)| := by
      rw [hlb, abs_div, abs_of_pos (a := Real.log 2) (by linarith), le_div_iff₀ (by linarith)]
      refine le_trans ?_ h0
      norm_num; linarith
    have hW2 : |Real.logb 2 (binary32.toReal x)| ≤ 200 := by
      rw [hlb, abs_div, abs_of_pos (a := Real.log 2) (by linarith), div_le_iff₀ (by linarith)]
      linarith
    obtain ⟨f2, e2⟩ := const_mul_rel (k := 12) (ε := 1 / 2 ^ 21) val12.1 val12.2 (by norm_num) (by norm_num) f1 e1 (by norm_num)
      (le_trans (by norm_num) hW) (hW2.trans (by norm_num))
    refine ⟨f2, e2.trans ?_⟩
    rw [abs_mul, abs_of_pos (a := (12 : ℝ)) (by norm_num)]
    refine mul_le_mul_of_nonneg_right (by norm_num) (by positivity)

/-- `ratio2midi`: relative error at most 5.5e-7 (so exactly 0 for the ratio 1). -/
theorem C77_ratio2midi (b : Build32) (hb : b.simdMath = true) (P : Platform 32) (hP : P.GoodLogs) (x : BitVec 32)
    (hx : IsNormal x) (hp : 0 < binary32.toReal x) :
    ∃ r, UnOp.ratio2midi.f (b.lane P) x = .ok r ∧ IsFin binary32 r ∧
      |binary32.toReal r - 12 * Real.logb 2 (binary32.toReal x)| ≤ 5.5e-7 * |12 * Real.logb 2 (binary32.toReal x)| := by
  refine ⟨_, rfl, ?_⟩
  unfold Functor.ratio2midi
  rw [lane_lit32, lane_mul32 b hb, lit12]
  have tp := b.templates hb P
  obtain ⟨f1, e1⟩ := C63_log2 b hb P x hx hp hP.fin2 hP.two
  exact ratio2midi_of tp.ieee tp.x86 hx hp f1 e1

theorem amp2db_of {V : LaneOps 32} (h : V.Ieee) (hV : IsX86Class V) {z l : BitVec 32} (hn : IsNormal z)
    (hpos : 0 < binary32.toReal z) (f1 : IsFin binary32 l)
    (e1 : |binary32.toReal l - Real.logb 10 (binary32.toReal z)| ≤ 1 / 2 ^ 21 * |Real.logb 10 (binary32.toReal z)|) :
    IsFin binary32 (binary32.mul l 0x41a00000#32) ∧
      |binary32.toReal (binary32.mul l 0x41a00000#32) - 20 * Real.logb 10 (binary32.toReal z)| ≤
        5.5e-7 * |20 * Real.logb 10 (binary32.toReal z)| := by
  obtain ⟨ha, hu⟩ := log_away h hV hn hpos
  obtain ⟨L1, L2⟩ := log_ten
  have hl0 : 0 < Real.log 10 := by norm_num at L1; linarith
  have hlb : Real.logb 10 (binary32.toReal z) = Real.log (binary32.toReal z) / Real.log 10 := rfl
  rw [mul_comm_not_nan binary32 (binary32.isFinite_not_nan f1) (binary32.isFinite_not_nan val20.1)]
  rcases ha with h0 | h0
  · rw [hlb, h0, zero_div] at e1 ⊢
    rw [abs_zero, mul_zero, sub_zero] at e1
    have := mul_zero32' val20.1 f1 (abs_nonpos_iff.mp e1)
    refine ⟨this.1, ?_⟩
    rw [this.2]; simp
  · have hW : 1 / 2 ^ 28 ≤ |Real.logb 10 (binary32.toReal z)| := by
      rw [hlb, abs_div, abs_of_pos hl0, le_div_iff₀ hl0]
      refine le_trans ?_ h0
      norm_num at L2 ⊢; linarith
    have hW2 : |Real.logb 10 (binary32.toReal z)| ≤ 200 := by
      rw [hlb, abs_div, abs_of_pos hl0, div_le_iff₀ hl0]
      norm_num at L1; linarith
    obtain ⟨f2, e2⟩ := const_mul_rel (k := 20) (ε := 1 / 2 ^ 21) val20.1 val20.2 (by norm_num) (by norm_num) f1 e1 (by norm_num)
      (le_trans (by norm_num) hW) (hW2.trans (by norm_num))
    refine ⟨f2, e2.trans ?_⟩
    rw [abs_mul, abs_of_pos (a := (20 : ℝ)) (by norm_num)]
    refine mul_le_mul_of_nonneg_right (by norm_num) (by positivity)

/-- `amp2db`: relative error at most 5.5e-7, for positive and negative amplitudes. -/
theorem C77_amp2db (b : Build32) (hb : b.simdMath = true) (P : Platform 32) (hP : P.GoodLogs) (x : BitVec 32)
    (hx : IsFin binary32 x) (hp : 1 / 2 ^ 126 ≤ |binary32.toReal x|) :
    ∃ r, UnOp.amp2db.f (b.lane P) x = .ok r ∧ IsFin binary32 r ∧
      |binary32.toReal r - 20 * Real.logb 10 (|binary32.toReal x|)| ≤ 5.5e-7 * |20 * Real.logb 10 (|binary32.toReal x|)| := by
  refine ⟨_, rfl, ?_⟩
  unfold Functor.amp2db
  rw [lane_lit32, lane_mul32 b hb, lit20, lane_abs32]
  have tp := b.templates hb P
  rw [← binary32.toReal_fabs] at hp ⊢
  have hf : IsFin binary32 (binary32.fabs x) := by unfold IsFin at hx ⊢; rw [binary32.isFinite_fabs]; exact hx
  have hpos : 0 < binary32.toReal (binary32.fabs x) := lt_of_lt_of_le (by positivity) hp
  generalize binary32.fabs x = z at *
  have hn : IsNormal z := isNormal_of_value hf (hp.trans (le_abs_self _))
  obtain ⟨f1, e1⟩ := C63_log10 b hb P z hn hpos hP.fin10 hP.ten
  exact amp2db_of tp.ieee tp.x86 hn hpos f1 e1

/-- The frequency 440 Hz has a bounded distance from every other. -/
theorem pitch_size {x : BitVec 32} (hx : IsFin binary32 x) (hp : 1 / 2 ^ 100 ≤ |binary32.toReal x|) :
    |Real.logb 2 (|binary32.toReal x| / 440)| ≤ 250 := by
  have hm := toReal_le_max hx
  have h0 : 0 < |binary32.toReal x| / 440 := div_pos (lt_of_lt_of_le (by positivity) hp) (by norm_num)
  have h1 : (1 / 2 ^ 110 : ℝ) ≤ |binary32.toReal x| / 440 := by
    rw [le_div_iff₀ (by norm_num)]; refine le_trans ?_ hp; norm_num
  have h2 : |binary32.toReal x| / 440 ≤ 2 ^ 128 := by
    rw [div_le_iff₀ (by norm_num)]; refine hm.trans ?_; norm_num
  rw [abs_le]
  constructor
  · rw [Real.le_logb_iff_rpow_le (by norm_num) h0]
    refine le_trans ?_ h1
    rw [show (-250 : ℝ) = ((-250 : ℤ) : ℝ) by norm_num, Real.rpow_intCast]
    norm_num
  · rw [Real.logb_le_iff_le_rpow (by norm_num) h0]
    refine h2.trans ?_
    rw [show (250 : ℝ) = ((250 : ℕ) : ℝ) by norm_num, Real.rpow_natCast]
    norm_num

/-- The logarithm in `freq2midi` and `freq2oct`, from that of the rounded product. -/
theorem pitch_log_of {x : BitVec 32} (hx : IsFin binary32 x) (hp : 1 / 2 ^ 100 ≤ |binary32.toReal x|) :
    IsNormal (binary32.fabs (binary32.mul x 0x3b14f209#32)) ∧ 0 < binary32.toReal (binary32.fabs (binary32.mul x 0x3b14f209#32)) ∧
    ∀ v : ℝ, |v - Real.logb 2 (binary32.toReal (binary32.fabs (binary32.mul x 0x3b14f209#32)))| ≤
        1 / 2 ^ 21 * |Real.logb 2 (binary32.toReal (binary32.fabs (binary32.mul x 0x3b14f209#32)))| →
      |v - Real.logb 2 (|binary32.toReal x| / 440)| ≤ 1.75e-7 + 4.77e-7 * |Real.logb 2 (|binary32.toReal x| / 440)| := by
  have L1 := Real.log_two_gt_d9
  have L2 := Real.log_two_lt_d9
  obtain ⟨hn, hz, H⟩ := log_scaled_of (w := 1 / 440) (k := 1 / Real.log 2) hx hp valPitch.1 (by norm_num) (by norm_num)
    valPitch.2 (by rw [le_div_iff₀ (by linarith)]; linarith)
  refine ⟨hn, hz, fun v hv => ?_⟩
  have e1 := H v (by rw [mul_one_div]; exact hv)
  rw [mul_one_div, mul_one_div] at e1
  refine e1.trans (add_le_add ?_ le_rfl)
  rw [mul_one_div, div_le_iff₀ (by linarith)]
  norm_num at *; linarith

/-- The logarithm in `freq2midi` and `freq2oct`. -/
theorem pitch_log (b : Build32) (hb : b.simdMath = true) (P : Platform 32) (hP : P.GoodLogs) {x : BitVec 32}
    (hx : IsFin binary32 x) (hp : 1 / 2 ^ 100 ≤ |binary32.toReal x|) :
    IsFin binary32 (Functor.absLog2 (b.lane P) (binary32.mul x 0x3b14f209#32)) ∧
    |binary32.toReal (Functor.absLog2 (b.lane P) (binary32.mul x 0x3b14f209#32)) - Real.logb 2 (|binary32.toReal x| / 440)| ≤
      1.75e-7 + 4.77e-7 * |Real.logb 2 (|binary32.toReal x| / 440)| ∧
    |Real.logb 2 (|binary32.toReal x| / 440)| ≤ 250 := by
  unfold Functor.absLog2
  rw [lane_abs32]
  obtain ⟨hn, hz, H⟩ := pitch_log_of hx hp
  obtain ⟨f1, e1⟩ := C63_log2 b hb P _ hn hz hP.fin2 hP.two
  exact ⟨f1, H _ e1, pitch_size hx hp⟩

theorem freq2oct_of {l : BitVec 32} {L : ℝ} (f1 : IsFin binary32 l) (e1 : |binary32.toReal l - L| ≤ 1.75e-7 + 4.77e-7 * |L|)
    (hB : |L| ≤ 250) :
    IsFin binary32 (binary32.add l 0x40980000#32) ∧ |binary32.toReal (binary32.add l 0x40980000#32) - (L + 4.75)| ≤ 5e-7 + 5.4e-7 * |L| := by
  have T1 : Tr l L (1.75e-7 + 4.77e-7 * |L|) |L| := ⟨f1, e1, le_rfl⟩
  have T2 : Tr 0x40980000#32 4.75 0 4.75 := ⟨val475.1, by rw [val475.2]; simp, by rw [abs_of_pos (by norm_num)]⟩
  have hL := abs_nonneg L
  have := T1.add (D := |L| + 4.75) (E := 5e-7 + 5.4e-7 * |L|) T2 le_rfl (by norm_num; linarith) (by norm_num; linarith)
  exact ⟨this.fin, this.err⟩

/-- `freq2oct`: absolute error at most 5e-7 plus 5.4e-7 per octave of distance from 440 Hz. -/
theorem C77_freq2oct (b : Build32) (hb : b.simdMath = true) (P : Platform 32) (hP : P.GoodLogs) (x : BitVec 32)
    (hx : IsFin binary32 x) (hp : 1 / 2 ^ 100 ≤ |binary32.toReal x|) :
    ∃ r, UnOp.freq2oct.f (b.lane P) x = .ok r ∧ IsFin binary32 r ∧
      |binary32.toReal r - (Real.logb 2 (|binary32.toReal x| / 440) + 4.75)| ≤
        5e-7 + 5.4e-7 * |Real.logb 2 (|binary32.toReal x| / 440)| := by
  refine ⟨_, rfl, ?_⟩
  unfold Functor.freq2oct
  rw [lane_lit32, lane_mul32 b hb, lane_add32, lit475, litPitch]
  obtain ⟨f1, e1, hB⟩ := pitch_log b hb P hP hx hp
  exact freq2oct_of f1 e1 hB

theorem freq2midi_of {l : BitVec 32} {L : ℝ} (f1 : IsFin binary32 l) (e1 : |binary32.toReal l - L| ≤ 1.75e-7 + 4.77e-7 * |L|)
    (hB : |L| ≤ 250) :
    IsFin binary32 (binary32.add (binary32.mul l 0x41400000#32) 0x428a0000#32) ∧ |binary32.toReal (binary32.add (binary32.mul l 0x41400000#32) 0x428a0000#32) - (L * 12 + 69)| ≤ 6.5e-6 + 7.3e-6 * |L| := by
  have T1 : Tr l L (1.75e-7 + 4.77e-7 * |L|) |L| := ⟨f1, e1, le_rfl⟩
  have T2 : Tr 0x41400000#32 12 0 12 := ⟨val12.1, by rw [val12.2]; simp, by rw [abs_of_pos (by norm_num)]⟩
  have T3 : Tr 0x428a0000#32 69 0 69 := ⟨val69.1, by rw [val69.2]; simp, by rw [abs_of_pos (by norm_num)]⟩
  have hL := abs_nonneg L
  have T4 := T1.mul (D := |L| * 12) (E := 2.2e-6 + 6.5e-6 * |L|) T2 le_rfl (by norm_num; linarith) (by norm_num; linarith)
  have T5 := T4.add (D := |L| * 12 + 69) (E := 6.5e-6 + 7.3e-6 * |L|) T3 le_rfl (by norm_num; linarith) (by norm_num; linarith)
  exact ⟨T5.fin, T5.err⟩

/-- `freq2midi`: absolute error at most 6.5e-6 semitones plus 7.3e-6 semitones per octave of distance from 440 Hz. -/
theorem C77_freq2midi (b : Build32) (hb : b.simdMath = true) (P : Platform 32) (hP : P.GoodLogs) (x : BitVec 32)
    (hx : IsFin binary32 x) (hp : 1 / 2 ^ 100 ≤ |binary32.toReal x|) :
    ∃ r, UnOp.freq2midi.f (b.lane P) x = .ok r ∧ IsFin binary32 r ∧
      |binary32.toReal r - (Real.logb 2 (|binary32.toReal x| / 440) * 12 + 69)| ≤
        6.5e-6 + 7.3e-6 * |Real.logb 2 (|binary32.toReal x| / 440)| := by
  refine ⟨_, rfl, ?_⟩
  unfold Functor.freq2midi
  rw [lane_lit32, lane_mul32 b hb, lane_add32, lit12, lit69, litPitch]
  obtain ⟨f1, e1, hB⟩ := pitch_log b hb P hP hx hp
  exact freq2midi_of f1 e1 hB

/-- The hypotheses are satisfiable: a build, a note, a frequency; and the floats next to `1/log 2` and `1/log 10` that a
compiler computes are good. -/
example : (Build32.avx true).simdMath = true ∧ IsFin binary32 0x42700000#32 ∧ binary32.toReal 0x42700000#32 = 60 ∧
    |(60 : ℝ) - 69| ≤ 1300 := by
  obtain ⟨h1, h2⟩ := val32 (x := 0x42700000#32) 60 (by decide +kernel)
  exact ⟨rfl, h1, by rw [h2]; norm_num, by norm_num⟩

theorem goodLogs_example (P : Platform 32) : { P with r2 := 0x3fb8aa3b#32, r10 := 0x3ede5bd9#32 : Platform 32 }.GoodLogs := by
  obtain ⟨h1, h2⟩ := val32 (x := 0x3fb8aa3b#32) (12102203 / 8388608) (by decide +kernel)
  obtain ⟨h3, h4⟩ := val32 (x := 0x3ede5bd9#32) (14572505 / 33554432) (by decide +kernel)
  have L1 := Real.log_two_gt_d9
  have L2 := Real.log_two_lt_d9
  refine ⟨h1, ?_, h3, ?_⟩
  · change |binary32.toReal 0x3fb8aa3b#32 - _| ≤ _
    rw [h2, abs_le]
    have a1 : 1 / Real.log 2 ≤ 1.442695043 := by
      rw [div_le_iff₀ (by linarith)]; norm_num at *; linarith
    have a2 : 1.442695038 ≤ 1 / Real.log 2 := by
      rw [le_div_iff₀ (by linarith)]; norm_num at *; linarith
    norm_num at a1 a2 ⊢
    constructor <;> linarith
  · change |binary32.toReal 0x3ede5bd9#32 - _| ≤ _
    rw [h4, abs_le]
    obtain ⟨l1, l2⟩ := log_ten_close
    have l0 : 0 < Real.log 10 := by norm_num at l1; linarith
    have a1 : 1 / Real.log 10 ≤ 0.4342944823 := by
      rw [div_le_iff₀ l0]; norm_num at *; linarith
    have a2 : 0.4342944807 ≤ 1 / Real.log 10 := by
      rw [le_div_iff₀ l0]; norm_num at *; linarith
    norm_num at a1 a2 ⊢
    constructor <;> linarith

end Nova
