import Verif.Lemmas.NumberLanes
import Verif.Lemmas.TrigFinal
import Verif.Lemmas.OrderLanes
import Verif.Lemmas.LogFinal

/-!
# Where the own sine, cosine, tangent and power return numbers

Large arguments are not reduced to an octant, so that the polynomials overflow; their results are infinities, and no
infinity is multiplied by a zero or subtracted from another.
-/

namespace Nova
open FP VecMath

section
variable {w : Nat} {F : Fmt w}

/-- The rounding of a value within a finite number is within it, too. -/
theorem bound_of_rnd {v : ℝ} {r c : BitVec w} (h : F.IsRnd v r) (hc : IsFin F c) (hv : |v| ≤ F.toReal c) :
    IsFin F r ∧ |F.toReal r| ≤ F.toReal c := by
  have f := fin_of_rnd h hc hv
  refine ⟨f, ?_⟩
  have hn := num_of_fin (F := F) hc
  rw [abs_le] at hv ⊢
  have u := h.ereal.mono (Fmt.IsRndE.self hn) (by rw [F.toEReal_of_finite hc]; exact_mod_cast hv.2)
  have hcn : IsFin F (F.negate c) := by unfold IsFin; rw [F.isFinite_negate]; exact hc
  have l := (Fmt.IsRndE.self (num_negate hn)).mono h.ereal
    (by rw [F.toEReal_of_finite hcn, F.toReal_negate]; exact_mod_cast hv.1)
  rw [F.toEReal_of_finite hc, F.toEReal_of_finite f, EReal.coe_le_coe_iff] at u
  rw [F.toEReal_of_finite hcn, F.toEReal_of_finite f, EReal.coe_le_coe_iff, F.toReal_negate] at l
  exact ⟨l, u⟩

/-- A number above zero, possibly infinite. -/
def Positive (F : Fmt w) (x : BitVec w) : Prop := Num F x ∧ 0 < F.toEReal x

theorem Positive.code {x : BitVec w} (h : Positive F x) : F.code x ≠ 0 := fun hc => by
  rcases Fmt.num_cases h.1 with ⟨i, -⟩ | ⟨i, -⟩ | ⟨f, -⟩
  · exact code_inf i hc
  · exact code_inf i hc
  · have := h.2
    rw [F.toEReal_of_finite f, F.toReal_eq, hc, mag_zero] at this
    simp at this

theorem Positive.step {c x p : BitVec w} (hc : IsFin F c) (h0 : Positive F c) (hx : Positive F x) (hp : Positive F p) :
    Positive F (F.add c (F.mul x p)) := by
  have hm : Num F (F.mul x p) := mul_ok hx.1 hp.1 (.inr ⟨hx.code, hp.code⟩)
  have hm0 : 0 ≤ F.toEReal (F.mul x p) := by
    have := (Fmt.IsRndE.self F.isNaN_posZero).mono (Fmt.mul_rndE hm) (by
      rw [F.toEReal_posZero]; exact mul_nonneg hx.2.le hp.2.le)
    rwa [F.toEReal_posZero] at this
  have ha : Num F (F.add c (F.mul x p)) := num_add h0.1 hm (.inl hc)
  refine ⟨ha, lt_of_lt_of_le h0.2 ?_⟩
  exact (Fmt.IsRndE.self h0.1).mono (Fmt.add_rndE ha) (le_add_of_nonneg_right hm0)

end

/-- Finite and at most `c`. -/
abbrev Within (c x : BitVec 32) : Prop := IsFin binary32 x ∧ |binary32.toReal x| ≤ binary32.toReal c

theorem within_sub {a b c x y : BitVec 32} (hc : IsFin binary32 c) (hx : Within a x) (hy : Within b y)
    (h : binary32.toReal a + binary32.toReal b ≤ binary32.toReal c) : Within c (binary32.sub x y) := by
  have := num_of_fin (F := binary32) hx.1
  have r : binary32.IsRnd (binary32.toReal x - binary32.toReal y) (binary32.sub x y) := by
    rw [binary32.sub_num (binary32.isFinite_not_nan hx.1) (binary32.isFinite_not_nan hy.1), sub_eq_add_neg,
      ← binary32.toReal_negate]
    exact Fmt.add_rounds hx.1 (by rw [binary32.isFinite_negate]; exact hy.1)
  exact bound_of_rnd r hc ((abs_sub _ _).trans (by linarith [hx.2, hy.2]))

theorem within_add {a b c x y : BitVec 32} (hc : IsFin binary32 c) (hx : Within a x) (hy : Within b y)
    (h : binary32.toReal a + binary32.toReal b ≤ binary32.toReal c) : Within c (binary32.add x y) :=
  bound_of_rnd (Fmt.add_rounds hx.1 hy.1) hc ((abs_add_le _ _).trans (by linarith [hx.2, hy.2]))

theorem within_mul {a b c x y : BitVec 32} (hc : IsFin binary32 c) (hx : Within a x) (hy : Within b y)
    (h : binary32.toReal a * binary32.toReal b ≤ binary32.toReal c) : Within c (binary32.mul x y) :=
  bound_of_rnd (Fmt.mul_rounds hx.1 hy.1) hc (by
    rw [abs_mul]
    exact (mul_le_mul hx.2 hy.2 (abs_nonneg _) ((abs_nonneg _).trans hx.2)).trans h)

/-! ## Values of constants -/

theorem c31 : IsFin binary32 0x4f000000#32 ∧ binary32.toReal 0x4f000000#32 = 2 ^ 31 := by
  have := val32 (x := 0x4f000000#32) (2 ^ 31) (by decide +kernel)
  exact ⟨this.1, this.2.trans (by norm_num)⟩
theorem c1 : IsFin binary32 0x3f800000#32 ∧ binary32.toReal 0x3f800000#32 = 1 := by
  have := val32 (x := 0x3f800000#32) 1 (by decide +kernel)
  exact ⟨this.1, this.2.trans (by norm_num)⟩
theorem c2 : IsFin binary32 0x40000000#32 ∧ binary32.toReal 0x40000000#32 = 2 := by
  have := val32 (x := 0x40000000#32) 2 (by decide +kernel)
  exact ⟨this.1, this.2.trans (by norm_num)⟩
theorem c126 : IsFin binary32 0x7e800000#32 ∧ binary32.toReal 0x7e800000#32 = 2 ^ 126 := by
  have := val32 (x := 0x7e800000#32) (2 ^ 126) (by decide +kernel)
  exact ⟨this.1, this.2.trans (by norm_num)⟩
theorem c127 : IsFin binary32 0x7f000000#32 ∧ binary32.toReal 0x7f000000#32 = 2 ^ 127 := by
  have := val32 (x := 0x7f000000#32) (2 ^ 127) (by decide +kernel)
  exact ⟨this.1, this.2.trans (by norm_num)⟩
theorem c63 : IsFin binary32 0x5f000000#32 ∧ binary32.toReal 0x5f000000#32 = 2 ^ 63 := by
  have := val32 (x := 0x5f000000#32) (2 ^ 63) (by decide +kernel)
  exact ⟨this.1, this.2.trans (by norm_num)⟩

/-- 1.25, 1.5 and 1.75 times `2 ^ 62`. -/
theorem quarters62 : (IsFin binary32 0x5ea00000#32 ∧ binary32.toReal 0x5ea00000#32 = 5 * 2 ^ 60) ∧
    (IsFin binary32 0x5ec00000#32 ∧ binary32.toReal 0x5ec00000#32 = 6 * 2 ^ 60) := by
  have a := val32 (x := 0x5ea00000#32) (5 * 2 ^ 60) (by decide +kernel)
  have b := val32 (x := 0x5ec00000#32) (6 * 2 ^ 60) (by decide +kernel)
  exact ⟨⟨a.1, a.2.trans (by norm_num)⟩, ⟨b.1, b.2.trans (by norm_num)⟩⟩

/-- A constant between -1 and 1. -/
def Small (c : BitVec 32) : Prop := binary32.isFinite c = true ∧ binary32.leb (binary32.fabs c) 0x3f800000#32 = true

instance (c : BitVec 32) : Decidable (Small c) := inferInstanceAs (Decidable (_ ∧ _))

theorem Small.within {c : BitVec 32} (h : Small c) : Within 0x3f800000#32 c := by
  refine ⟨h.1, ?_⟩
  have f : IsFin binary32 (binary32.fabs c) := by unfold IsFin; rw [binary32.isFinite_fabs]; exact h.1
  have := (binary32.leb_iff_value.mp h.2).2.2
  rw [binary32.toEReal_of_finite f, binary32.toEReal_of_finite c1.1, EReal.coe_le_coe_iff, binary32.toReal_fabs] at this
  exact this

theorem positive_lit {c : BitVec 32} (h : binary32.isFinite c = true ∧ binary32.ltb 0#32 c = true) : Positive binary32 c := by
  refine ⟨num_of_fin h.1, ?_⟩
  have := (binary32.ltb_iff_value.mp h.2).2.2
  rwa [show (0#32) = binary32.posZero from by decide, binary32.toEReal_posZero] at this

section
attribute [local irreducible] litD litF Fmt.add Fmt.mul Fmt.div Fmt.sub Fmt.fma Fmt.ltb Fmt.leb Fmt.eqb
  Fmt.roundInt Fmt.toInt32 Fmt.ofInt32 Fmt.sqrt

theorem ofInt32_within (j : BitVec 32) : Within 0x4f000000#32 (binary32.ofInt32 j) := by
  have r : binary32.IsRnd (j.toInt : ℝ) (binary32.ofInt32 j) := by
    unfold Fmt.ofInt32 Fmt.ofInt
    have := Fmt.isRnd_int (F := binary32) (z := j.toInt * 2 ^ binary32.scale) (D := 1) (by decide) false
      (v := (j.toInt : ℝ)) (by push_cast; field_simp)
    have hz : (j.toInt * 2 ^ binary32.scale = 0) ↔ j.toInt = 0 := by simp
    have hl : (j.toInt * 2 ^ binary32.scale < 0) ↔ j.toInt < 0 := by
      constructor
      · intro h; by_contra h'; have : (0 : ℤ) ≤ j.toInt * 2 ^ binary32.scale := by
          have : (0:ℤ) ≤ j.toInt := by omega
          positivity
        omega
      · intro h; exact mul_neg_of_neg_of_pos h (by positivity)
    have hn : (j.toInt * 2 ^ binary32.scale).natAbs = j.toInt.natAbs * 2 ^ binary32.scale := by
      rw [Int.natAbs_mul, Int.natAbs_pow]; rfl
    simp only [hz, hl, hn] at this
    exact this
  refine bound_of_rnd r c31.1 ?_
  rw [c31.2, abs_le]
  have a := BitVec.le_toInt j
  have b := BitVec.toInt_lt (x := j)
  constructor
  · have : (-(2 ^ 31) : ℤ) ≤ j.toInt := by simpa using a
    exact_mod_cast this
  · have : j.toInt ≤ (2 ^ 31 : ℤ) := by have : j.toInt < 2 ^ 31 := by simpa using b
                                        omega
    exact_mod_cast this

theorem lit_1 : Small (litD 0.78515625) := by decide +kernel
theorem lit_2 : Small (litD 2.4187564849853515625e-4) := by decide +kernel
theorem lit_3 : Small (litD 3.77489497744594108e-8) := by decide +kernel

/-- The reduced argument. -/
theorem reduce_within {V : LaneOps 32} (h : V.Ieee) {x y a b c d : BitVec 32} (hx : Within a x) (hy : Within 0x4f000000#32 y)
    (hb : IsFin binary32 b) (hc : IsFin binary32 c) (hd : IsFin binary32 d)
    (h1 : binary32.toReal a + 2 ^ 31 ≤ binary32.toReal b) (h2 : binary32.toReal b + 2 ^ 31 ≤ binary32.toReal c)
    (h3 : binary32.toReal c + 2 ^ 31 ≤ binary32.toReal d) : Within d (reduceArg V x y) := by
  unfold reduceArg
  rw [h.sub, h.mul]
  have m : ∀ {l : BitVec 32}, Small l → Within 0x4f000000#32 (binary32.mul y l) := fun {l} hl =>
    within_mul c31.1 hy hl.within (by rw [c31.2, c1.2]; norm_num)
  have e := c31.2
  exact within_sub hd (within_sub hc (within_sub hb hx (m lit_1) (by rw [e]; exact h1)) (m lit_2) (by rw [e]; exact h2))
    (m lit_3) (by rw [e]; exact h3)

/-- Zero times a finite number. -/
theorem zero_mul_within {p z : BitVec 32} (hp : IsFin binary32 p) (hz : IsFin binary32 z) (h0 : binary32.toReal z = 0) :
    Within 0#32 (binary32.mul p z) := by
  have e : binary32.toReal 0#32 = 0 := by
    have := (val32 (x := 0#32) 0 (by decide +kernel)).2; simpa using this
  refine bound_of_rnd (Fmt.mul_rounds hp hz) (by decide) ?_
  rw [h0, e]; simp

theorem lit_c1 : Small (litD 2.443315711809948e-5) := by decide +kernel
theorem lit_c2 : Small (litD 1.388731625493765e-3) := by decide +kernel
theorem lit_c3 : Small (litD 4.166664568298827e-2) := by decide +kernel
theorem lit_c4 : Small (litF 0.5) := by decide +kernel
theorem lit_c5 : Small (litD 1) := by decide +kernel
theorem lit_s1 : Small (litD (-1.9515295891e-4)) := by decide +kernel
theorem lit_s2 : Small (litD 8.3321608736e-3) := by decide +kernel
theorem lit_s3 : Small (litD 1.6666654611e-1) := by decide +kernel

/-- A number times a finite number, where the number is finite if the other factor is zero. -/
theorem num_mul_of {q z : BitVec 32} (hq : Num binary32 q) (hz : IsFin binary32 z)
    (h : binary32.toReal z = 0 → IsFin binary32 q) : Num binary32 (binary32.mul q z) := by
  by_cases h0 : binary32.toReal z = 0
  · exact num_mul (h h0) hz
  · rcases fin_or_inf hq with f | i
    · exact num_mul f hz
    · exact mul_ok hq (num_of_fin hz) (.inr ⟨code_inf i, code_of_real h0⟩)

theorem zero32_val : binary32.toReal 0#32 = 0 := by
  have := (val32 (x := 0#32) 0 (by decide +kernel)).2; simpa using this

theorem cosPoly_num {V : LaneOps 32} (h : V.Ieee) {z : BitVec 32} (hz : Within 0x7e800000#32 z) : Num binary32 (cosPoly V z) := by
  unfold cosPoly
  rw [h.add, h.sub, h.mul]
  dsimp only
  have m := within_mul c126.1 lit_c1.within hz (by rw [c126.2, c1.2]; norm_num)
  have hp : Within 0x7f000000#32 (binary32.sub (binary32.mul (litD 2.443315711809948e-5) z) (litD 1.388731625493765e-3)) :=
    within_sub c127.1 m lit_c2.within (by rw [c126.2, c1.2, c127.2]; norm_num)
  generalize binary32.sub (binary32.mul (litD 2.443315711809948e-5) z) (litD 1.388731625493765e-3) = p at hp
  have hq := num_add (num_mul hp.1 hz.1) (num_of_fin lit_c3.1) (.inr lit_c3.1)
  have q0 : binary32.toReal z = 0 → IsFin binary32 (binary32.add (binary32.mul p z) (litD 4.166664568298827e-2)) := fun h0 =>
    (within_add c1.1 (zero_mul_within hp.1 hz.1 h0) lit_c3.within (by rw [zero32_val, c1.2]; norm_num)).1
  generalize binary32.add (binary32.mul p z) (litD 4.166664568298827e-2) = q at hq q0
  have r := num_mul_of hq hz.1 q0
  have r' := num_mul_of r hz.1 fun h0 => (zero_mul_within (q0 h0) hz.1 h0).1
  have hh := within_mul c126.1 lit_c4.within hz (by rw [c126.2, c1.2]; norm_num)
  exact num_add (num_sub_fin r' (num_of_fin hh.1) (.inr hh.1)) (num_of_fin lit_c5.1) (.inr lit_c5.1)

theorem sinPoly_num {V : LaneOps 32} (h : V.Ieee) {z base : BitVec 32} (hz : Within 0x7e800000#32 z) (hb : IsFin binary32 base)
    (hzb : binary32.toReal base = 0 → binary32.toReal z = 0) : Num binary32 (sinPoly V z base) := by
  unfold sinPoly
  rw [h.add, h.sub, h.mul]
  dsimp only
  have m := within_mul c126.1 lit_s1.within hz (by rw [c126.2, c1.2]; norm_num)
  have hp : Within 0x7f000000#32 (binary32.add (binary32.mul (litD (-1.9515295891e-4)) z) (litD 8.3321608736e-3)) :=
    within_add c127.1 m lit_s2.within (by rw [c126.2, c1.2, c127.2]; norm_num)
  generalize binary32.add (binary32.mul (litD (-1.9515295891e-4)) z) (litD 8.3321608736e-3) = p at hp
  have hq := num_sub_fin (num_mul hp.1 hz.1) (num_of_fin lit_s3.1) (.inr lit_s3.1)
  have q0 : binary32.toReal z = 0 → IsFin binary32 (binary32.sub (binary32.mul p z) (litD 1.6666654611e-1)) := fun h0 =>
    (within_sub c1.1 (zero_mul_within hp.1 hz.1 h0) lit_s3.within (by rw [zero32_val, c1.2]; norm_num)).1
  generalize binary32.sub (binary32.mul p z) (litD 1.6666654611e-1) = q at hq q0
  have r := num_mul_of hq hz.1 q0
  have r' := num_mul_of r hb fun h0 => (zero_mul_within (q0 (hzb h0)) hz.1 (hzb h0)).1
  exact num_add r' (num_of_fin hb) (.inr hb)

theorem num_xor {x s : BitVec 32} (hs : s = s &&& 0x80000000#32) (h : Num binary32 x) : Num binary32 (x ^^^ s) := by
  rw [BitVec.xor_comm]; exact num_xor_sign hs h

/-- The polynomials of sine and cosine for arguments up to `2 ^ 62`. -/
theorem trig_polys_num {V : LaneOps 32} (h : V.Ieee) {x : BitVec 32} (hx : IsFin binary32 x) (hr : |binary32.toReal x| ≤ 2 ^ 62)
    (j : BitVec 32) :
    let base := reduceArg V (binary32.fabs x) (V.convertToFloat j)
    Num binary32 (cosPoly V (V.mul base base)) ∧ Num binary32 (sinPoly V (V.mul base base) base) := by
  intro base
  have c62 : IsFin binary32 0x5e800000#32 ∧ binary32.toReal 0x5e800000#32 = 2 ^ 62 := by
    have := val32 (x := 0x5e800000#32) (2 ^ 62) (by decide +kernel)
    exact ⟨this.1, this.2.trans (by norm_num)⟩
  have hb : Within 0x5f000000#32 base := by
    refine reduce_within h (a := 0x5e800000#32) (b := 0x5ea00000#32) (c := 0x5ec00000#32) ⟨?_, ?_⟩ ?_ quarters62.1.1 quarters62.2.1 c63.1 ?_ ?_ ?_
    · unfold IsFin; rw [binary32.isFinite_fabs]; exact hx
    · rw [binary32.toReal_fabs, abs_abs, c62.2]; exact hr
    · rw [h.ofInt]; exact ofInt32_within j
    · rw [c62.2, quarters62.1.2]; norm_num
    · rw [quarters62.2.2, quarters62.1.2]; norm_num
    · rw [c63.2, quarters62.2.2]; norm_num
  have hz : Within 0x7e800000#32 (V.mul base base) := by
    rw [h.mul]; exact within_mul c126.1 hb hb (by rw [c63.2, c126.2]; norm_num)
  refine ⟨cosPoly_num h hz, sinPoly_num h hz hb.1 fun h0 => ?_⟩
  have := (zero_mul_within hb.1 hb.1 h0).2
  rw [zero32_val] at this
  rw [h.mul]
  exact abs_nonpos_iff.mp this

theorem sign_xor (a y : BitVec 32) : (a &&& 0x80000000#32) ^^^ (y &&& 0x80000000#32) = (a ^^^ y) &&& 0x80000000#32 :=
  by ext i hi; simp only [BitVec.getElem_xor, BitVec.getElem_and, Bool.and_xor_distrib_right]

theorem vecSin_num {V : LaneOps 32} (h : V.Ieee) {x : BitVec 32} (hx : IsFin binary32 x) (hr : |binary32.toReal x| ≤ 2 ^ 62) :
    Num binary32 (vecSin V x) := by
  unfold vecSin sinAbs
  dsimp only
  rw [abs_and h, h.sign]
  have t := trig_polys_num h hx hr (quadrant V (binary32.fabs x))
  generalize quadrant V (binary32.fabs x) = j at t ⊢
  dsimp only at t
  obtain ⟨y, hy⟩ := swap_sign j
  rw [hy, sign_xor, BitVec.xor_comm]
  refine num_xor_sign rfl ?_
  unfold intMaskEq
  rw [h.sel]
  split
  · exact t.2
  · exact t.1

theorem vecCos_num {V : LaneOps 32} (h : V.Ieee) {x : BitVec 32} (hx : IsFin binary32 x) (hr : |binary32.toReal x| ≤ 2 ^ 62) :
    Num binary32 (vecCos V x) := by
  unfold vecCos
  dsimp only
  rw [abs_and h, h.intAndnot]
  have t := trig_polys_num h hx hr (quadrant V (binary32.fabs x))
  generalize quadrant V (binary32.fabs x) = j at t ⊢
  dsimp only at t
  obtain ⟨y, hy⟩ := swap_sign (~~~(j - 2#32))
  rw [hy, BitVec.xor_comm]
  refine num_xor_sign rfl ?_
  unfold intMaskEq
  rw [h.sel]
  split
  · exact t.2
  · exact t.1

/-! ## The tangent -/

theorem lit_t0 : Small (litD 0.3333315551280975341796875) ∧ binary32.ltb 0#32 (litD 0.3333315551280975341796875) = true := by
  decide +kernel
theorem lit_t1 : Small (litD 0.1333882510662078857421875) ∧ binary32.ltb 0#32 (litD 0.1333882510662078857421875) = true := by
  decide +kernel
theorem lit_t2 : Small (litD 5.3409568965435028076171875e-2) ∧ binary32.ltb 0#32 (litD 5.3409568965435028076171875e-2) = true := by
  decide +kernel
theorem lit_t3 : Small (litD 2.443529665470123291015625e-2) ∧ binary32.ltb 0#32 (litD 2.443529665470123291015625e-2) = true := by
  decide +kernel
theorem lit_t4 : Small (litD 3.1127030961215496063232421875e-3) ∧ binary32.ltb 0#32 (litD 3.1127030961215496063232421875e-3) = true := by
  decide +kernel
theorem lit_t5 : Small (litD 9.3892104923725128173828125e-3) ∧ binary32.ltb 0#32 (litD 9.3892104923725128173828125e-3) = true := by
  decide +kernel

theorem c3 : IsFin binary32 0x40400000#32 ∧ binary32.toReal 0x40400000#32 = 3 := by
  have := val32 (x := 0x40400000#32) 3 (by decide +kernel)
  exact ⟨this.1, this.2.trans (by norm_num)⟩
theorem c4 : IsFin binary32 0x40800000#32 ∧ binary32.toReal 0x40800000#32 = 4 := by
  have := val32 (x := 0x40800000#32) 4 (by decide +kernel)
  exact ⟨this.1, this.2.trans (by norm_num)⟩
theorem c5 : IsFin binary32 0x40a00000#32 ∧ binary32.toReal 0x40a00000#32 = 5 := by
  have := val32 (x := 0x40a00000#32) 5 (by decide +kernel)
  exact ⟨this.1, this.2.trans (by norm_num)⟩
theorem c6 : IsFin binary32 0x40c00000#32 ∧ binary32.toReal 0x40c00000#32 = 6 := by
  have := val32 (x := 0x40c00000#32) 6 (by decide +kernel)
  exact ⟨this.1, this.2.trans (by norm_num)⟩

/-- A step of the polynomial for small arguments. -/
theorem small_step {c x p a b : BitVec 32} (hc : Small c) (hx : Within 0x3f800000#32 x) (hp : Within a p) (ha : IsFin binary32 a)
    (hb : IsFin binary32 b) (h : 1 + binary32.toReal a ≤ binary32.toReal b) : Within b (binary32.add c (binary32.mul x p)) :=
  within_add hb hc.within (within_mul ha hx hp (by rw [c1.2, one_mul])) (by rw [c1.2]; exact h)

/-- The polynomial in the square, for a small argument. -/
theorem tan_small {x2 : BitVec 32} (h : Within 0x3f800000#32 x2) :
    IsFin binary32 (binary32.add (litD 0.3333315551280975341796875)
      (binary32.mul x2 (binary32.add (litD 0.1333882510662078857421875)
      (binary32.mul x2 (binary32.add (litD 5.3409568965435028076171875e-2)
      (binary32.mul x2 (binary32.add (litD 2.443529665470123291015625e-2)
      (binary32.mul x2 (binary32.add (litD 3.1127030961215496063232421875e-3)
      (binary32.mul x2 (litD 9.3892104923725128173828125e-3))))))))))) :=
  (small_step lit_t0.1 h (small_step lit_t1.1 h (small_step lit_t2.1 h (small_step lit_t3.1 h (small_step lit_t4.1 h
    lit_t5.1.within c1.1 c2.1 (by rw [c1.2, c2.2]; norm_num)) c2.1 c3.1 (by rw [c2.2, c3.2]; norm_num))
    c3.1 c4.1 (by rw [c3.2, c4.2]; norm_num)) c4.1 c5.1 (by rw [c4.2, c5.2]; norm_num))
    c5.1 c6.1 (by rw [c5.2, c6.2]; norm_num)).1

theorem tan_large {x2 : BitVec 32} (h : Positive binary32 x2) :
    Positive binary32 (binary32.add (litD 0.3333315551280975341796875)
      (binary32.mul x2 (binary32.add (litD 0.1333882510662078857421875)
      (binary32.mul x2 (binary32.add (litD 5.3409568965435028076171875e-2)
      (binary32.mul x2 (binary32.add (litD 2.443529665470123291015625e-2)
      (binary32.mul x2 (binary32.add (litD 3.1127030961215496063232421875e-3)
      (binary32.mul x2 (litD 9.3892104923725128173828125e-3))))))))))) :=
  Positive.step lit_t0.1.1 (positive_lit ⟨lit_t0.1.1, lit_t0.2⟩) h <| Positive.step lit_t1.1.1 (positive_lit ⟨lit_t1.1.1, lit_t1.2⟩) h <|
    Positive.step lit_t2.1.1 (positive_lit ⟨lit_t2.1.1, lit_t2.2⟩) h <| Positive.step lit_t3.1.1 (positive_lit ⟨lit_t3.1.1, lit_t3.2⟩) h <|
    Positive.step lit_t4.1.1 (positive_lit ⟨lit_t4.1.1, lit_t4.2⟩) h <| positive_lit ⟨lit_t5.1.1, lit_t5.2⟩

theorem ereal_one : binary32.toEReal 0x3f800000#32 = 1 := by
  rw [binary32.toEReal_of_finite c1.1, c1.2]; rfl

theorem neg_one : IsFin binary32 0xbf800000#32 ∧ binary32.toEReal 0xbf800000#32 = ((-1 : ℝ) : EReal) := by
  have := val32 (x := 0xbf800000#32) (-1) (by decide +kernel)
  exact ⟨this.1, by rw [binary32.toEReal_of_finite this.1, this.2]; norm_num⟩

/-- A product of numbers beyond 1 and -1 is not zero. -/
theorem mul_large {x y : BitVec 32} (hx : IsFin binary32 x) (h1 : 1 ≤ |binary32.toReal x|) (hy : Num binary32 y)
    (hy1 : 1 ≤ binary32.toEReal y) : Num binary32 (binary32.mul x y) ∧ binary32.code (binary32.mul x y) ≠ 0 := by
  have x0 : binary32.code x ≠ 0 := code_of_real fun h => by rw [h] at h1; norm_num at h1
  have ay : Positive binary32 y := ⟨hy, lt_of_lt_of_le (by norm_num) hy1⟩
  have n : Num binary32 (binary32.mul x y) := mul_ok (num_of_fin hx) hy (.inr ⟨x0, ay.code⟩)
  refine ⟨n, fun hc => ?_⟩
  have f : IsFin binary32 (binary32.mul x y) := by
    rcases fin_or_inf n with f | i
    · exact f
    · exact absurd hc (code_inf i)
  have e : binary32.toEReal (binary32.mul x y) = 0 := by
    rw [binary32.toEReal_of_finite f, binary32.toReal_eq, hc, mag_zero]; simp
  have r := Fmt.mul_rndE n
  rcases le_abs.mp h1 with h | h
  · have := (Fmt.IsRndE.self (num_of_fin c1.1)).mono r (by
      rw [ereal_one, binary32.toEReal_of_finite hx]
      have hx1 : (1 : EReal) ≤ ((binary32.toReal x : ℝ) : EReal) := by exact_mod_cast h
      calc (1 : EReal) = 1 * 1 := (mul_one _).symm
        _ ≤ _ := mul_le_mul hx1 hy1 (by norm_num) (le_trans (by norm_num) hx1))
    rw [e, ereal_one] at this
    exact absurd this (by norm_num)
  · have := r.mono (Fmt.IsRndE.self (num_of_fin neg_one.1)) (by
      rw [neg_one.2, binary32.toEReal_of_finite hx]
      have hx1 : (1 : EReal) ≤ ((-binary32.toReal x : ℝ) : EReal) := by exact_mod_cast h
      have : (1 : EReal) ≤ ((-binary32.toReal x : ℝ) : EReal) * binary32.toEReal y := by
        calc (1 : EReal) = 1 * 1 := (mul_one _).symm
          _ ≤ _ := mul_le_mul hx1 hy1 (by norm_num) (le_trans (by norm_num) hx1)
      rw [EReal.coe_neg, EReal.neg_mul] at this
      rw [EReal.coe_neg]
      exact EReal.le_neg_of_le_neg this)
    rw [e, neg_one.2] at this
    exact absurd this (by norm_num)

theorem tanPoly_num {V : LaneOps 32} (h : V.Ieee) {x : BitVec 32} (hx : IsFin binary32 x) : Num binary32 (tanPoly V x) := by
  unfold tanPoly
  rw [h.add, h.mul]
  dsimp only
  refine num_add (num_of_fin hx) ?_ (.inl hx)
  by_cases h1 : |binary32.toReal x| ≤ 1
  · have wx : Within 0x3f800000#32 x := ⟨hx, by rw [c1.2]; exact h1⟩
    have w2 := within_mul c1.1 wx wx (by rw [c1.2]; norm_num)
    exact num_mul (within_mul c1.1 wx w2 (by rw [c1.2]; norm_num)).1 (tan_small w2)
  · have h1' := (not_le.mp h1).le
    have n2 := num_mul hx hx
    have l2 : 1 ≤ binary32.toEReal (binary32.mul x x) := by
      have := (Fmt.IsRndE.self (num_of_fin c1.1)).mono (Fmt.mul_rndE n2) (by
        rw [ereal_one, binary32.toEReal_of_finite hx, ← EReal.coe_mul]
        have : 1 ≤ binary32.toReal x * binary32.toReal x := by
          rw [← abs_mul_abs_self]; nlinarith
        exact_mod_cast this)
      rwa [ereal_one] at this
    obtain ⟨a, b⟩ := mul_large hx h1' n2 l2
    have t := tan_large ⟨n2, lt_of_lt_of_le (by norm_num) l2⟩
    exact mul_ok a t.1 (.inr ⟨b, t.code⟩)

theorem lit_m1 : binary32.isFinite (litD (-1)) = true ∧ binary32.isZero (litD (-1)) = false := by decide +kernel

end

/-- A finite number that is not zero divided by a number. -/
theorem num_div_of {w : Nat} {F : Fmt w} {c x : BitVec w} (hc : F.isFinite c = true) (h0 : F.isZero c = false) (hx : Num F x) :
    Num F (F.div c x) := by
  unfold Num at *
  unfold Fmt.div
  rw [F.isFinite_not_nan hc, hx, F.isFinite_not_inf hc, h0]
  simp only [Bool.or_self, Bool.false_eq_true, if_false]
  split
  · exact (Fmt.IsRndE.zero _).1
  split
  · exact (Fmt.IsRndE.inf _).1
  · exact isNaN_packRnd F _ _ _

section
attribute [local irreducible] litD litF Fmt.add Fmt.mul Fmt.div Fmt.sub Fmt.fma Fmt.ltb Fmt.leb Fmt.eqb
  Fmt.roundInt Fmt.toInt32 Fmt.ofInt32 Fmt.sqrt

theorem largest_sum : IsFin binary32 0x7f7fffff#32 ∧ binary32.add 0x7f7fffff#32 0x4f800000#32 = 0x7f7fffff#32 ∧
    IsFin binary32 0xff7fffff#32 ∧ binary32.add 0xff7fffff#32 0xcf800000#32 = 0xff7fffff#32 ∧
    binary32.key 0x7f7fffff#32 = 0x7f7fffff ∧ binary32.key 0xff7fffff#32 = -0x7f7fffff ∧ binary32.infCode = 0x7f800000 := by
  decide +kernel

theorem fin_iff_key {x : BitVec 32} : IsFin binary32 x ↔ -0x7f7fffff ≤ binary32.key x ∧ binary32.key x ≤ 0x7f7fffff := by
  have h : IsFin binary32 x ↔ binary32.code x < 0x7f800000 := by
    unfold IsFin Fmt.isFinite
    rw [largest_sum.2.2.2.2.2.2]
    exact decide_eq_true_iff
  rw [h, ← binary32.key_natAbs]
  omega

/-- Subtracting up to `2^31` of a finite number gives a finite number, even from the largest one. -/
theorem sub_fin {x m : BitVec 32} (hx : IsFin binary32 x) (hm : Within 0x4f000000#32 m) : IsFin binary32 (binary32.sub x m) := by
  have r : binary32.IsRnd (binary32.toReal x - binary32.toReal m) (binary32.sub x m) := by
    rw [binary32.sub_num (binary32.isFinite_not_nan hx) (binary32.isFinite_not_nan hm.1), sub_eq_add_neg,
      ← binary32.toReal_negate]
    exact Fmt.add_rounds hx (by rw [binary32.isFinite_negate]; exact hm.1)
  obtain ⟨f1, s1, f2, s2, k1, k2, -⟩ := largest_sum
  have c32 := val32 (x := 0x4f800000#32) (2 ^ 32) (by decide +kernel)
  have d32 := val32 (x := 0xcf800000#32) (-2 ^ 32) (by decide +kernel)
  have U := Fmt.add_rounds f1 c32.1
  have D := Fmt.add_rounds f2 d32.1
  rw [s1, c32.2] at U
  rw [s2, d32.2] at D
  obtain ⟨x1, x2⟩ := fin_iff_key.mp hx
  have nx := num_of_fin hx
  have u1 := (binary32.key_le_iff_value nx (num_of_fin f1)).mp (by rw [k1]; exact x2)
  have l1 := (binary32.key_le_iff_value (num_of_fin f2) nx).mp (by rw [k2]; exact x1)
  rw [binary32.toEReal_of_finite hx, binary32.toEReal_of_finite f1] at u1
  rw [binary32.toEReal_of_finite hx, binary32.toEReal_of_finite f2] at l1
  have u1 := EReal.coe_le_coe_iff.mp u1
  have l1 := EReal.coe_le_coe_iff.mp l1
  have hm2 := hm.2
  rw [c31.2, abs_le] at hm2
  have ku := r.mono U (by push_cast; linarith)
  have kl := D.mono r (by push_cast; linarith)
  rw [k1] at ku
  rw [k2] at kl
  exact fin_iff_key.mpr ⟨kl, ku⟩

theorem vecTan_num {V : LaneOps 32} (h : V.Ieee) {x : BitVec 32} (hx : IsFin binary32 x) : Num binary32 (vecTan V x) := by
  unfold vecTan
  dsimp only
  rw [abs_and h, h.sign, h.ofInt, h.div]
  generalize quadrant V (binary32.fabs x) = j
  have hb : IsFin binary32 (reduceArg V (binary32.fabs x) (binary32.ofInt32 j)) := by
    unfold reduceArg
    rw [h.sub, h.mul]
    have m : ∀ {l : BitVec 32}, Small l → Within 0x4f000000#32 (binary32.mul (binary32.ofInt32 j) l) := fun {l} hl =>
      within_mul c31.1 (ofInt32_within j) hl.within (by rw [c31.2, c1.2]; norm_num)
    refine sub_fin (sub_fin (sub_fin ?_ (m lit_1)) (m lit_2)) (m lit_3)
    unfold IsFin; rw [binary32.isFinite_fabs]; exact hx
  have t := tanPoly_num h hb
  rw [BitVec.xor_comm]
  refine num_xor_sign rfl ?_
  unfold intMaskEq
  rw [h.sel]
  split
  · exact t
  · exact num_div_of lit_m1.1 lit_m1.2 t

end

end Nova
