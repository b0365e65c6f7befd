import Verif.Lemmas.TrigNumbers
import Verif.Float.Near

/-!
# Sine and cosine of large arguments

Beyond `2^62` the quotient by pi/4 does not fit into an integer, the quadrant is a constant and the reduction leaves the
argument as it is.  The sine evaluates its own polynomial, which is minus infinity at the end; the cosine the other one, which
subtracts two infinities as soon as the square overflows.
-/

namespace Nova
open FP VecMath

/-- A finite number between two finite numbers. -/
def Between (lo hi x : BitVec 32) : Prop :=
  IsFin binary32 x ∧ binary32.toReal lo ≤ binary32.toReal x ∧ binary32.toReal x ≤ binary32.toReal hi

theorem key_of_real {x y : BitVec 32} (hx : IsFin binary32 x) (hy : IsFin binary32 y) :
    binary32.key x ≤ binary32.key y ↔ binary32.toReal x ≤ binary32.toReal y := by
  rw [binary32.key_le_iff_value (num_of_fin hx) (num_of_fin hy), binary32.toEReal_of_finite hx, binary32.toEReal_of_finite hy,
    EReal.coe_le_coe_iff]

theorem fin_of_between {lo hi x : BitVec 32} (hl : IsFin binary32 lo) (hh : IsFin binary32 hi)
    (h1 : binary32.key lo ≤ binary32.key x) (h2 : binary32.key x ≤ binary32.key hi) : Between lo hi x := by
  have f : IsFin binary32 x := fin_iff_key.mpr ⟨(fin_iff_key.mp hl).1.trans h1, h2.trans (fin_iff_key.mp hh).2⟩
  exact ⟨f, (key_of_real hl f).mp h1, (key_of_real f hh).mp h2⟩

section
attribute [local irreducible] litD litF Fmt.add Fmt.mul Fmt.div Fmt.sub Fmt.fma Fmt.ltb Fmt.leb Fmt.eqb
  Fmt.roundInt Fmt.toInt32 Fmt.ofInt32 Fmt.sqrt

theorem sub_rounds {x m : BitVec 32} (hx : IsFin binary32 x) (hm : IsFin binary32 m) :
    binary32.IsRnd (binary32.toReal x - binary32.toReal m) (binary32.sub x m) := by
  rw [binary32.sub_num (binary32.isFinite_not_nan hx) (binary32.isFinite_not_nan hm), sub_eq_add_neg,
    ← binary32.toReal_negate]
  exact Fmt.add_rounds hx (by rw [binary32.isFinite_negate]; exact hm)

/-- A subtraction that leaves both ends of an interval keeps numbers in it. -/
theorem Between.sub {lo hi x m : BitVec 32} (h : Between lo hi x) (hl : IsFin binary32 lo) (hh : IsFin binary32 hi)
    (hm : IsFin binary32 m) (el : binary32.sub lo m = lo) (eh : binary32.sub hi m = hi) : Between lo hi (binary32.sub x m) := by
  have r := sub_rounds h.1 hm
  have u := r.mono (sub_rounds hh hm) (by linarith [h.2.2])
  have l := (sub_rounds hl hm).mono r (by linarith [h.2.1])
  rw [eh] at u
  rw [el] at l
  exact fin_of_between hl hh l u

/-- The quadrant of an argument that is not reduced, and what is subtracted. -/
def farQuadrant : BitVec 32 := 0x80000000#32

theorem far_float : binary32.ofInt32 farQuadrant = 0xcf000000#32 := by decide +kernel

/-- The three steps of the reduction leave a number alone. -/
def Stays (a : BitVec 32) : Prop :=
  binary32.isFinite a = true ∧ binary32.sub a (binary32.mul 0xcf000000#32 (litD 0.78515625)) = a ∧
  binary32.sub a (binary32.mul 0xcf000000#32 (litD 2.4187564849853515625e-4)) = a ∧
  binary32.sub a (binary32.mul 0xcf000000#32 (litD 3.77489497744594108e-8)) = a

instance (a : BitVec 32) : Decidable (Stays a) := inferInstanceAs (Decidable (_ ∧ _))

theorem stays_62 : Stays 0x5e800000#32 := by decide +kernel
theorem stays_64 : Stays 0x5f800000#32 := by decide +kernel
theorem stays_below : Stays 0x5f7fffff#32 := by decide +kernel
theorem stays_max : Stays 0x7f7fffff#32 := by decide +kernel
theorem far_fins : binary32.isFinite (binary32.mul 0xcf000000#32 (litD 0.78515625)) = true ∧
    binary32.isFinite (binary32.mul 0xcf000000#32 (litD 2.4187564849853515625e-4)) = true ∧
    binary32.isFinite (binary32.mul 0xcf000000#32 (litD 3.77489497744594108e-8)) = true := by decide +kernel

theorem reduce_far {V : LaneOps 32} (h : V.Ieee) {lo hi x : BitVec 32} (hx : Between lo hi x) (hl : Stays lo) (hh : Stays hi) :
    Between lo hi (reduceArg V x (V.convertToFloat farQuadrant)) := by
  unfold reduceArg
  rw [h.sub, h.mul, h.ofInt, far_float]
  exact ((hx.sub hl.1 hh.1 far_fins.1 hl.2.1 hh.2.1).sub hl.1 hh.1 far_fins.2.1 hl.2.2.1 hh.2.2.1).sub hl.1 hh.1 far_fins.2.2
    hl.2.2.2 hh.2.2.2

theorem toInt32_far {x : BitVec 32} (h : IsFin binary32 x → 2 ^ 31 ≤ binary32.toReal x) : binary32.toInt32 x = 0x80000000#32 := by
  unfold Fmt.toInt32
  split
  · rfl
  · rename_i hf
    have hf : IsFin binary32 x := by simpa using hf
    have h := h hf
    have hn : binary32.neg x = false := by
      cases hn : binary32.neg x
      · rfl
      · rw [binary32.toReal_eq, hn, if_pos rfl] at h
        have : (0 : ℝ) ≤ (mag binary32.mb (binary32.code x) : ℝ) / 2 ^ binary32.scale := by positivity
        linarith
    rw [binary32.toReal_eq, hn, if_neg (by decide), one_mul, le_div_iff₀ (by positivity)] at h
    have h' : 2 ^ 31 * 2 ^ binary32.scale ≤ mag binary32.mb (binary32.code x) := by exact_mod_cast h
    have k := (Nat.le_div_iff_mul_le (by positivity)).mpr h'
    simp only [hn, Bool.false_eq_true, if_false]
    exact if_pos (.inr (by omega))

theorem far_scale : binary32.isFinite (litD 1.27323954473516268615107010698011489627567716592367) = true ∧
    binary32.leb 0x3f800000#32 (litD 1.27323954473516268615107010698011489627567716592367) = true := by decide +kernel

theorem quadrant_far {V : LaneOps 32} (h : V.Ieee) {x : BitVec 32} (hx : IsFin binary32 x) (h62 : 2 ^ 62 ≤ binary32.toReal x) :
    quadrant V x = farQuadrant := by
  unfold quadrant
  rw [h.mul, h.toInt]
  dsimp only
  rw [toInt32_far]
  · decide
  · intro hf
    have l := (binary32.leb_iff_value.mp far_scale.2).2.2
    rw [binary32.toEReal_of_finite c1.1, binary32.toEReal_of_finite far_scale.1, EReal.coe_le_coe_iff, c1.2] at l
    have r := Fmt.mul_rounds hx far_scale.1
    have := (Fmt.IsRndE.self (num_of_fin c31.1)).mono r.ereal (by
      rw [binary32.toEReal_of_finite c31.1, c31.2, EReal.coe_le_coe_iff]
      nlinarith)
    rwa [binary32.toEReal_of_finite c31.1, c31.2, binary32.toEReal_of_finite hf, EReal.coe_le_coe_iff] at this

/-- The polynomial of the sine of an unreduced argument. -/
theorem sinPoly_far {V : LaneOps 32} (h : V.Ieee) {base : BitVec 32} (hb : IsFin binary32 base) (h62 : 2 ^ 62 ≤ binary32.toReal base) :
    Num binary32 (sinPoly V (V.mul base base) base) := by
  unfold sinPoly
  rw [h.add, h.sub, h.mul]
  dsimp only
  have b0 : binary32.toReal base ≠ 0 := by intro e; rw [e] at h62; norm_num at h62
  have nz := num_mul hb hb
  refine num_add (num_mul_of ?_ hb fun e => absurd e b0) (num_of_fin hb) (.inr hb)
  have z0 : IsFin binary32 (binary32.mul base base) → binary32.toReal (binary32.mul base base) ≠ 0 := fun hf e => by
    have := (Fmt.IsRndE.self (num_of_fin c1.1)).mono (Fmt.mul_rounds hb hb).ereal (by
      rw [binary32.toEReal_of_finite c1.1, c1.2, EReal.coe_le_coe_iff]
      nlinarith)
    rw [binary32.toEReal_of_finite c1.1, c1.2, binary32.toEReal_of_finite hf, e, EReal.coe_le_coe_iff] at this
    norm_num at this
  generalize binary32.mul base base = z at nz z0
  rcases fin_or_inf nz with hz | hz
  · have z0 := z0 hz
    refine num_mul_of (num_sub_fin (num_mul_of (num_add (num_mul lit_s1.1 hz) (num_of_fin lit_s2.1) (.inr lit_s2.1)) hz
      fun e => absurd e z0) (num_of_fin lit_s3.1) (.inr lit_s3.1)) hz fun e => absurd e z0
  · have hc : binary32.code z = binary32.infCode := by simpa [Fmt.isInf] using hz
    have : z = 0x7f800000#32 ∨ z = 0xff800000#32 := by
      cases hn : binary32.neg z
      · exact .inl (binary32.ext (hn.trans (by decide)) (hc.trans (by decide)))
      · exact .inr (binary32.ext (hn.trans (by decide)) (hc.trans (by decide)))
    rcases this with rfl | rfl <;> decide +kernel

/-- The polynomial of the cosine while the square is finite. -/
theorem cosPoly_far {V : LaneOps 32} (h : V.Ieee) {z : BitVec 32} (hz : IsFin binary32 z) (z0 : binary32.toReal z ≠ 0) :
    Num binary32 (cosPoly V z) := by
  unfold cosPoly
  rw [h.add, h.sub, h.mul]
  dsimp only
  have hh : IsFin binary32 (binary32.mul (litF 0.5) z) :=  by
    have w : Within (binary32.fabs z) z := ⟨hz, by rw [binary32.toReal_fabs]⟩
    refine (within_mul (by unfold IsFin; rw [binary32.isFinite_fabs]; exact hz) lit_c4.within w ?_).1
    rw [c1.2, one_mul]
  exact num_add (num_sub_fin (num_mul_of (num_mul_of (num_add (num_mul_of (num_sub_fin (num_mul lit_c1.1 hz) (num_of_fin lit_c2.1)
    (.inr lit_c2.1)) hz fun e => absurd e z0) (num_of_fin lit_c3.1) (.inr lit_c3.1)) hz fun e => absurd e z0) hz
    fun e => absurd e z0) (num_of_fin hh) (.inr hh)) (num_of_fin lit_c5.1) (.inr lit_c5.1)

theorem cosPoly_inf {V : LaneOps 32} (h : V.Ieee) : ¬ Num binary32 (cosPoly V 0x7f800000#32) := by
  unfold cosPoly
  rw [h.add, h.sub, h.mul]
  decide +kernel

theorem c62 : IsFin binary32 0x5e800000#32 ∧ binary32.toReal 0x5e800000#32 = 2 ^ 62 := by
  have := val32 (x := 0x5e800000#32) (2 ^ 62) (by decide +kernel)
  exact ⟨this.1, this.2.trans (by norm_num)⟩
theorem c64 : IsFin binary32 0x5f800000#32 ∧ binary32.toReal 0x5f800000#32 = 2 ^ 64 := by
  have := val32 (x := 0x5f800000#32) (2 ^ 64) (by decide +kernel)
  exact ⟨this.1, this.2.trans (by norm_num)⟩

theorem le_largest {x : BitVec 32} (hx : IsFin binary32 x) : binary32.toReal x ≤ binary32.toReal 0x7f7fffff#32 :=
  (key_of_real hx (by decide)).mp (fin_iff_key.mp hx).2

theorem below_64 {x : BitVec 32} (hx : IsFin binary32 x) (h : binary32.toReal x < 2 ^ 64) :
    binary32.toReal x ≤ binary32.toReal 0x5f7fffff#32 := by
  refine (key_of_real hx (by decide)).mp ?_
  have : ¬ binary32.key 0x5f800000#32 ≤ binary32.key x := fun hk => by
    have := (key_of_real c64.1 hx).mp hk
    rw [c64.2] at this
    linarith
  have e1 : binary32.key 0x5f800000#32 = 0x5f800000 := by decide
  have e2 : binary32.key 0x5f7fffff#32 = 0x5f7fffff := by decide
  omega

/-- The own sine of a finite number is a number. -/
theorem vecSin_num_all {V : LaneOps 32} (h : V.Ieee) {x : BitVec 32} (hx : IsFin binary32 x) : Num binary32 (vecSin V x) := by
  by_cases hr : |binary32.toReal x| ≤ 2 ^ 62
  · exact vecSin_num h hx hr
  have hf : IsFin binary32 (binary32.fabs x) := by unfold IsFin; rw [binary32.isFinite_fabs]; exact hx
  have hl : 2 ^ 62 ≤ binary32.toReal (binary32.fabs x) := by rw [binary32.toReal_fabs]; exact (not_le.mp hr).le
  unfold vecSin sinAbs
  dsimp only
  rw [abs_and h, h.sign, quadrant_far h hf hl]
  obtain ⟨y, hy⟩ := swap_sign farQuadrant
  rw [hy, sign_xor, BitVec.xor_comm]
  refine num_xor_sign rfl ?_
  unfold intMaskEq
  rw [h.sel, if_pos (by decide)]
  have b := reduce_far h ⟨hf, by rw [c62.2]; exact hl, le_largest hf⟩ stays_62 stays_max
  exact sinPoly_far h b.1 (c62.2 ▸ b.2.1)

/-- The own cosine of a finite number is a number below `2^64`, and a NaN from there on. -/
theorem vecCos_num_iff {V : LaneOps 32} (h : V.Ieee) {x : BitVec 32} (hx : IsFin binary32 x) :
    Num binary32 (vecCos V x) ↔ |binary32.toReal x| < 2 ^ 64 := by
  by_cases hr : |binary32.toReal x| ≤ 2 ^ 62
  · exact iff_of_true (vecCos_num h hx hr) (lt_of_le_of_lt hr (by norm_num))
  have hf : IsFin binary32 (binary32.fabs x) := by unfold IsFin; rw [binary32.isFinite_fabs]; exact hx
  have hl : 2 ^ 62 ≤ binary32.toReal (binary32.fabs x) := by rw [binary32.toReal_fabs]; exact (not_le.mp hr).le
  have key : Num binary32 (vecCos V x) ↔ Num binary32 (cosPoly V (V.mul (reduceArg V (binary32.fabs x) (V.convertToFloat farQuadrant))
      (reduceArg V (binary32.fabs x) (V.convertToFloat farQuadrant)))) := by
    unfold vecCos
    dsimp only
    rw [abs_and h, h.intAndnot, quadrant_far h hf hl]
    obtain ⟨y, hy⟩ := swap_sign (~~~(farQuadrant - 2#32))
    rw [hy, BitVec.xor_comm]
    unfold intMaskEq
    rw [h.sel, if_neg (by decide)]
    refine ⟨fun n => ?_, fun n => num_xor_sign rfl n⟩
    have := num_xor_sign (s := y &&& 0x80000000#32) rfl n
    rwa [← BitVec.xor_assoc, BitVec.xor_self, BitVec.zero_xor] at this
  rw [key, h.mul, ← binary32.toReal_fabs]
  constructor
  · intro n
    by_contra hc
    have b := reduce_far h ⟨hf, by rw [c64.2]; exact not_lt.mp hc, le_largest hf⟩ stays_64 stays_max
    generalize reduceArg V (binary32.fabs x) (V.convertToFloat farQuadrant) = base at b n
    have nz := num_mul b.1 b.1
    have e : binary32.mul 0x5f800000#32 0x5f800000#32 = 0x7f800000#32 := by decide +kernel
    have k := (Fmt.mul_rounds c64.1 c64.1).mono (Fmt.mul_rounds b.1 b.1)
      (mul_self_le_mul_self (by rw [c64.2]; norm_num) b.2.1)
    rw [e, show binary32.key 0x7f800000#32 = 0x7f800000 by decide] at k
    have hz : binary32.mul base base = 0x7f800000#32 := by
      refine binary32.eq_of_key ?_ (by decide)
      rw [show binary32.key 0x7f800000#32 = 0x7f800000 by decide]
      have hc : binary32.code (binary32.mul base base) ≤ 0x7f800000 := by
        have : ¬ binary32.infCode < binary32.code (binary32.mul base base) := by
          simpa [Num, Fmt.isNaN] using nz
        rw [show binary32.infCode = 0x7f800000 by decide] at this
        omega
      have := binary32.key_natAbs (binary32.mul base base)
      omega
    rw [hz] at n
    exact cosPoly_inf h n
  · intro hc
    have b := reduce_far h ⟨hf, by rw [c62.2]; exact hl, below_64 hf hc⟩ stays_62 stays_below
    generalize reduceArg V (binary32.fabs x) (V.convertToFloat farQuadrant) = base at b
    have e : binary32.mul 0x5f7fffff#32 0x5f7fffff#32 = 0x7f7ffffe#32 := by decide +kernel
    have l := b.2.1
    rw [c62.2] at l
    have r := Fmt.mul_rounds b.1 b.1
    have hu := r.mono (Fmt.mul_rounds (F := binary32) (x := 0x5f7fffff#32) (y := 0x5f7fffff#32) (by decide) (by decide))
      (mul_self_le_mul_self (by linarith) b.2.2)
    rw [e] at hu
    have hlo := (Fmt.IsRndE.self (num_of_fin c1.1)).mono r.ereal (by
      rw [binary32.toEReal_of_finite c1.1, c1.2, EReal.coe_le_coe_iff]
      nlinarith)
    have kl := (binary32.key_le_iff_value (num_of_fin c1.1) (num_mul b.1 b.1)).mpr hlo
    have bz := fin_of_between c1.1 (by decide) kl hu
    refine cosPoly_far h bz.1 fun e => ?_
    have := bz.2.1
    rw [c1.2, e] at this
    norm_num at this

end

end Nova
