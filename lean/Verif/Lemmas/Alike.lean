import Verif.Lemmas.SimdMath
import Verif.Lemmas.TanhFinal
import Verif.Lemmas.LogFinal
import Verif.Lemmas.AcosFinal
import Verif.Props.C46_Exp
import Verif.Props.C78_Same
import Verif.Lemmas.Order

/-!
# The templates give the same patterns for every x86 class

Two classes whose instructions are those of IEEE 754 may differ in how they make constants, select lanes, compare and
round; the results of the templates do not show it.
-/

namespace Nova
open FP VecMath

attribute [local irreducible] litD litF Fmt.add Fmt.mul Fmt.div Fmt.sub Fmt.fma Fmt.ltb Fmt.leb Fmt.eqb Fmt.roundInt
  Fmt.toInt32 Fmt.ofInt32 Fmt.sqrt

namespace LaneOps.Ieee
variable {V V' : LaneOps 32} (h : V.Ieee) (h' : V'.Ieee)
include h h'

theorem quadrant_alike (x : BitVec 32) : quadrant V x = quadrant V' x := by
  unfold quadrant; rw [h.mul, h'.mul, h.toInt, h'.toInt]

theorem reduceArg_alike (x y : BitVec 32) : reduceArg V x y = reduceArg V' x y := by
  unfold reduceArg; rw [h.mul, h'.mul, h.sub, h'.sub]

theorem cosPoly_alike (z : BitVec 32) : cosPoly V z = cosPoly V' z := by
  unfold cosPoly; rw [h.mul, h'.mul, h.sub, h'.sub, h.add, h'.add]

theorem sinPoly_alike (z y : BitVec 32) : sinPoly V z y = sinPoly V' z y := by
  unfold sinPoly; rw [h.mul, h'.mul, h.sub, h'.sub, h.add, h'.add]

theorem tanPoly_alike (z : BitVec 32) : tanPoly V z = tanPoly V' z := by
  unfold tanPoly; rw [h.mul, h'.mul, h.add, h'.add]

theorem asinPoly_alike (z : BitVec 32) : asinPoly V z = asinPoly V' z := by
  unfold asinPoly; rw [h.mul, h'.mul, h.add, h'.add]

theorem logPoly_alike (z : BitVec 32) : logPoly V z = logPoly V' z := by
  unfold logPoly; rw [h.mul, h'.mul, h.add, h'.add, h.sub, h'.sub]

theorem expPoly_alike (o z : BitVec 32) : expPoly V o z = expPoly V' o z := by
  unfold expPoly; rw [h.mul, h'.mul, h.add, h'.add]

theorem expReduce_alike (x z : BitVec 32) : expReduce V x z = expReduce V' x z := by
  unfold expReduce; rw [h.mul, h'.mul, h.sub, h'.sub]

theorem frexp_alike (x : BitVec 32) : frexp V x = frexp V' x := by
  unfold frexp; rw [h.mask, h'.mask, h.mask1, h'.mask1, h.andnot, h'.andnot]

theorem ldexp_alike (x n : BitVec 32) : ldexp V x n = ldexp V' x n := by
  unfold ldexp; rw [h.mask, h'.mask, h.andnot, h'.andnot]

theorem tanhSmall_alike (x y : BitVec 32) : tanhSmall V x y = tanhSmall V' x y := by
  unfold tanhSmall; rw [h.mul, h'.mul, h.add, h'.add]

theorem sinAbs_alike (x : BitVec 32) : sinAbs V x = sinAbs V' x := by
  unfold sinAbs intMaskEq
  dsimp only
  rw [h.quadrant_alike h', h.ofInt, h'.ofInt, h.reduceArg_alike h', h.sel, h'.sel, h.mul, h'.mul, h.cosPoly_alike h',
    h.sinPoly_alike h']

theorem vecSin_alike (x : BitVec 32) : vecSin V x = vecSin V' x := by
  unfold vecSin
  dsimp only
  rw [h.sign, h'.sign, h.abs, h'.abs, h.sinAbs_alike h']

theorem vecCos_alike (x : BitVec 32) : vecCos V x = vecCos V' x := by
  unfold vecCos intMaskEq
  dsimp only
  rw [h.abs, h'.abs, h.quadrant_alike h', h.ofInt, h'.ofInt, h.reduceArg_alike h', h.sel, h'.sel, h.mul, h'.mul,
    h.cosPoly_alike h', h.sinPoly_alike h', h.intAndnot, h'.intAndnot]

theorem vecTan_alike (x : BitVec 32) : vecTan V x = vecTan V' x := by
  unfold vecTan intMaskEq
  dsimp only
  rw [h.abs, h'.abs, h.sign, h'.sign, h.quadrant_alike h', h.ofInt, h'.ofInt, h.reduceArg_alike h', h.sel, h'.sel,
    h.div, h'.div, h.tanPoly_alike h']

theorem vecLog_alike (x : BitVec 32) : vecLog V x = vecLog V' x := by
  unfold vecLog
  dsimp only
  rw [h.frexp_alike h', h.lt, h'.lt, h.one, h'.one, h.add, h'.add, h.sub, h'.sub, h.mul, h'.mul, h.ofInt, h'.ofInt,
    h.logPoly_alike h']

theorem vecLogBase_alike (r x : BitVec 32) : vecLogBase V r x = vecLogBase V' r x := by
  unfold vecLogBase; rw [h.mul, h'.mul, h.vecLog_alike h']

theorem gt_alike {x y : BitVec 32} (hx : Num binary32 x) (hy : Num binary32 y) : V.maskGt x y = V'.maskGt x y := by
  rw [h.gt x y hx hy, h'.gt x y hx hy]

theorem vecAsin_alike {x : BitVec 32} (hx : Num binary32 x) : vecAsin V x = vecAsin V' x := by
  have ha : Num binary32 (x &&& 0x7fffffff#32) := by
    have := abs_and h x
    rw [h.abs] at this
    rw [this]; unfold Num; rw [binary32.isNaN_fabs]; exact hx
  unfold vecAsin
  dsimp only
  rw [h.abs, h'.abs, h.sign, h'.sign, h.one, h'.one, h.half, h'.half, h.zero, h'.zero,
    h.gt _ _ ha (by decide +kernel), h'.gt _ _ ha (by decide +kernel), h.gt _ 0x3f800000#32 ha (by decide),
    h'.gt _ 0x3f800000#32 ha (by decide)]
  simp only [h.sel, h'.sel, h.sqrt, h'.sqrt, h.mul, h'.mul, h.sub, h'.sub, h.asinPoly_alike h']

theorem atanAbs_alike {x : BitVec 32} (hx : Num binary32 x) : atanAbs V x = atanAbs V' x := by
  unfold atanAbs
  dsimp only
  rw [h.gt _ _ hx (by decide +kernel), h'.gt _ _ hx (by decide +kernel), h.gt _ _ hx (by decide +kernel),
    h'.gt _ _ hx (by decide +kernel)]
  simp only [h.sel, h'.sel, h.neg, h'.neg, h.one, h'.one, h.zero, h'.zero, h.add, h'.add, h.sub, h'.sub, h.mul, h'.mul,
    h.div, h'.div]

theorem vecAtan_alike {x : BitVec 32} (hx : Num binary32 x) : vecAtan V x = vecAtan V' x := by
  unfold vecAtan
  dsimp only
  rw [h.sign, h'.sign, abs_and h, abs_and h', h.atanAbs_alike h']
  unfold Num; rw [binary32.isNaN_fabs]; exact hx

theorem vecAcos_alike {x : BitVec 32} (hx : IsFin binary32 x) : vecAcos V x = vecAcos V' x := by
  have hf : IsFin binary32 (binary32.fabs x) := by unfold IsFin; rw [binary32.isFinite_fabs]; exact hx
  by_cases h1 : |binary32.toReal x| ≤ 1
  · rw [vecAcos_eq h hx h1 rfl, vecAcos_eq h' hx h1 rfl, h.add, h'.add, h.sub, h'.sub, h.sqrt, h'.sqrt, h.mul, h'.mul,
      h.one, h'.one, h.half, h'.half]
    have e : ∀ y, Num binary32 y → vecAsin V y = vecAsin V' y := fun y hy => h.vecAsin_alike h' hy
    rw [e]
    split
    · next hg =>
      have := (asin_reduced h hf (by rw [binary32.toReal_fabs]; exact hg) (by rw [binary32.toReal_fabs]; exact h1) rfl).1
      rw [h.sqrt, h.mul, h.sub, h.one, h.half] at this
      exact binary32.isFinite_not_nan this
    · exact binary32.isFinite_not_nan hx
  · have z : ∀ {V : LaneOps 32}, V.Ieee → vecAcos V x = 0#32 := fun {V} h => by
      have g : V.maskGt (binary32.fabs x) V.one = maskOf true := by
        rw [gtHalf h hf (q := 1) (by rw [h.one]; decide +kernel), binary32.toReal_fabs,
          decide_eq_true (p := ((1 : ℚ) : ℝ) < |binary32.toReal x|) (by push_cast; linarith)]
      unfold vecAcos
      dsimp only
      rw [abs_and h, g]
      exact (h.sel _ _ true).trans h.zero
    rw [z h, z h']

theorem expScale_alike {x : BitVec 32} (hx : IsFin binary32 x) (hr : |binary32.toReal x| ≤ 89) :
    expScale V x = expScale V' x := by
  have c := Tr.const (x := litF 1.44269504088896341) (12102203/2^23) (1.4428) (by decide +kernel) (by norm_num)
  have t := Tr.mul (D := 129) (E := 8/10^6) c (Tr.exact hx hr) (by norm_num) (by norm_num) (by norm_num)
  have hcode := code_lt_of_value (lt_of_le_of_lt t.abs_le (by norm_num))
  unfold expScale
  rw [h.mul, h'.mul, h.round _ hcode, h'.round _ hcode]

theorem expApprox_alike {x : BitVec 32} (hx : IsFin binary32 x) (hr : |binary32.toReal x| ≤ 89) :
    expApprox V x = expApprox V' x := by
  unfold expApprox
  dsimp only
  rw [h.expScale_alike h' hx hr, h.toInt, h'.toInt, h.one, h'.one, h.expReduce_alike h', h.expPoly_alike h', h.ldexp_alike h']

theorem vecExpTanh_alike {x : BitVec 32} (hx : IsFin binary32 x) (hr : |binary32.toReal x| ≤ 89) :
    vecExpTanh V x = vecExpTanh V' x := by
  unfold vecExpTanh
  dsimp only
  rw [h.expScale_alike h' hx hr, h.toInt, h'.toInt, h.expReduce_alike h', h.expPoly_alike h', h.ldexp_alike h']

theorem vecExp_alike {x : BitVec 32} (hx : Num binary32 x) : vecExp V x = vecExp V' x := by
  rw [vecExp_cases h hx, vecExp_cases h' hx]
  by_cases c1 : binary32.ltb x 0xc2b00000#32 = true
  · rw [if_pos c1, if_pos c1]
  by_cases c2 : binary32.ltb 0x42b17218#32 x = true
  · rw [if_neg c1, if_neg c1, if_pos c2, if_pos c2]
  rw [if_neg c1, if_neg c1, if_neg c2, if_neg c2]
  have v1 : binary32.toEReal 0x42b17218#32 = ((11629080 / 2 ^ 17 : ℝ) : EReal) := by
    rw [binary32.toEReal_of_finite (by decide), maxlogf_val]
  have v2 : binary32.toEReal 0xc2b00000#32 = ((-88 : ℝ) : EReal) := by
    rw [binary32.toEReal_of_finite (by decide), minlogf_val]
  rw [binary32.ltb_iff_value, v2] at c1
  rw [binary32.ltb_iff_value, v1] at c2
  have l1 : ((-88 : ℝ) : EReal) ≤ binary32.toEReal x := not_lt.mp fun c => c1 ⟨hx, by decide, c⟩
  have l2 : binary32.toEReal x ≤ ((11629080 / 2 ^ 17 : ℝ) : EReal) := not_lt.mp fun c => c2 ⟨by decide, hx, c⟩
  rcases Fmt.num_cases (F := binary32) hx with ⟨-, -, e⟩ | ⟨-, -, e⟩ | ⟨f, -, e⟩
  · rw [e] at l1; exact absurd l1 (by simp)
  · rw [e] at l2; exact absurd l2 (by simp)
  · rw [e, EReal.coe_le_coe_iff] at l1 l2
    refine h.expApprox_alike h' f (abs_le.mpr ⟨by linarith, l2.trans (by norm_num)⟩)

theorem vecTanh_alike {x : BitVec 32} (hx : IsFin binary32 x) : vecTanh V x = vecTanh V' x := by
  rw [vecTanh_eq h hx rfl, vecTanh_eq h' hx rfl]
  by_cases c1 : |binary32.toReal x| < 0.625
  · rw [if_pos c1, if_pos c1, h.tanhSmall_alike h']
  by_cases c2 : 22 < |binary32.toReal x|
  · rw [if_neg c1, if_neg c1, if_pos c2, if_pos c2]
  rw [if_neg c1, if_neg c1, if_neg c2, if_neg c2, h.sub, h'.sub, h.div, h'.div, h.add, h'.add, h.one, h'.one]
  have hf : IsFin binary32 (binary32.fabs x) := by unfold IsFin; rw [binary32.isFinite_fabs]; exact hx
  have va := binary32.toReal_fabs x
  have p : 0 < binary32.toReal (binary32.fabs x) := by rw [va]; norm_num at c1; linarith
  obtain ⟨fd, ed⟩ := double32 hf p.ne' (by rw [abs_of_pos p, va]; norm_num at c2 ⊢; linarith)
  rw [h.vecExpTanh_alike h' fd]
  rw [ed, va, abs_of_nonneg (by positivity)]
  linarith

theorem vecPow_alike (x : BitVec 32) {y : BitVec 32} (hy : Num binary32 (binary32.mul y (vecLog V x))) :
    vecPow V x y = vecPow V' x y := by
  unfold vecPow
  dsimp only
  rw [h.eq, h'.eq, h.sel, h'.sel, h.mul, h'.mul, ← h.vecLog_alike h', h.zero, h'.zero, h.vecExp_alike h' hy]

theorem vecSignedPow_alike (x : BitVec 32) {y : BitVec 32}
    (hy : ∀ x, Num binary32 (binary32.mul y (vecLog V x))) : vecSignedPow V x y = vecSignedPow V' x y := by
  unfold vecSignedPow
  dsimp only
  rw [h.sign, h'.sign, h.vecPow_alike h' _ (hy _)]

end LaneOps.Ieee
end Nova
