import Verif.Lemmas.SimdMath
import Verif.SpecNaN

/-!
# NaN operands
-/

namespace Nova
open FP VecMath

namespace FP.Fmt
variable {w : Nat} (F : Fmt w)

/-- `x` is a NaN. -/
def N (x : BitVec w) : Prop := F.isNaN x = true

variable {F}

namespace N
variable {x y z : BitVec w}

theorem add_l (h : F.N x) : F.N (F.add x y) := by
  unfold N add at *; rw [h, Bool.true_or, if_pos rfl]; exact F.isNaN_nan2 (by rw [h, Bool.true_or])
theorem add_r (h : F.N y) : F.N (F.add x y) := by
  unfold N add at *; rw [h, Bool.or_true, if_pos rfl]; exact F.isNaN_nan2 (by rw [h, Bool.or_true])
theorem sub_l (h : F.N x) : F.N (F.sub x y) := by
  unfold N sub at *; rw [h, Bool.true_or, if_pos rfl]; exact F.isNaN_nan2 (by rw [h, Bool.true_or])
theorem sub_r (h : F.N y) : F.N (F.sub x y) := by
  unfold N sub at *; rw [h, Bool.or_true, if_pos rfl]; exact F.isNaN_nan2 (by rw [h, Bool.or_true])
theorem mul_l (h : F.N x) : F.N (F.mul x y) := by
  unfold N mul at *; dsimp only; rw [h, Bool.true_or, if_pos rfl]; exact F.isNaN_nan2 (by rw [h, Bool.true_or])
theorem mul_r (h : F.N y) : F.N (F.mul x y) := by
  unfold N mul at *; dsimp only; rw [h, Bool.or_true, if_pos rfl]; exact F.isNaN_nan2 (by rw [h, Bool.or_true])
theorem div_l (h : F.N x) : F.N (F.div x y) := by
  unfold N div at *; dsimp only; rw [h, Bool.true_or, if_pos rfl]; exact F.isNaN_nan2 (by rw [h, Bool.true_or])
theorem div_r (h : F.N y) : F.N (F.div x y) := by
  unfold N div at *; dsimp only; rw [h, Bool.or_true, if_pos rfl]; exact F.isNaN_nan2 (by rw [h, Bool.or_true])
theorem fma_1 (h : F.N x) : F.N (F.fma x y z) := by
  unfold N fma at *; dsimp only; rw [h, Bool.true_or, if_pos rfl]; exact F.isNaN_nan2 (by rw [h, Bool.true_or])
theorem fma_2 (h : F.N y) : F.N (F.fma x y z) := by
  unfold N fma at *; dsimp only; rw [h, Bool.or_true, if_pos rfl]; exact F.isNaN_nan2 (by rw [h, Bool.or_true])
theorem fma_3 (h : F.N z) : F.N (F.fma x y z) := by
  unfold N fma at *; dsimp only
  by_cases h1 : (F.isNaN x || F.isNaN y) = true
  · rw [if_pos h1]; exact F.isNaN_nan2 h1
  · rw [if_neg h1, if_pos h]; exact F.isNaN_quiet h
theorem sqrt (h : F.N x) : F.N (F.sqrt x) := by
  unfold N Fmt.sqrt at *; rw [if_pos h]; exact F.isNaN_quiet h
theorem round {m : Mode} (h : F.N x) : F.N (F.roundInt m x) := by
  unfold N roundInt at *; rw [if_pos h]; exact F.isNaN_quiet h
theorem negate (h : F.N x) : F.N (F.negate x) := by unfold N at *; rw [F.isNaN_negate]; exact h
theorem fabs (h : F.N x) : F.N (F.fabs x) := by unfold N at *; rw [F.isNaN_fabs]; exact h

theorem maxArm (h : F.N x ∨ F.N y) : F.N (FP.Fmt.maxArm F x y) := by
  have e : (F.isNaN x || F.isNaN y) = true := by unfold N at h; rw [Bool.or_eq_true]; exact h
  unfold N FP.Fmt.maxArm; rw [if_pos e]; exact F.isNaN_nan2 e
theorem minArm (h : F.N x ∨ F.N y) : F.N (FP.Fmt.minArm F x y) := by
  have e : (F.isNaN x || F.isNaN y) = true := by unfold N at h; rw [Bool.or_eq_true]; exact h
  unfold N FP.Fmt.minArm; rw [if_pos e]; exact F.isNaN_nan2 e

end N

/-- Only the bits below the sign matter. -/
theorem n_congr {x y : BitVec w} (h : F.fabs x = F.fabs y) (hx : F.N x) : F.N y := by
  unfold N at *; rw [← F.isNaN_fabs, ← h, F.isNaN_fabs]; exact hx

end FP.Fmt


theorem nan_xor_sign {x s y : BitVec 32} (hs : s = y &&& 0x80000000#32) (h : binary32.N x) : binary32.N (x ^^^ s) := by
  subst hs
  refine Fmt.n_congr ?_ h
  unfold Fmt.fabs
  rw [signBit32]
  ext i hi
  simp only [BitVec.getElem_and, BitVec.getElem_xor, BitVec.getElem_not]
  cases (0x80000000#32)[i] <;> simp

theorem nan_sign_xor {x s y : BitVec 32} (hs : s = y &&& 0x80000000#32) (h : binary32.N x) : binary32.N (s ^^^ x) := by
  rw [BitVec.xor_comm]; exact nan_xor_sign hs h

theorem nan_or_sign {x s y : BitVec 32} (hs : s = y &&& 0x80000000#32) (h : binary32.N x) : binary32.N (x ||| s) := by
  subst hs
  refine Fmt.n_congr ?_ h
  unfold Fmt.fabs
  rw [signBit32]
  ext i hi
  simp only [BitVec.getElem_and, BitVec.getElem_or, BitVec.getElem_not]
  cases (0x80000000#32)[i] <;> simp

theorem nan_sign_or {x s y : BitVec 32} (hs : s = y &&& 0x80000000#32) (h : binary32.N x) : binary32.N (s ||| x) := by
  rw [BitVec.or_comm]; exact nan_or_sign hs h

theorem nan_xor_sign64 {x s y : BitVec 64} (hs : s = y &&& 0x8000000000000000#64) (h : binary64.N x) :
    binary64.N (x ^^^ s) := by
  subst hs
  refine Fmt.n_congr ?_ h
  unfold Fmt.fabs
  rw [signBit64]
  ext i hi
  simp only [BitVec.getElem_and, BitVec.getElem_xor, BitVec.getElem_not]
  cases (0x8000000000000000#64)[i] <;> simp

theorem nan_sign_or64 {x s y : BitVec 64} (hs : s = y &&& 0x8000000000000000#64) (h : binary64.N x) :
    binary64.N (s ||| x) := by
  rw [BitVec.or_comm]
  subst hs
  refine Fmt.n_congr ?_ h
  unfold Fmt.fabs
  rw [signBit64]
  ext i hi
  simp only [BitVec.getElem_and, BitVec.getElem_or, BitVec.getElem_not]
  cases (0x8000000000000000#64)[i] <;> simp

theorem nan_and_abs {x : BitVec 32} (h : binary32.N x) : binary32.N (x &&& 0x7fffffff#32) := by
  rw [BitVec.and_comm, fabs32]; exact h.fabs

/-- A class that works with IEEE instructions and whose `round` keeps NaNs. -/
structure LaneOps.NaNs (V : LaneOps 32) : Prop extends V.Ieee where
  roundNaN : ∀ x, binary32.N x → binary32.N (V.round x)

section
attribute [local irreducible] litD litF Fmt.add Fmt.mul Fmt.div Fmt.sub Fmt.fma Fmt.ltb Fmt.leb Fmt.eqb
  Fmt.roundInt Fmt.toInt32 Fmt.ofInt32 Fmt.sqrt

variable {V : LaneOps 32}

theorem vecRound_nan (ha : V.add = binary32.add) (hs : V.sub = binary32.sub) (hm : V.signMask = 0x80000000#32)
    {x : BitVec 32} (h : binary32.N x) : binary32.N (vecRound V x) := by
  unfold vecRound
  dsimp only
  rw [ha, hs, hm]
  exact nan_sign_xor rfl (nan_sign_xor rfl h).add_l.sub_l

theorem sse_nans (f : Sse.Flags) (P : Platform 32) : (Sse.ops f (P.x86 binary32)).NaNs where
  toIeee := sse_ieee f P
  roundNaN x hx := by
    change binary32.N (Sse.round f (P.x86 binary32) x)
    unfold Sse.round
    cases f.sse41
    · rw [if_neg (by decide)]
      exact vecRound_nan rfl rfl (sse_signMask _ _) hx
    · rw [if_pos rfl]; exact Fmt.N.round hx

theorem avx_nans (f : Bool) (P : Platform 32) : (AvxF.ops f (P.x86 binary32)).NaNs where
  toIeee := avx_ieee f P
  roundNaN _ hx := Fmt.N.round hx

theorem intMaskEq_sel (h : V.Ieee) {a b : BitVec 32} (c d : BitVec 32) (ha : binary32.N a) (hb : binary32.N b) :
    binary32.N (V.select a b (intMaskEq c d)) := by
  unfold intMaskEq
  rw [h.sel]
  split <;> assumption

theorem nan_sel (h : V.Ieee) {a b : BitVec 32} (c : Bool) (ha : binary32.N a) (hb : binary32.N b) :
    binary32.N (V.select a b (maskOf c)) := by
  rw [h.sel]
  split <;> assumption

theorem reduceArg_nan (h : V.Ieee) {x : BitVec 32} (y : BitVec 32) (hx : binary32.N x) : binary32.N (reduceArg V x y) := by
  unfold reduceArg
  rw [h.sub]
  exact hx.sub_l.sub_l.sub_l

theorem cosPoly_nan (h : V.Ieee) {z : BitVec 32} (hz : binary32.N z) : binary32.N (cosPoly V z) := by
  unfold cosPoly
  simp only [h.sub, h.add, h.mul]
  exact (Fmt.N.mul_r hz).sub_l.add_l

theorem sinPoly_nan (h : V.Ieee) {z b : BitVec 32} (hb : binary32.N b) : binary32.N (sinPoly V z b) := by
  unfold sinPoly
  simp only [h.sub, h.add, h.mul]
  exact Fmt.N.add_r hb

theorem swap_sign (j : BitVec 32) : ∃ y, (j &&& 4#32) <<< 29 = y &&& 0x80000000#32 := by
  refine ⟨j <<< 29, ?_⟩
  rw [show (0x80000000#32) = 4#32 <<< 29 by decide, ← BitVec.shiftLeft_and_distrib]

theorem vecSin_nan (h : V.Ieee) {x : BitVec 32} (hx : binary32.N x) : binary32.N (vecSin V x) := by
  unfold vecSin sinAbs
  dsimp only
  rw [h.sign, h.abs]
  obtain ⟨y, hy⟩ := swap_sign (quadrant V (x &&& 0x7fffffff#32))
  rw [hy, ← BitVec.xor_assoc]
  refine nan_xor_sign rfl (nan_xor_sign rfl ?_)
  have hb := reduceArg_nan h (V.convertToFloat (quadrant V (x &&& 0x7fffffff#32))) (nan_and_abs hx)
  refine intMaskEq_sel h _ _ (cosPoly_nan h ?_) (sinPoly_nan h hb)
  rw [h.mul]; exact hb.mul_l

theorem vecCos_nan (h : V.Ieee) {x : BitVec 32} (hx : binary32.N x) : binary32.N (vecCos V x) := by
  unfold vecCos
  dsimp only
  rw [h.abs, h.intAndnot]
  obtain ⟨y, hy⟩ := swap_sign (~~~(quadrant V (x &&& 0x7fffffff#32) - 2#32))
  rw [hy]
  refine nan_xor_sign rfl ?_
  have hb := reduceArg_nan h (V.convertToFloat (quadrant V (x &&& 0x7fffffff#32))) (nan_and_abs hx)
  refine intMaskEq_sel h _ _ (cosPoly_nan h ?_) (sinPoly_nan h hb)
  rw [h.mul]; exact hb.mul_l

theorem vecTan_nan (h : V.Ieee) {x : BitVec 32} (hx : binary32.N x) : binary32.N (vecTan V x) := by
  unfold vecTan
  dsimp only
  rw [h.sign, h.abs]
  refine nan_xor_sign rfl ?_
  have hb := reduceArg_nan h (V.convertToFloat (quadrant V (x &&& 0x7fffffff#32))) (nan_and_abs hx)
  have hp : binary32.N (tanPoly V (reduceArg V (x &&& 0x7fffffff#32)
      (V.convertToFloat (quadrant V (x &&& 0x7fffffff#32))))) := by
    unfold tanPoly
    dsimp only
    rw [h.add]
    exact hb.add_l
  refine intMaskEq_sel h _ _ ?_ hp
  rw [h.div]; exact Fmt.N.div_r hp

theorem vecAtan_nan (h : V.Ieee) (hgt : ∀ x y, ∃ c, V.maskGt x y = maskOf c) {x : BitVec 32} (hx : binary32.N x) :
    binary32.N (vecAtan V x) := by
  unfold vecAtan
  dsimp only
  rw [h.sign, h.abs]
  refine nan_xor_sign rfl ?_
  have ha := nan_and_abs hx
  generalize x &&& 0x7fffffff#32 = a at ha
  unfold atanAbs
  dsimp only
  obtain ⟨c1, e1⟩ := hgt a (litD 0.41421356237309504880168872420969807856967187537695)
  obtain ⟨c2, e2⟩ := hgt a (litD 2.41421356237309504880168872420969807856967187537698)
  rw [e1, e2]
  have hsel : binary32.N (V.select a (V.select (V.div (V.sub a V.one) (V.add a V.one)) (V.div (V.neg V.one) a)
      (maskOf c2)) (maskOf c1)) := by
    refine nan_sel h _ ha (nan_sel h _ ?_ ?_)
    · rw [h.div, h.sub]; exact ha.sub_l.div_l
    · rw [h.div]; exact Fmt.N.div_r ha
  rw [h.add] at hsel ⊢
  exact (Fmt.N.add_r hsel).add_l

/-- The comparison `>` is false for a NaN (SSE). -/
def LaneOps.GtFalse (V : LaneOps 32) : Prop := ∀ x y, binary32.N x → V.maskGt x y = maskOf false

/-- The comparison `>` is true for a NaN (AVX). -/
def LaneOps.GtTrue (V : LaneOps 32) : Prop := ∀ x y, binary32.N x → V.maskGt x y = maskOf true

theorem sse_gtFalse (f : Sse.Flags) (P : Platform 32) : (Sse.ops f (P.x86 binary32)).GtFalse := fun x y hx => by
  change maskOf (binary32.ltb y x) = _
  rw [binary32.ltb_nan (Or.inr hx)]

theorem avx_gtTrue (f : Bool) (P : Platform 32) : (AvxF.ops f (P.x86 binary32)).GtTrue := fun x y hx => by
  change maskOf (!binary32.leb x y) = _
  rw [binary32.leb_nan (Or.inl hx)]; rfl

theorem asinPoly_nan (h : V.Ieee) {x : BitVec 32} (hx : binary32.N x) : binary32.N (asinPoly V x) := by
  unfold asinPoly
  dsimp only
  rw [h.add]
  exact hx.add_l

theorem vecAsin_nan (h : V.Ieee) (hg : V.GtFalse) {x : BitVec 32} (hx : binary32.N x) : binary32.N (vecAsin V x) := by
  unfold vecAsin
  dsimp only
  rw [h.sign, h.abs]
  have ha := nan_and_abs hx
  rw [hg _ _ ha, hg _ _ ha]
  simp only [h.sel, Bool.false_eq_true, if_false]
  exact nan_xor_sign rfl (asinPoly_nan h ha)

theorem vecAcos_nan (h : V.Ieee) (hg : V.GtFalse) {x : BitVec 32} (hx : binary32.N x) : binary32.N (vecAcos V x) := by
  unfold vecAcos
  dsimp only
  rw [h.abs]
  have ha := nan_and_abs hx
  rw [hg _ _ ha, hg _ _ ha, hg _ _ hx, hg _ _ hx]
  simp only [h.sel, Bool.false_eq_true, if_false]
  rw [h.sub, h.add]
  exact Fmt.N.sub_r (vecAsin_nan h hg hx).add_l

theorem ldexp_nan (h : V.Ieee) {x z : BitVec 32} (hx : binary32.N x) (hz : binary32.N z) :
    binary32.N (ldexp V x (V.truncateToInt z)) := by
  have e : V.truncateToInt z = 0x80000000#32 := by
    rw [h.toInt]
    unfold Fmt.toInt32
    have : binary32.isFinite z = false := by
      unfold Fmt.N Fmt.isNaN at hz
      unfold Fmt.isFinite
      rw [decide_eq_true_eq] at hz
      exact decide_eq_false (by omega)
    rw [this]; rfl
  unfold ldexp
  dsimp only
  rw [e, show (0x80000000#32 <<< 23) = 0#32 by decide, BitVec.zero_add, h.mask, h.andnot]
  have : (~~~0x7F800000#32 &&& x) ||| (0x7F800000#32 &&& x) = x := by
    ext i hi
    simp only [BitVec.getElem_and, BitVec.getElem_or, BitVec.getElem_not]
    cases (0x7F800000#32)[i] <;> simp
  rw [this]; exact hx

theorem expScale_nan (h : V.NaNs) {x : BitVec 32} (hx : binary32.N x) : binary32.N (expScale V x) := by
  unfold expScale
  rw [h.mul]
  exact h.roundNaN _ (Fmt.N.mul_r hx)

theorem expReduce_nan (h : V.Ieee) {x z : BitVec 32} (hx : binary32.N x) : binary32.N (expReduce V x z) := by
  unfold expReduce
  dsimp only
  rw [h.sub]
  exact hx.sub_l.sub_l

theorem expPoly_nan (h : V.Ieee) {x o : BitVec 32} (hx : binary32.N x) : binary32.N (expPoly V o x) := by
  unfold expPoly
  rw [h.add, h.mul]
  exact Fmt.N.add_r hx.mul_l

theorem expApprox_nan (h : V.NaNs) {x : BitVec 32} (hx : binary32.N x) : binary32.N (expApprox V x) := by
  unfold expApprox
  exact ldexp_nan h.toIeee (expPoly_nan h.toIeee (expReduce_nan h.toIeee hx)) (expScale_nan h hx)

theorem vecExpTanh_nan (h : V.NaNs) {x : BitVec 32} (hx : binary32.N x) : binary32.N (vecExpTanh V x) := by
  unfold vecExpTanh
  exact ldexp_nan h.toIeee (expPoly_nan h.toIeee (expReduce_nan h.toIeee hx)) (expScale_nan h hx)

theorem lt_nan (h : V.Ieee) {x : BitVec 32} (y : BitVec 32) (hx : binary32.N x) : V.maskLt x y = maskOf false := by
  rw [h.lt, binary32.ltb_nan (Or.inl hx)]

theorem vecExp_nan (h : V.NaNs) (hg : V.GtFalse) {x : BitVec 32} (hx : binary32.N x) : binary32.N (vecExp V x) := by
  unfold vecExp
  dsimp only
  rw [hg _ _ hx, lt_nan h.toIeee _ hx]
  simp only [h.sel, Bool.false_eq_true, if_false]
  exact expApprox_nan h hx

theorem vecExp_nan_avx (h : V.Ieee) (hg : V.GtTrue) {x : BitVec 32} (hx : binary32.N x) : vecExp V x = fltMax := by
  unfold vecExp
  dsimp only
  rw [hg _ _ hx, lt_nan h _ hx]
  simp only [h.sel, Bool.false_eq_true, if_false, if_true]

theorem vecAsin_nan_avx (h : V.Ieee) (hg : V.GtTrue) {x : BitVec 32} (hx : binary32.N x) : vecAsin V x = 0#32 := by
  unfold vecAsin
  dsimp only
  rw [h.abs, hg _ _ (nan_and_abs hx), hg _ _ (nan_and_abs hx), h.sel _ V.zero, if_pos rfl, h.zero]

theorem vecAcos_nan_avx (h : V.Ieee) (hg : V.GtTrue) {x : BitVec 32} (hx : binary32.N x) : vecAcos V x = 0#32 := by
  unfold vecAcos
  dsimp only
  rw [h.abs, hg _ _ (nan_and_abs hx), hg _ _ (nan_and_abs hx), h.sel _ V.zero, if_pos rfl, h.zero]

theorem vecTanh_nan (h : V.NaNs) (hg : V.GtFalse) {x : BitVec 32} (hx : binary32.N x) : binary32.N (vecTanh V x) := by
  unfold vecTanh
  dsimp only
  rw [h.sign]
  have ha := nan_xor_sign (y := x) rfl hx
  rw [hg _ _ ha, lt_nan h.toIeee _ ha]
  simp only [h.sel, Bool.false_eq_true, if_false]
  refine nan_or_sign rfl ?_
  rw [h.sub, h.div, h.add]
  exact Fmt.N.sub_r (Fmt.N.div_r (vecExpTanh_nan h ha.add_l).add_l)

theorem vecTanh_nan_avx (h : V.Ieee) (hg : V.GtTrue) {x : BitVec 32} (hx : binary32.N x) :
    vecTanh V x = 0x3f800000#32 ||| (x &&& 0x80000000#32) := by
  unfold vecTanh
  dsimp only
  rw [h.sign]
  have ha := nan_xor_sign (y := x) rfl hx
  rw [hg _ _ ha, lt_nan h _ ha, h.sel, h.sel, if_neg (by decide), if_pos rfl, h.one]

theorem vecPow_nan (h : V.NaNs) (hg : V.GtFalse) {x y : BitVec 32} (hx : binary32.eqb x 0#32 = false) (hy : binary32.N y) :
    binary32.N (vecPow V x y) := by
  unfold vecPow
  dsimp only
  rw [h.eq, h.zero, hx, h.sel, if_neg (by decide), h.mul]
  exact vecExp_nan h hg hy.mul_l

theorem vecPow_nan_avx (h : V.Ieee) (hg : V.GtTrue) {x y : BitVec 32} (hx : binary32.eqb x 0#32 = false)
    (hy : binary32.N y) : vecPow V x y = fltMax := by
  unfold vecPow
  dsimp only
  rw [h.eq, h.zero, hx, h.sel, if_neg (by decide), h.mul]
  exact vecExp_nan_avx h hg hy.mul_l

end

end Nova
