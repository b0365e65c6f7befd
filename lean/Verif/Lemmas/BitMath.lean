import Verif.Lemmas.BitLanes
import Verif.Float.Arith

/-! # Sign handling in the templates of detail/vec_math.hpp -/

namespace Nova
open FP VecMath

section sqrt
variable {w : Nat} (F : Fmt w)

/-- The square root of a number without sign bit is a number without sign bit. -/
theorem sqrt_nonneg {x : BitVec w} (hx : F.isNaN x = false) (hn : F.neg x = false) :
    F.neg (F.sqrt x) = false ∧ F.isNaN (F.sqrt x) = false := by
  unfold Fmt.sqrt
  rw [hx, hn]
  simp only [Bool.false_eq_true, if_false]
  by_cases h0 : F.isZero x = true
  · rw [if_pos h0]; exact ⟨hn, hx⟩
  · rw [if_neg h0]
    by_cases hi : F.isInf x = true
    · rw [if_pos hi]; exact ⟨hn, hx⟩
    · rw [if_neg hi]; exact ⟨F.packRnd_neg _ _ _, F.packRnd_not_nan _ _ _⟩

/-- The result of both versions of signed_sqrt on a number: the sign of the argument and the square
root of the magnitude. -/
def signedSqrtResult (x : BitVec w) : BitVec w := F.pack (F.neg x) (F.code (F.sqrt (F.fabs x)))

theorem signedSqrt_scalar {x : BitVec w} (hx : F.isNaN x = false) :
    Scalar.signedSqrt F x = signedSqrtResult F x := by
  unfold Scalar.signedSqrt signedSqrtResult
  rw [F.leb_of_num F.isNaN_posZero hx, F.key_posZero]
  cases hn : F.neg x
  · have h := sqrt_nonneg F hx hn
    rw [F.fabs_eq_self hn, F.key_nonneg hn]
    have hp := F.pack_self (F.sqrt x)
    rw [h.1] at hp
    rw [if_pos (by simp), hp]
  · by_cases h0 : F.code x = 0
    · have hk : F.key x = 0 := F.key_eq_zero.mpr h0
      have h1 : F.sqrt x = x := by unfold Fmt.sqrt; simp [hx, Fmt.isZero, h0]
      have h2 : F.sqrt (F.fabs x) = F.fabs x := by unfold Fmt.sqrt; simp [hx, Fmt.isZero, h0]
      rw [if_pos (by simp [hk]), h1, h2, F.code_fabs, ← hn, F.pack_self]
    · have hk : ¬ (0 : Int) ≤ F.key x := by rw [F.key_neg hn]; omega
      rw [if_neg (by simpa using hk), ← F.fabs_eq_negate hn]
      have h := sqrt_nonneg F (x := F.fabs x) (by simpa using hx) (by simp)
      have hp := F.pack_self (F.negate (F.sqrt (F.fabs x)))
      rw [F.neg_negate, h.1, F.code_negate] at hp
      exact hp.symm

theorem vecSignedSqrt_eq (V : LaneOps w) (hs : V.signMask = F.signBit) (hq : V.sqrt = F.sqrt)
    {x : BitVec w} (hx : F.isNaN x = false) : vecSignedSqrt V x = signedSqrtResult F x := by
  unfold vecSignedSqrt signedSqrtResult
  simp only []
  rw [hs, F.xor_sign, hq]
  have h := sqrt_nonneg F (x := F.fabs x) (by simpa using hx) (by simp)
  apply F.ext
  · rw [F.neg_or_sign, h.1, F.neg_pack _ (F.code_lt _)]; simp
  · rw [F.code_or_sign, F.code_pack _ (F.code_lt _)]

end sqrt

/-- The builds whose `signed_sqrt` is exact: all but NEON, which multiplies by an estimate. -/
def Build32.exactSqrt : Build32 → Bool
  | .neon => false
  | _ => true

theorem signedSqrt_lane32 (b : Build32) (hb : b.exactSqrt = true) (P : Platform 32) {x : BitVec 32}
    (hx : binary32.isNaN x = false) : (b.lane P).signedSqrt x = signedSqrtResult binary32 x := by
  cases b with
  | generic => exact signedSqrt_scalar binary32 hx
  | sse s f =>
    exact vecSignedSqrt_eq binary32 (Sse.ops f (P.x86 binary32))
      ((sse_signMask _ P).trans signBit32.symm) rfl hx
  | avx f => exact vecSignedSqrt_eq binary32 (AvxF.ops f (P.x86 binary32)) signBit32.symm rfl hx
  | neon => exact absurd hb (by decide)
  | altivec => exact signedSqrt_scalar binary32 hx

theorem signedSqrt_lane64 (b : Build64) (P : Platform 64) {x : BitVec 64}
    (hx : binary64.isNaN x = false) : (b.lane P).signedSqrt x = signedSqrtResult binary64 x := by
  cases b with
  | generic => exact signedSqrt_scalar binary64 hx
  | sse2 s f =>
    exact vecSignedSqrt_eq binary64 (Dbl.ops ⟨false, s, f⟩ (P.x86 binary64))
      ((dbl_signMask false).trans signBit64.symm) rfl hx
  | avx f =>
    exact vecSignedSqrt_eq binary64 (Dbl.ops ⟨true, true, f⟩ (P.x86 binary64))
      ((dbl_signMask true).trans signBit64.symm) rfl hx

/-! ## Odd and even functions -/

/-- The class has the usual sign and magnitude masks; nothing is assumed about its arithmetic. -/
structure LaneOps.Masks (V : LaneOps 32) : Prop where
  sign : V.signMask = 0x80000000#32
  abs : V.absMask = 0x7fffffff#32

theorem hw_ones (hw : Hw 32) (h : hw.eq 0#32 0#32 = true) : Sse.ones hw = BitVec.allOnes 32 := by
  unfold Sse.ones; rw [h]; rfl

theorem sse_masks (f : Sse.Flags) (hw : Hw 32) (h : hw.eq 0#32 0#32 = true) :
    (Sse.ops f hw).Masks where
  sign := by
    change Sse.signMask _ _ = _
    unfold Sse.signMask; rw [hw_ones hw h]; cases f.sse2 <;> decide
  abs := by
    change Sse.absMask _ _ = _
    unfold Sse.absMask; rw [hw_ones hw h]; cases f.sse2 <;> decide

theorem avx_masks (f : Bool) (hw : Hw 32) : (AvxF.ops f hw).Masks := ⟨rfl, rfl⟩

theorem negate32 (x : BitVec 32) : binary32.negate x = x ^^^ 0x80000000#32 := by
  unfold Fmt.negate; rw [signBit32]

theorem flip_abs (x : BitVec 32) : (x ^^^ 0x80000000#32) &&& 0x7fffffff#32 = x &&& 0x7fffffff#32 := by
  rw [← negate32, BitVec.and_comm, fabs32, BitVec.and_comm, fabs32, binary32.fabs_negate]

theorem flip_sign (x : BitVec 32) :
    (x ^^^ 0x80000000#32) &&& 0x80000000#32 = (x &&& 0x80000000#32) ^^^ 0x80000000#32 := by
  rw [← negate32, ← negate32, ← signBit32, binary32.negate_sign]

attribute [local irreducible] sinAbs in
theorem vecSin_flip {V : LaneOps 32} (h : V.Masks) (x : BitVec 32) :
    vecSin V (x ^^^ 0x80000000#32) = vecSin V x ^^^ 0x80000000#32 := by
  unfold vecSin
  rw [h.sign, h.abs, flip_abs, flip_sign]
  dsimp only
  ac_rfl

attribute [local irreducible] litD litF in
theorem vecTan_flip {V : LaneOps 32} (h : V.Masks) (x : BitVec 32) :
    vecTan V (x ^^^ 0x80000000#32) = vecTan V x ^^^ 0x80000000#32 := by
  unfold vecTan
  rw [h.sign, h.abs, flip_abs, flip_sign]
  dsimp only
  ac_rfl

attribute [local irreducible] litD litF in
theorem vecAtan_flip {V : LaneOps 32} (h : V.Masks) (x : BitVec 32) :
    vecAtan V (x ^^^ 0x80000000#32) = vecAtan V x ^^^ 0x80000000#32 := by
  unfold vecAtan
  rw [h.sign, h.abs, flip_abs, flip_sign]
  dsimp only
  ac_rfl

attribute [local irreducible] litD litF in
theorem vecCos_flip {V : LaneOps 32} (h : V.Masks) (x : BitVec 32) :
    vecCos V (x ^^^ 0x80000000#32) = vecCos V x := by
  unfold vecCos
  rw [h.abs, flip_abs]

/-! ## softclip -/

theorem vecSoftclip_eq {w : Nat} (F : Fmt w) (V : LaneOps w) (ha : ∀ x, V.abs x = F.fabs x)
    (hm : ∀ x y, V.maskLt x y = maskOf (F.ltb x y)) (hh : V.half = F.ofRat 0.5)
    (hd : V.div = F.div) (hs : V.sub = F.sub)
    (hsel : ∀ a b c, V.select a b (maskOf c) = if c then b else a) (x : BitVec w) :
    VecMath.softclip V (F.ofRat 0.25) x = Scalar.softclip F x := by
  unfold VecMath.softclip Scalar.softclip
  simp only [ha, hm, hsel, hd, hs, hh]

theorem softclip_lane32 (b : Build32) (P : Platform 32) (x : BitVec 32) :
    (b.lane P).softclip x = Scalar.softclip binary32 x := by
  cases b with
  | generic => rfl
  | sse s f =>
    exact vecSoftclip_eq binary32 (Sse.ops f (P.x86 binary32)) (fun x => abs_lane32 (.sse s f) P x)
      (fun _ _ => rfl) ((sse_half _ P).trans half32.symm) rfl rfl (fun a b c => sse_select _ a b c) x
  | avx f =>
    exact vecSoftclip_eq binary32 (AvxF.ops f (P.x86 binary32)) (fun x => abs_lane32 (.avx f) P x)
      (fun _ _ => rfl) rfl rfl rfl (fun a b c => sse_select true a b c) x
  | neon => rfl
  | altivec => rfl

theorem softclip_lane64 (b : Build64) (P : Platform 64) (x : BitVec 64) :
    (b.lane P).softclip x = Scalar.softclip binary64 x := by
  cases b with
  | generic => rfl
  | sse2 s f =>
    exact vecSoftclip_eq binary64 (Dbl.ops ⟨false, s, f⟩ (P.x86 binary64))
      (fun x => abs_lane64 (.sse2 s f) P x) (fun _ _ => rfl) rfl rfl rfl
      (fun a b c => dbl_select _ _ a b c) x
  | avx f =>
    exact vecSoftclip_eq binary64 (Dbl.ops ⟨true, true, f⟩ (P.x86 binary64))
      (fun x => abs_lane64 (.avx f) P x) (fun _ _ => rfl) rfl rfl rfl
      (fun a b c => dbl_select _ _ a b c) x

/-! ## asin, acos, pow -/

theorem one_lt_fabs {x : BitVec 32} :
    binary32.ltb 0x3f800000#32 (binary32.fabs x) = true ↔
      binary32.isNaN x = false ∧ (1 < binary32.toEReal x ∨ binary32.toEReal x < -1) := by
  have h1 : binary32.toEReal 0x3f800000#32 = 1 := by
    have hf : binary32.isFinite 0x3f800000#32 = true := by decide
    have hu : binary32.units 0x3f800000#32 = 2 ^ 149 := by decide +kernel
    have hs : binary32.scale = 149 := by decide
    rw [binary32.toEReal_of_finite hf]
    unfold Fmt.toReal
    rw [hu, hs]; norm_num
  have hn : binary32.isNaN 0x3f800000#32 = false := by decide
  rw [binary32.ltb_iff_value, h1, binary32.isNaN_fabs]
  simp only [hn, true_and]
  refine and_congr_right fun hx => ?_
  cases hs : binary32.neg x
  · rw [binary32.fabs_eq_self hs]
    have h0 : ¬ binary32.toEReal x < -1 := by
      rw [not_lt]
      have : 0 ≤ binary32.key x := by rw [binary32.key_nonneg hs]; omega
      have h2 := (binary32.key_le_iff_value binary32.isNaN_posZero hx).mp (by simpa using this)
      rw [binary32.toEReal_posZero] at h2
      refine le_trans ?_ h2
      rw [show (-1 : EReal) = ((-1 : ℝ) : EReal) by simp, show (0 : EReal) = ((0 : ℝ) : EReal) by simp]
      exact_mod_cast (by norm_num : (-1 : ℝ) ≤ 0)
    tauto
  · rw [binary32.fabs_eq_negate hs, binary32.toEReal_negate]
    have h0 : ¬ 1 < binary32.toEReal x := by
      rw [not_lt]
      have : binary32.key x ≤ 0 := by rw [binary32.key_neg hs]; omega
      have h2 := (binary32.key_le_iff_value hx binary32.isNaN_posZero).mp (by simpa using this)
      rw [binary32.toEReal_posZero] at h2
      refine le_trans h2 ?_
      rw [show (1 : EReal) = ((1 : ℝ) : EReal) by simp, show (0 : EReal) = ((0 : ℝ) : EReal) by simp]
      exact_mod_cast (by norm_num : (0 : ℝ) ≤ 1)
    have h3 : 1 < -binary32.toEReal x ↔ binary32.toEReal x < -1 := by
      rw [EReal.lt_neg_comm]
    tauto

/-- What the special cases need: masks, constants and a `select` that follows a comparison. -/
structure LaneOps.Compares (V : LaneOps 32) : Prop extends V.Masks where
  one : V.one = 0x3f800000#32
  zero : V.zero = 0#32
  /-- on numbers `>` is right (with AVX it is also true on NaN) -/
  gt : ∀ x y, binary32.ltb y x = true → V.maskGt x y = maskOf true
  eq : ∀ x y, V.maskEq x y = maskOf (binary32.eqb x y)
  sel : ∀ a b c, V.select a b (maskOf c) = if c then b else a

/-- The comparison instructions conform to IEEE 754; nothing is assumed about the arithmetic. -/
structure Hw.IeeeCompare (hw : Hw 32) : Prop where
  lt : hw.lt = binary32.ltb
  le : hw.le = binary32.leb
  eq : hw.eq = binary32.eqb

theorem Hw.IeeeCompare.zero {hw : Hw 32} (h : hw.IeeeCompare) : hw.eq 0#32 0#32 = true := by
  rw [h.eq]; decide +kernel

theorem x86_compare (P : Platform 32) : (P.x86 binary32).IeeeCompare := ⟨rfl, rfl, rfl⟩

theorem sse_compares (f : Sse.Flags) (hw : Hw 32) (h : hw.IeeeCompare) :
    (Sse.ops f hw).Compares where
  toMasks := sse_masks f hw h.zero
  one := by
    change Sse.one _ _ = _
    unfold Sse.one; rw [hw_ones hw h.zero, litF_one]; cases f.sse2 <;> decide
  zero := rfl
  gt x y hxy := by change maskOf (hw.lt y x) = _; rw [h.lt, hxy]
  eq x y := by change maskOf (hw.eq x y) = _; rw [h.eq]
  sel a b c := sse_select _ a b c

theorem avx_compares (f : Bool) (hw : Hw 32) (h : hw.IeeeCompare) : (AvxF.ops f hw).Compares where
  toMasks := avx_masks f _
  one := litF_one
  zero := rfl
  gt x y hxy := by
    change maskOf (!hw.le x y) = _
    rw [h.le]
    obtain ⟨h1, h2, h3⟩ := binary32.ltb_iff.mp hxy
    rw [binary32.leb_of_num h2 h1, decide_eq_false (by omega)]; rfl
  eq x y := by change maskOf (hw.eq x y) = _; rw [h.eq]
  sel a b c := sse_select true a b c

attribute [local irreducible] litD litF in
theorem vecAsin_outside {V : LaneOps 32} (h : V.Compares) {x : BitVec 32}
    (hx : binary32.ltb 0x3f800000#32 (binary32.fabs x) = true) : vecAsin V x = 0#32 := by
  unfold vecAsin
  dsimp only
  have ha : x &&& V.absMask = binary32.fabs x := by rw [h.abs, BitVec.and_comm, fabs32]
  rw [ha, h.one, h.gt _ _ hx, h.sel, h.zero]; rfl

attribute [local irreducible] litD litF in
theorem vecAcos_outside {V : LaneOps 32} (h : V.Compares) {x : BitVec 32}
    (hx : binary32.ltb 0x3f800000#32 (binary32.fabs x) = true) : vecAcos V x = 0#32 := by
  unfold vecAcos
  dsimp only
  have ha : x &&& V.absMask = binary32.fabs x := by rw [h.abs, BitVec.and_comm, fabs32]
  rw [ha, h.one, h.gt _ _ hx, h.sel, h.zero]; rfl

attribute [local irreducible] litD litF in
theorem vecPow_zero {V : LaneOps 32} (h : V.Compares) {x : BitVec 32} (hx : binary32.code x = 0)
    (y : BitVec 32) : vecPow V x y = 0#32 := by
  unfold vecPow
  dsimp only
  have h0 : binary32.eqb x 0#32 = true := by
    rw [binary32.eqb_iff, binary32.key_eq_zero.mpr hx]
    refine ⟨by simp [Fmt.isNaN, hx], by decide, by decide⟩
  rw [h.eq, h.zero, h0, h.sel]; rfl

attribute [local irreducible] litD litF in
theorem vecSignedPow_zero {V : LaneOps 32} (h : V.Compares) {x : BitVec 32}
    (hx : binary32.code x = 0) (y : BitVec 32) : vecSignedPow V x y = x := by
  unfold vecSignedPow
  dsimp only
  rw [h.sign, ← signBit32, binary32.xor_sign, vecPow_zero h (by simpa using hx)]
  apply binary32.ext
  · rw [binary32.neg_or_sign]; simp [Fmt.neg]
  · rw [binary32.code_or_sign, hx]; decide

end Nova
