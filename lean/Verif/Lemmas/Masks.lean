import Verif.Float.Bits
import Verif.Model.Builds

/-! # Masks and constants of the vector classes -/

namespace Nova
open FP VecMath

theorem sse_ones (P : Platform 32) : Sse.ones (P.x86 binary32) = BitVec.allOnes 32 := by
  have : binary32.eqb 0#32 0#32 = true := by decide +kernel
  change maskOf (binary32.eqb 0#32 0#32) = _
  rw [this]; rfl

theorem sse_signMask (s : Bool) (P : Platform 32) :
    Sse.signMask s (P.x86 binary32) = 0x80000000#32 := by
  unfold Sse.signMask; rw [sse_ones]; cases s <;> decide

theorem sse_absMask (s : Bool) (P : Platform 32) :
    Sse.absMask s (P.x86 binary32) = 0x7fffffff#32 := by
  unfold Sse.absMask; rw [sse_ones]; cases s <;> decide

theorem litF_one : litF 1 = 0x3f800000#32 := by decide +kernel
theorem litF_half : litF 0.5 = 0x3f000000#32 := by decide +kernel
theorem litF_quarter : litF 0.25 = 0x3e800000#32 := by decide +kernel

theorem sse_one (s : Bool) (P : Platform 32) :
    Sse.one s (P.x86 binary32) = 0x3f800000#32 := by
  unfold Sse.one; rw [sse_ones, litF_one]; cases s <;> decide

theorem sse_half (s : Bool) (P : Platform 32) :
    Sse.half s (P.x86 binary32) = 0x3f000000#32 := by
  unfold Sse.half; rw [sse_ones, litF_half]; cases s <;> decide

theorem dbl_signMask (a : Bool) : Dbl.signMask a = 0x8000000000000000#64 := by cases a <;> decide
theorem dbl_absMask (a : Bool) : Dbl.absMask a = 0x7fffffffffffffff#64 := by cases a <;> decide
theorem dbl_one : binary64.ofRat 1 = 0x3ff0000000000000#64 := by decide +kernel
theorem dbl_half : binary64.ofRat 0.5 = 0x3fe0000000000000#64 := by decide +kernel
theorem dbl_quarter : binary64.ofRat 0.25 = 0x3fd0000000000000#64 := by decide +kernel

theorem signBit32 : binary32.signBit = 0x80000000#32 := by decide
theorem signBit64 : binary64.signBit = 0x8000000000000000#64 := by decide
theorem absMask32 : 0x7fffffff#32 = ~~~binary32.signBit := by decide
theorem absMask64 : 0x7fffffffffffffff#64 = ~~~binary64.signBit := by decide

theorem one32 : binary32.ofInt 1 = 0x3f800000#32 := by decide +kernel
theorem one64 : binary64.ofInt 1 = 0x3ff0000000000000#64 := by decide +kernel
theorem negOne32 : binary32.ofInt (-1) = 0xbf800000#32 := by decide +kernel
theorem negOne64 : binary64.ofInt (-1) = 0xbff0000000000000#64 := by decide +kernel
theorem half32 : binary32.ofRat 0.5 = 0x3f000000#32 := by decide +kernel
theorem quarter32 : binary32.ofRat 0.25 = 0x3e800000#32 := by decide +kernel

theorem maskOf_and {w : Nat} (b : Bool) (x : BitVec w) : maskOf b &&& x = if b then x else 0#w := by
  cases b <;> simp [maskOf]

theorem not_maskOf {w : Nat} (b : Bool) : ~~~(maskOf b : BitVec w) = maskOf (!b) := by
  cases b <;> simp [maskOf]

theorem maskOf_msb {w : Nat} (hw : 0 < w) (b : Bool) : (maskOf b : BitVec w).msb = b := by
  cases b <;> simp [maskOf, BitVec.msb_allOnes hw]

theorem vecSelect_mask {w : Nat} (lhs rhs : BitVec w) (b : Bool) :
    vecSelect (fun a b => ~~~a &&& b) lhs rhs (maskOf b) = if b then rhs else lhs := by
  unfold vecSelect
  cases b <;> simp [maskOf]

theorem bsl_zero {w : Nat} (a b : BitVec w) : (0#w &&& a) ||| (~~~0#w &&& b) = b := by simp

/-- Every x86 `select` chooses by a comparison mask. -/
theorem sse_select (s : Bool) (lhs rhs : BitVec 32) (b : Bool) :
    Sse.select s lhs rhs (maskOf b) = if b then rhs else lhs := by
  unfold Sse.select
  cases s
  · exact vecSelect_mask lhs rhs b
  · rw [if_pos rfl, maskOf_msb (by decide)]

theorem dbl_select (f : Dbl.Flags) (hw : Hw 64) (lhs rhs : BitVec 64) (b : Bool) :
    (Dbl.ops f hw).select lhs rhs (maskOf b) = if b then rhs else lhs := by
  simp only [Dbl.ops]
  cases (f.avx || f.sse41)
  · exact vecSelect_mask lhs rhs b
  · rw [if_pos rfl, maskOf_msb (by decide)]

theorem fabs32 (x : BitVec 32) : 0x7fffffff#32 &&& x = binary32.fabs x := by
  rw [absMask32, binary32.fabs_comm]

theorem fabs64 (x : BitVec 64) : 0x7fffffffffffffff#64 &&& x = binary64.fabs x := by
  rw [absMask64, binary64.fabs_comm]

end Nova
