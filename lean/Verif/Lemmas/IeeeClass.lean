import Verif.Lemmas.RoundLanes
import Verif.Lemmas.Exponent
import Verif.Float.Track

/-!
# The x86 classes on IEEE hardware

The facts about a vector class which the accuracy theorems use; they hold for `vec<float>` of SSE and AVX, with
and without SSE4.1 and FMA.
-/

namespace Nova
open FP VecMath

structure LaneOps.Ieee (V : LaneOps 32) : Prop extends V.Masks, V.Exps where
  add : V.add = binary32.add
  sub : V.sub = binary32.sub
  mul : V.mul = binary32.mul
  div : V.div = binary32.div
  sqrt : V.sqrt = binary32.sqrt
  one : V.one = 0x3f800000#32
  half : V.half = 0x3f000000#32
  zero : V.zero = 0#32
  neg : ∀ x, V.neg x = binary32.negate x
  round : ∀ x, binary32.code x < 0x4B000000 → V.round x = binary32.roundInt .nearest x
  gt : ∀ x y, binary32.isNaN x = false → binary32.isNaN y = false → V.maskGt x y = maskOf (binary32.ltb y x)
  lt : ∀ x y, V.maskLt x y = maskOf (binary32.ltb x y)
  eq : ∀ x y, V.maskEq x y = maskOf (binary32.eqb x y)
  sel : ∀ a b c, V.select a b (maskOf c) = if c then b else a
  toInt : V.truncateToInt = binary32.toInt32
  ofInt : V.convertToFloat = binary32.ofInt32
  intAndnot : ∀ a b, V.intAndnot a b = ~~~a &&& b

section
attribute [local irreducible] litD litF Fmt.add Fmt.mul Fmt.div Fmt.sub Fmt.fma Fmt.ltb Fmt.leb Fmt.eqb
  Fmt.roundInt Fmt.toInt32 Fmt.ofInt32 Fmt.sqrt

theorem sse_ieee (f : Sse.Flags) (P : Platform 32) : (Sse.ops f (P.x86 binary32)).Ieee where
  toMasks := sse_masks f _ (x86_compare P).zero
  toExps := sse_exps f _
  add := rfl
  sub := rfl
  mul := rfl
  div := rfl
  sqrt := rfl
  one := sse_one f.sse2 P
  half := sse_half f.sse2 P
  zero := rfl
  neg x := by
    change x ^^^ Sse.signMask f.sse2 (P.x86 binary32) = _
    rw [sse_signMask, negate32]
  round x hx := by
    change Sse.round f (P.x86 binary32) x = _
    unfold Sse.round
    cases hf : f.sse41
    · rw [if_neg (by decide)]; exact vecRound_eq (sse_pre_rounds f P) hx
    · rw [if_pos rfl]; rfl
  gt x y _ _ := rfl
  lt x y := rfl
  eq x y := rfl
  sel a b c := sse_select _ a b c
  toInt := rfl
  ofInt := rfl
  intAndnot a b := rfl

theorem avx_ieee (f : Bool) (P : Platform 32) : (AvxF.ops f (P.x86 binary32)).Ieee where
  toMasks := avx_masks f _
  toExps := avx_exps f _
  add := rfl
  sub := rfl
  mul := rfl
  div := rfl
  sqrt := rfl
  one := litF_one
  half := litF_half
  zero := rfl
  neg x := by
    change x ^^^ 0x80000000#32 = _
    rw [negate32]
  round x hx := rfl
  gt x y hx hy := by
    change maskOf (!binary32.leb x y) = _
    rw [binary32.leb_of_num hx hy, binary32.ltb_of_num hy hx]
    congr 1
    by_cases h : binary32.key x ≤ binary32.key y
    · rw [decide_eq_true h, decide_eq_false (by omega)]; rfl
    · rw [decide_eq_false h, decide_eq_true (by omega)]; rfl
  lt x y := rfl
  eq x y := rfl
  sel a b c := sse_select true a b c
  toInt := rfl
  ofInt := rfl
  intAndnot a b := rfl

end

/-- The class of a build that has the vector versions of the transcendental functions. -/
def Build32.ops (P : Platform 32) : Build32 → LaneOps 32
  | .sse _ f => Sse.ops f (P.x86 binary32)
  | .avx fma => AvxF.ops fma (P.x86 binary32)
  | .neon => Neon.ops (P.arm binary32)
  | _ => Altivec.ops (P.arm binary32)

theorem toReal_lt_of_ltb {x y : BitVec 32} (hx : IsFin binary32 x) (hy : IsFin binary32 y) :
    binary32.ltb x y = decide (binary32.toReal x < binary32.toReal y) := by
  have h := binary32.ltb_iff_value (x := x) (y := y)
  rw [binary32.toEReal_of_finite hx, binary32.toEReal_of_finite hy] at h
  have hx' := binary32.isFinite_not_nan hx
  have hy' := binary32.isFinite_not_nan hy
  rw [hx', hy'] at h
  simp only [true_and, EReal.coe_lt_coe_iff] at h
  by_cases hc : binary32.toReal x < binary32.toReal y
  · rw [decide_eq_true hc, h.mpr hc]
  · rw [decide_eq_false hc, Bool.eq_false_iff]; exact fun h' => hc (h.mp h')

end Nova
