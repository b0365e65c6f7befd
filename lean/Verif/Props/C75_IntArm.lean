import Verif.Model.IntArm
import Verif.Model.Lanes
import Verif.Props.C55_IntAvx
import Mathlib.Tactic.NormNum

/-!
# C75 the integer vectors of SSE2, NEON and Altivec are interchangeable

detail/vec_math.hpp is written once against the interface of the integer vectors: addition, subtraction, comparisons, bitwise
and, `andnot(a, b) = ~a & b`, shifts that shift in zeros, conversion of `int` to float.  The classes agree with this for
non-negative lanes and counts from 0 to 31 — except `andnot`, whose operands are exchanged on NEON and Altivec.
-/

namespace Nova.IntVec
open FP VecMath

theorem mask_decide (p : Prop) [Decidable p] : mask (decide p) = if p then BitVec.allOnes 32 else 0#32 := by
  unfold mask
  by_cases h : p
  · rw [if_pos h, decide_eq_true h, if_pos rfl]
  · rw [if_neg h, decide_eq_false h]
    rfl

/-- A lane that is not negative as `int` is the same number as `unsigned`. -/
theorem toInt_eq_toNat {a : BitVec 32} (h : 0 ≤ a.toInt) : a.toInt = a.toNat := by
  have := a.isLt
  rw [BitVec.toInt_eq_toNat_cond] at h ⊢
  by_cases h2 : 2 * a.toNat < 2 ^ 32
  · rw [if_pos h2]
  · rw [if_neg h2] at h
    omega

theorem mask_slt (a b : BitVec 32) : mask (a.slt b) = if a.toInt < b.toInt then BitVec.allOnes 32 else 0#32 := by
  rw [BitVec.slt, mask_decide]

theorem mask_ult {a b : BitVec 32} (ha : 0 ≤ a.toInt) (hb : 0 ≤ b.toInt) :
    mask (a.ult b) = if a.toInt < b.toInt then BitVec.allOnes 32 else 0#32 := by
  rw [BitVec.ult, mask_decide, toInt_eq_toNat ha, toInt_eq_toNat hb]
  simp only [Int.ofNat_lt]

theorem mask_beq (a b : BitVec 32) : mask (a == b) = if a = b then BitVec.allOnes 32 else 0#32 := by
  unfold mask
  simp only [beq_iff_eq]

theorem lane_set1 (x : BitVec 32) {i : Nat} (h : i < 4) : lane (pack x x x x) i = x := by
  obtain ⟨h0, h1, h2, h3⟩ := lane_pack x x x x
  rcases lane_cases h with h | h | h | h <;> subst h <;> assumption

theorem byte_pos {c : BitVec 32} (h : c.toNat ≤ 31) : (c.extractLsb' 0 8).toInt = c.toNat := by
  rw [BitVec.toInt_eq_toNat_cond, BitVec.extractLsb'_toNat]
  have e : c.toNat >>> 0 % 2 ^ 8 = c.toNat := by rw [Nat.shiftRight_zero]; omega
  rw [e, if_pos (by omega)]

theorem byte_neg {c : BitVec 32} (h : c.toNat ≤ 31) (h0 : c.toNat ≠ 0) :
    ((-c).extractLsb' 0 8).toInt = -(c.toNat : Int) := by
  rw [BitVec.toInt_eq_toNat_cond, BitVec.extractLsb'_toNat, BitVec.toNat_neg]
  have e : ((2 ^ 32 - c.toNat) % 2 ^ 32) >>> 0 % 2 ^ 8 = 256 - c.toNat := by rw [Nat.shiftRight_zero]; omega
  rw [e, if_neg (by omega)]
  omega

theorem vshl_pos (x : BitVec 32) {c : BitVec 32} (h : c.toNat ≤ 31) : vshlLane x c = x <<< c.toNat := by
  unfold vshlLane
  dsimp only
  rw [byte_pos h, if_pos (by omega), Int.toNat_natCast, if_neg (by omega)]

theorem vshl_neg (x : BitVec 32) {c : BitVec 32} (h : c.toNat ≤ 31) : vshlLane x (-c) = x >>> c.toNat := by
  by_cases h0 : c.toNat = 0
  · have hc : c = 0#32 := BitVec.eq_of_toNat_eq h0
    subst hc
    unfold vshlLane
    simp
  · unfold vshlLane
    dsimp only
    rw [byte_neg h h0, if_neg (by omega), neg_neg, Int.toNat_natCast, if_neg (by omega)]

theorem ieee_ofInt32 (rcp rsqrt : BitVec 32 → BitVec 32) (n : BitVec 32) :
    (Hw.ieee binary32 rcp rsqrt).ofInt32 n = binary32.ofInt n.toInt := rfl

theorem ieee_ofUInt32 (rcp rsqrt : BitVec 32 → BitVec 32) (n : BitVec 32) :
    (Hw.ieee binary32 rcp rsqrt).ofUInt32 n = binary32.ofInt n.toNat := rfl

/-- What the three classes have in common: every lane of a result is the operation on `int`; comparisons and the
conversion for non-negative numbers, shifts for counts from 0 to 31. -/
theorem C75_lanes_partial (p : Isa) (rcp rsqrt : BitVec 32 → BitVec 32) (a b : BitVec 128) (count x : BitVec 32) (i : Nat)
    (h : i < 4) :
    lane (p.ops.set1 x) i = x ∧
    lane (p.ops.add a b) i = lane a i + lane b i ∧
    lane (p.ops.sub a b) i = lane a i - lane b i ∧
    lane (p.ops.eq a b) i = (if lane a i = lane b i then BitVec.allOnes 32 else 0#32) ∧
    lane (p.ops.and a b) i = lane a i &&& lane b i ∧
    (0 ≤ (lane a i).toInt → 0 ≤ (lane b i).toInt →
      lane (p.ops.lt a b) i = (if (lane a i).toInt < (lane b i).toInt then BitVec.allOnes 32 else 0#32) ∧
      lane (p.ops.gt a b) i = (if (lane a i).toInt > (lane b i).toInt then BitVec.allOnes 32 else 0#32)) ∧
    (count.toNat ≤ 31 →
      lane (p.ops.slli a count) i = lane a i <<< count.toNat ∧ lane (p.ops.srli a count) i = lane a i >>> count.toNat) ∧
    (0 ≤ (lane a i).toInt →
      lane (p.ops.toFloat (Hw.ieee binary32 rcp rsqrt) a) i = binary32.ofInt (lane a i).toInt) := by
  cases p with
  | sse2 =>
    refine ⟨lane_set1 x h, lane_map2 (· + ·) a b h, lane_map2 (· - ·) a b h,
      (lane_map2 (fun a b => mask (a == b)) a b h).trans (mask_beq _ _), lane_and a b i,
      fun _ _ => ⟨(lane_map2 (fun a b => mask (a.slt b)) a b h).trans (mask_slt _ _),
        (lane_map2 (fun a b => mask (b.slt a)) a b h).trans (mask_slt _ _)⟩,
      fun hc => ⟨?_, ?_⟩, fun _ => (lane_map1 (Hw.ieee binary32 rcp rsqrt).ofInt32 a h).trans (ieee_ofInt32 _ _ _)⟩
    · refine (lane_map1 (slliLane count) a h).trans ?_
      rw [slliLane, if_neg (by omega)]
    · refine (lane_map1 (srliLane count) a h).trans ?_
      rw [srliLane, if_neg (by omega)]
  | neon =>
    refine ⟨lane_set1 x h, lane_map2 (· + ·) a b h, lane_map2 (· - ·) a b h,
      (lane_map2 (fun a b => mask (a == b)) a b h).trans (mask_beq _ _), lane_and a b i,
      fun ha hb => ⟨(lane_map2 (fun a b => mask (a.ult b)) a b h).trans (mask_ult ha hb),
        (lane_map2 (fun a b => mask (b.ult a)) a b h).trans (mask_ult hb ha)⟩,
      fun hc => ⟨?_, ?_⟩, fun _ => (lane_map1 (Hw.ieee binary32 rcp rsqrt).ofInt32 a h).trans (ieee_ofInt32 _ _ _)⟩
    · refine (lane_map2 _ _ _ h).trans ?_
      rw [neonSet1, lane_set1 _ h, vshl_pos _ hc]
    · refine (lane_map2 _ _ _ h).trans ?_
      rw [neonSet1, lane_set1 _ h, vshl_neg _ hc]
  | altivec =>
    refine ⟨lane_set1 x h, lane_map2 (· + ·) a b h, lane_map2 (· - ·) a b h,
      (lane_map2 (fun a b => mask (a == b)) a b h).trans (mask_beq _ _), lane_and a b i,
      fun ha hb => ⟨(lane_map2 (fun a b => mask (a.ult b)) a b h).trans (mask_ult ha hb),
        (lane_map2 (fun a b => mask (b.ult a)) a b h).trans (mask_ult hb ha)⟩,
      fun hc => ⟨?_, ?_⟩, fun ha => ?_⟩
    · refine (lane_map2 _ _ _ h).trans ?_
      rw [altiSet1, lane_set1 _ h, vslLane, Nat.mod_eq_of_lt (by omega)]
    · refine (lane_map2 _ _ _ h).trans ?_
      rw [altiSet1, lane_set1 _ h, vsrLane, Nat.mod_eq_of_lt (by omega)]
    · exact (lane_map1 (Hw.ieee binary32 rcp rsqrt).ofUInt32 a h).trans
        ((ieee_ofUInt32 _ _ _).trans (by rw [toInt_eq_toNat ha]))

/-- A concrete case with non-negative lanes and different results in different lanes. -/
example : (lane (Isa.neon.ops.lt (pack 1 5 3 7) (Isa.neon.ops.set1 4)) 0, lane (Isa.neon.ops.lt (pack 1 5 3 7) (Isa.neon.ops.set1 4)) 1)
    = (0xffffffff#32, 0#32) ∧ 0 ≤ (lane (pack 1 5 3 7) 1).toInt ∧ (29#32).toNat ≤ 31 := by decide

/-- `andnot` complements its first operand on SSE2, its second on NEON and Altivec. -/
theorem C75_andnot_partial (a b : BitVec 128) (i : Nat) (h : i < 4) :
    lane (Isa.sse2.ops.andnot a b) i = ~~~lane a i &&& lane b i ∧
    lane (Isa.neon.ops.andnot a b) i = lane a i &&& ~~~lane b i ∧
    lane (Isa.altivec.ops.andnot a b) i = lane a i &&& ~~~lane b i := by
  refine ⟨(lane_and _ b i).trans ?_, (lane_and a _ i).trans ?_, (lane_and a _ i).trans ?_⟩ <;> rw [lane_not _ (by omega)]

/-- So the three classes are not interchangeable: `andnot`, the comparison of a negative number, shifts by a negative count
or by 32, and the conversion of a negative number differ. -/
theorem C75_negation :
    (∃ a b : BitVec 128, Isa.sse2.ops.andnot a b ≠ Isa.neon.ops.andnot a b ∧
      Isa.sse2.ops.andnot a b ≠ Isa.altivec.ops.andnot a b) ∧
    (∃ a b : BitVec 128, Isa.sse2.ops.lt a b ≠ Isa.neon.ops.lt a b ∧ Isa.sse2.ops.lt a b ≠ Isa.altivec.ops.lt a b) ∧
    (∃ (a : BitVec 128) (c : BitVec 32), Isa.sse2.ops.slli a c ≠ Isa.neon.ops.slli a c) ∧
    (∃ (a : BitVec 128) (c : BitVec 32), Isa.sse2.ops.slli a c ≠ Isa.altivec.ops.slli a c ∧
      Isa.neon.ops.slli a c ≠ Isa.altivec.ops.slli a c) ∧
    (∃ a : BitVec 128, Isa.sse2.ops.toFloat (Hw.ieee binary32 id id) a ≠ Isa.altivec.ops.toFloat (Hw.ieee binary32 id id) a) :=
  ⟨⟨pack 1 1 1 1, pack 2 2 2 2, by decide⟩, ⟨pack 0xffffffff 0 0 0, pack 0 0 0 0, by decide⟩,
    ⟨pack 2 2 2 2, 0xffffffff, by decide⟩, ⟨pack 1 1 1 1, 32, by decide⟩,
    ⟨pack 0xffffffff 0 0 0, by decide +kernel⟩⟩

/-- What follows for the templates: `vec_cos_float` instantiated with the class of Altivec would return infinity for 0 (the
back end has switched these functions off with the comment "vector math support seems to be broken"); with the class
of SSE2 it returns 1. -/
theorem C75_cos_altivec :
    vecCos (Altivec.ops (Hw.ieee binary32 id id)) 0#32 = 0x7f800000#32 ∧
    vecCos (Sse.ops ⟨true, false, false⟩ (Hw.ieee binary32 id id)) 0#32 = 0x3f800000#32 := by decide +kernel

end Nova.IntVec
