import Verif.Lemmas.TrigReduce
import Mathlib.Data.Nat.Bitwise

/-!
# `vec_sin_float` and `vec_cos_float`: the quadrants
-/

namespace Nova
open FP VecMath

theorem Tr.neg {x : BitVec 32} {v e B : ℝ} (h : Tr x v e B) : Tr (binary32.negate x) (-v) e B := by
  refine ⟨?_, ?_, ?_⟩
  · unfold IsFin; rw [binary32.isFinite_negate]; exact h.fin
  · rw [binary32.toReal_negate, ← neg_sub_neg, neg_neg, neg_neg, abs_sub_comm]; exact h.err
  · rw [abs_neg]; exact h.bnd

/-- The sign bit of a Boolean. -/
def signBit (c : Bool) : BitVec 32 := if c then 0x80000000#32 else 0#32

theorem Tr.signed {x : BitVec 32} {v e B : ℝ} (h : Tr x v e B) (c : Bool) :
    Tr (x ^^^ signBit c) (if c then -v else v) e B := by
  cases c
  · simpa [signBit] using h
  · simp only [signBit, if_true]
    rw [← negate32]; exact h.neg

theorem and_pow {j : BitVec 32} (i : ℕ) (hi : i < 32) :
    (j &&& BitVec.ofNat 32 (2 ^ i)) = if j.toNat / 2 ^ i % 2 = 1 then BitVec.ofNat 32 (2 ^ i) else 0#32 := by
  have hp : 2 ^ i < 2 ^ 32 := Nat.pow_lt_pow_right (by decide) hi
  apply BitVec.eq_of_toNat_eq
  rw [BitVec.toNat_and, BitVec.toNat_ofNat, Nat.mod_eq_of_lt hp, Nat.and_two_pow, Nat.testBit_eq_decide_div_mod_eq]
  by_cases h : j.toNat / 2 ^ i % 2 = 1
  · rw [if_pos h, decide_eq_true h, BitVec.toNat_ofNat, Nat.mod_eq_of_lt hp]; simp
  · rw [if_neg h, decide_eq_false h]; simp

theorem poly_mask {j : BitVec 32} :
    intMaskEq (j &&& 2#32) 0#32 = maskOf (decide (j.toNat / 2 % 2 = 0)) := by
  unfold intMaskEq
  rw [show (2#32 : BitVec 32) = BitVec.ofNat 32 (2 ^ 1) by rfl, and_pow 1 (by decide)]
  by_cases h : j.toNat / 2 ^ 1 % 2 = 1
  · rw [if_pos h, decide_eq_false (by omega)]; rfl
  · rw [if_neg h, decide_eq_true (by omega)]; rfl

theorem swap_bit {j : BitVec 32} : (j &&& 4#32) <<< 29 = signBit (decide (j.toNat / 4 % 2 = 1)) := by
  rw [show (4#32 : BitVec 32) = BitVec.ofNat 32 (2 ^ 2) by rfl, and_pow 2 (by decide)]
  by_cases h : j.toNat / 2 ^ 2 % 2 = 1
  · rw [if_pos h, decide_eq_true (by omega)]; rfl
  · rw [if_neg h, decide_eq_false (by omega)]; rfl

theorem sign_and (x : BitVec 32) : x &&& 0x80000000#32 = signBit (binary32.neg x) := by
  rw [show (0x80000000#32 : BitVec 32) = BitVec.ofNat 32 (2 ^ 31) by rfl, and_pow 31 (by decide)]
  have hn : binary32.neg x = decide (x.toNat / 2 ^ 31 % 2 = 1) := by
    unfold Fmt.neg
    rw [BitVec.msb_eq_decide]
    have := x.isLt
    by_cases h : 2 ^ (32 - 1) ≤ x.toNat
    · rw [decide_eq_true h, decide_eq_true (by omega)]
    · rw [decide_eq_false h, decide_eq_false (by omega)]
  rw [hn]
  by_cases h : x.toNat / 2 ^ 31 % 2 = 1
  · rw [if_pos h, decide_eq_true h]; rfl
  · rw [if_neg h, decide_eq_false h]; rfl

/-- The octant and its value as a floating-point number. -/
theorem trig_octant {V : LaneOps 32} (h : V.Ieee) {x : BitVec 32} (hx : IsFin binary32 x)
    (h0 : binary32.neg x = false) (hr : binary32.toReal x ≤ 8192) :
    ∃ q : ℕ, q ≤ 5216 ∧ (quadrant V x).toNat = 2 * q ∧ |binary32.toReal x - q * (Real.pi / 2)| ≤ 0.7864 ∧
      (1 ≤ q → 0.7853 ≤ binary32.toReal x) ∧ IsFin binary32 (V.convertToFloat (quadrant V x)) ∧
      binary32.toReal (V.convertToFloat (quadrant V x)) = ((2 * q : ℕ) : ℝ) := by
  obtain ⟨q, q1, q2, q3, q4⟩ := quadrant_value h hx h0 hr
  have hi : (quadrant V x).toInt = ((2 * q : ℕ) : ℤ) := by
    rw [BitVec.toInt_eq_toNat_cond, q2, if_pos (by omega)]
  obtain ⟨f1, f2⟩ := ofInt_value (k := ((2 * q : ℕ) : ℤ)) (by rw [Int.natAbs_natCast]; omega)
  have e : V.convertToFloat (quadrant V x) = binary32.ofInt ((2 * q : ℕ) : ℤ) := by
    rw [h.ofInt, ← hi]; rfl
  rw [e]
  exact ⟨q, q1, q2, q3, q4, f1, by rw [f2]; norm_cast⟩

/-- The reduction as the functions use it. -/
theorem trig_reduce {V : LaneOps 32} (h : V.Ieee) {x : BitVec 32} (hx : IsFin binary32 x)
    (h0 : binary32.neg x = false) (hr : binary32.toReal x ≤ 8192) :
    ∃ q : ℕ, q ≤ 5216 ∧ (quadrant V x).toNat = 2 * q ∧
      Tr (reduceArg V x (V.convertToFloat (quadrant V x))) (binary32.toReal x - q * (Real.pi / 2))
        (4728/10^11) 0.7864 := by
  obtain ⟨q, q1, q2, q3, q4, f1, f2⟩ := trig_octant h hx h0 hr
  exact ⟨q, q1, q2, reduceArg_track h hx h0 q1 q3 q4 f1 f2⟩

theorem sin_quadrant (v : ℝ) (q : ℕ) :
    Real.sin (v + q * (Real.pi / 2)) =
      if q / 2 % 2 = 1 then -(if q % 2 = 0 then Real.sin v else Real.cos v)
      else (if q % 2 = 0 then Real.sin v else Real.cos v) := by
  obtain ⟨t, r, hq, hr⟩ : ∃ t r, q = 4 * t + r ∧ r < 4 := ⟨q / 4, q % 4, by omega, by omega⟩
  have e : v + q * (Real.pi / 2) = v + r * (Real.pi / 2) + t * (2 * Real.pi) := by
    rw [hq]; push_cast; ring
  rw [e, Real.sin_add_nat_mul_two_pi]
  interval_cases r
  · rw [if_neg (by omega), if_pos (by omega)]; norm_num
  · rw [if_neg (by omega), if_neg (by omega)]; norm_num [Real.sin_add_pi_div_two]
  · rw [if_pos (by omega), if_pos (by omega)]
    rw [show v + ((2 : ℕ) : ℝ) * (Real.pi / 2) = v + Real.pi by push_cast; ring, Real.sin_add_pi]
  · rw [if_pos (by omega), if_neg (by omega)]
    rw [show v + ((3 : ℕ) : ℝ) * (Real.pi / 2) = v + Real.pi / 2 + Real.pi by push_cast; ring, Real.sin_add_pi,
      Real.sin_add_pi_div_two]

theorem cos_quadrant (v : ℝ) (q : ℕ) :
    Real.cos (v + q * (Real.pi / 2)) =
      if (q + 1) / 2 % 2 = 1 then -(if q % 2 = 0 then Real.cos v else Real.sin v)
      else (if q % 2 = 0 then Real.cos v else Real.sin v) := by
  have := sin_quadrant v (q + 1)
  rw [show v + ((q + 1 : ℕ) : ℝ) * (Real.pi / 2) = v + q * (Real.pi / 2) + Real.pi / 2 by push_cast; ring,
    Real.sin_add_pi_div_two] at this
  rw [this]
  by_cases h : q % 2 = 0
  · rw [if_pos h, if_neg (show ¬ (q + 1) % 2 = 0 by omega)]
  · rw [if_neg h, if_pos (show (q + 1) % 2 = 0 by omega)]

/-- The two approximations. -/
theorem trig_polys {V : LaneOps 32} (h : V.Ieee) {x : BitVec 32} {v : ℝ} (hx : Tr x v (4728/10^11) 0.7864) :
    Tr (sinPoly V (V.mul x x) x) (Real.sin v) (1/2^22) 1 ∧ Tr (cosPoly V (V.mul x x)) (Real.cos v) (1/2^22) 1 := by
  constructor
  · exact (sinPoly_track h hx).recenter (sinP_error hx.bnd) (by norm_num) (Real.abs_sin_le_one _)
  · exact (cosPoly_track h hx).recenter (cosP_error hx.bnd) (by norm_num) (Real.abs_cos_le_one _)

theorem abs_and {V : LaneOps 32} (h : V.Ieee) (x : BitVec 32) : x &&& V.absMask = binary32.fabs x := by
  rw [h.abs, BitVec.and_comm, fabs32]

theorem fabs_facts {x : BitVec 32} (hx : IsFin binary32 x) (hr : |binary32.toReal x| ≤ 8192) :
    IsFin binary32 (binary32.fabs x) ∧ binary32.neg (binary32.fabs x) = false ∧
    binary32.toReal (binary32.fabs x) ≤ 8192 := by
  refine ⟨?_, ?_, ?_⟩
  · unfold IsFin; rw [binary32.isFinite_fabs]; exact hx
  · rw [binary32.neg_fabs]
  · rw [binary32.toReal_fabs]; exact hr

/-- A value from its magnitude. -/
theorem toReal_eq_signed (x : BitVec 32) :
    binary32.toReal x = if binary32.neg x then -|binary32.toReal x| else |binary32.toReal x| := by
  cases hn : binary32.neg x
  · rw [abs_of_nonneg (toReal_nonneg hn)]; rfl
  · rw [abs_of_nonpos (binary32.toReal_nonpos hn), neg_neg]; rfl

theorem vecSin_track {V : LaneOps 32} (h : V.Ieee) {x : BitVec 32} (hx : IsFin binary32 x)
    (hr : |binary32.toReal x| ≤ 8192) : Tr (vecSin V x) (Real.sin (binary32.toReal x)) (1/2^22) 1 := by
  obtain ⟨a1, a2, a3⟩ := fabs_facts hx hr
  obtain ⟨q, q1, q2, q3⟩ := trig_reduce h a1 a2 a3
  unfold vecSin sinAbs
  dsimp only
  rw [abs_and h, h.sign, sign_and, swap_bit, poly_mask, h.sel]
  obtain ⟨p1, p2⟩ := trig_polys h q3
  generalize reduceArg V (binary32.fabs x) (V.convertToFloat (quadrant V (binary32.fabs x))) = r at *
  have hsel : Tr (if decide ((quadrant V (binary32.fabs x)).toNat / 2 % 2 = 0) = true then sinPoly V (V.mul r r) r
      else cosPoly V (V.mul r r)) (if q % 2 = 0 then Real.sin (binary32.toReal (binary32.fabs x) - q * (Real.pi / 2))
      else Real.cos (binary32.toReal (binary32.fabs x) - q * (Real.pi / 2))) (1/2^22) 1 := by
    rw [q2]
    by_cases hq : q % 2 = 0
    · rw [if_pos hq, if_pos (decide_eq_true (by omega))]; exact p1
    · rw [if_neg hq, if_neg (by rw [decide_eq_true_eq]; omega)]; exact p2
  have s1 := hsel.signed (decide ((quadrant V (binary32.fabs x)).toNat / 4 % 2 = 1))
  have s2 := s1.signed (binary32.neg x)
  rw [show signBit (binary32.neg x) ^^^ signBit (decide ((quadrant V (binary32.fabs x)).toNat / 4 % 2 = 1)) =
    signBit (decide ((quadrant V (binary32.fabs x)).toNat / 4 % 2 = 1)) ^^^ signBit (binary32.neg x) from
    BitVec.xor_comm _ _, ← BitVec.xor_assoc]
  refine s2.congr ?_
  have hs := sin_quadrant (binary32.toReal (binary32.fabs x) - q * (Real.pi / 2)) q
  rw [sub_add_cancel, binary32.toReal_fabs] at hs
  rw [binary32.toReal_fabs, q2]
  have e : decide (2 * q / 4 % 2 = 1) = decide (q / 2 % 2 = 1) := by congr 1; rw [eq_iff_iff]; omega
  rw [e]
  simp only [decide_eq_true_eq]
  rw [← hs]
  conv_rhs => rw [toReal_eq_signed x]
  cases binary32.neg x
  · rfl
  · simp only [if_true]; rw [Real.sin_neg]

/-- The sign of `vec_cos_float`. -/
theorem cos_sign {j : BitVec 32} {q : ℕ} (hq : q ≤ 5216) (hj : j.toNat = 2 * q) :
    (~~~(j - 2#32) &&& 4#32) <<< 29 = signBit (decide ((q + 1) / 2 % 2 = 1)) ∧
    intMaskEq ((j - 2#32) &&& 2#32) 0#32 = maskOf (decide (q % 2 = 1)) := by
  have hs : (j - 2#32).toNat = (2 ^ 32 - 2 + 2 * q) % 2 ^ 32 := by
    rw [BitVec.toNat_sub, hj]; rfl
  have hn : (~~~(j - 2#32)).toNat = 2 ^ 32 - 1 - (2 ^ 32 - 2 + 2 * q) % 2 ^ 32 := by
    rw [BitVec.toNat_not, hs]
  constructor
  · rw [swap_bit, hn]
    congr 2
    rw [eq_iff_iff]
    omega
  · rw [poly_mask, hs]
    congr 2
    rw [eq_iff_iff]
    omega

theorem vecCos_track {V : LaneOps 32} (h : V.Ieee) {x : BitVec 32} (hx : IsFin binary32 x)
    (hr : |binary32.toReal x| ≤ 8192) : Tr (vecCos V x) (Real.cos (binary32.toReal x)) (1/2^22) 1 := by
  obtain ⟨a1, a2, a3⟩ := fabs_facts hx hr
  obtain ⟨q, q1, q2, q3⟩ := trig_reduce h a1 a2 a3
  unfold vecCos
  dsimp only
  obtain ⟨c1, c2⟩ := cos_sign q1 q2
  rw [abs_and h, h.intAndnot, c1, c2, h.sel]
  obtain ⟨p1, p2⟩ := trig_polys h q3
  generalize reduceArg V (binary32.fabs x) (V.convertToFloat (quadrant V (binary32.fabs x))) = r at *
  have hsel : Tr (if decide (q % 2 = 1) = true then sinPoly V (V.mul r r) r
      else cosPoly V (V.mul r r)) (if q % 2 = 0 then Real.cos (binary32.toReal (binary32.fabs x) - q * (Real.pi / 2))
      else Real.sin (binary32.toReal (binary32.fabs x) - q * (Real.pi / 2))) (1/2^22) 1 := by
    by_cases hq : q % 2 = 0
    · rw [if_pos hq, if_neg (by rw [decide_eq_true_eq]; omega)]; exact p2
    · rw [if_neg hq, if_pos (decide_eq_true (by omega))]; exact p1
  have s1 := hsel.signed (decide ((q + 1) / 2 % 2 = 1))
  refine s1.congr ?_
  have hs := cos_quadrant (binary32.toReal (binary32.fabs x) - q * (Real.pi / 2)) q
  rw [sub_add_cancel, binary32.toReal_fabs, Real.cos_abs] at hs
  rw [binary32.toReal_fabs]
  simp only [decide_eq_true_eq]
  rw [← hs]

end Nova
