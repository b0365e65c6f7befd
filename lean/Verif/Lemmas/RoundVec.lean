import Verif.Lemmas.BitMath
import Verif.Float.RoundInt

/-! # vec_round_float, vec_floor_float, vec_ceil_float -/

namespace Nova
open FP VecMath

theorem twoTo23_eq : twoTo23 = 0x4B000000#32 := by decide +kernel

theorem rne_add_two23 {N : Nat} (hN : N < 2 ^ 172) :
    rne 23 (N + 2 ^ 172) 1 = 149 * 2 ^ 23 + (2 ^ 23 + rneInt N (2 ^ 149)) := by
  have hs : shiftOf 23 (N + 2 ^ 172) 1 = 149 := by
    unfold shiftOf
    have : Nat.log2 (N + 2 ^ 172) = 172 := (Nat.log2_eq_iff (by omega)).mpr ⟨by omega, by omega⟩
    rw [Nat.div_one, this]
  unfold rne rneInt
  simp only [hs, Nat.one_mul]
  have h1 : (N + 2 ^ 172) / 2 ^ 149 = N / 2 ^ 149 + 2 ^ 23 := by omega
  have h2 : (N + 2 ^ 172) % 2 ^ 149 = N % 2 ^ 149 := by omega
  rw [h1, h2]
  have h3 : (N / 2 ^ 149 + 2 ^ 23) % 2 = N / 2 ^ 149 % 2 := by omega
  rw [h3]
  split <;> omega

/-- What rounding needs: IEEE addition and the sign mask. -/
structure LaneOps.Rounds (V : LaneOps 32) : Prop where
  add : V.add = binary32.add
  sub : V.sub = binary32.sub
  sign : V.signMask = 0x80000000#32

theorem sse_rounds (f : Sse.Flags) (P : Platform 32) : (Sse.ops f (P.x86 binary32)).Rounds :=
  ⟨rfl, rfl, sse_signMask _ P⟩
theorem sse_pre_rounds (f : Sse.Flags) (P : Platform 32) : (Sse.pre f (P.x86 binary32)).Rounds :=
  ⟨rfl, rfl, sse_signMask _ P⟩
theorem neon_rounds (P : Platform 32) : (Neon.ops (P.arm binary32)).Rounds := ⟨rfl, rfl, rfl⟩
theorem altivec_rounds (P : Platform 32) : (Altivec.ops (P.arm binary32)).Rounds := ⟨rfl, rfl, rfl⟩

theorem mag_lt_two23 {c : Nat} (h : c < 0x4B000000) : mag 23 c < 2 ^ 172 := by
  have : mag 23 0x4B000000 = 2 ^ 172 := by decide +kernel
  rw [← this]; exact mag_lt_iff.mpr h

/-- Below 2^23 adding and subtracting 2^23 rounds to the nearest integer, ties to even. -/
theorem vecRound_eq {V : LaneOps 32} (h : V.Rounds) {x : BitVec 32}
    (hx : binary32.code x < 0x4B000000) : vecRound V x = binary32.roundInt .nearest x := by
  have hinf : binary32.infCode = 0x7f800000 := by decide
  have hsc : binary32.scale = 149 := by decide
  have hmb : binary32.mb = 23 := rfl
  have hN := mag_lt_two23 hx
  have hfin : binary32.isFinite x = true := by
    unfold Fmt.isFinite; rw [hinf]; exact decide_eq_true (by omega)
  unfold vecRound
  dsimp only
  rw [h.add, h.sub, h.sign, ← signBit32, binary32.sign_xor, twoTo23_eq]
  have hk : rneInt (mag 23 (binary32.code x)) (2 ^ 149) ≤ 2 ^ 23 :=
    Fmt.roundMag_le .nearest false (by decide) (by omega)
  -- the sum
  have hsum : binary32.add (binary32.fabs x) 0x4B000000#32 =
      binary32.pack false (149 * 2 ^ 23 + (2 ^ 23 + rneInt (mag 23 (binary32.code x)) (2 ^ 149))) := by
    rw [binary32.add_finite (by simpa using hfin) (by decide)]
    have u1 : binary32.units (binary32.fabs x) = mag 23 (binary32.code x) := by
      unfold Fmt.units; rw [binary32.neg_fabs, binary32.code_fabs, hmb]; simp
    have u2 : binary32.units 0x4B000000#32 = 2 ^ 172 := by decide +kernel
    rw [u1, u2]
    have e : ((mag 23 (binary32.code x) : Int) + 2 ^ 172) = ((mag 23 (binary32.code x) + 2 ^ 172 : Nat) : Int) := by
      push_cast; rfl
    rw [e, if_neg (by omega), Int.natAbs_natCast]
    unfold Fmt.packRnd
    rw [hmb, rne_add_two23 hN, hinf, Nat.min_eq_right (by omega), decide_eq_false (by omega)]
  rw [hsum]
  set K := rneInt (mag 23 (binary32.code x)) (2 ^ 149) with hK
  have hm : mag 23 (149 * 2 ^ 23 + (2 ^ 23 + K)) = (2 ^ 23 + K) * 2 ^ 149 :=
    mag_decomp 23 (by omega) (.inr (by omega))
  have hcl : 149 * 2 ^ 23 + (2 ^ 23 + K) < 2 ^ (32 - 1) := by omega
  -- the difference
  have hdiff : binary32.sub (binary32.pack false (149 * 2 ^ 23 + (2 ^ 23 + K))) 0x4B000000#32 =
      binary32.packRnd false (K * 2 ^ 149) 1 := by
    have hf : binary32.isFinite (binary32.pack false (149 * 2 ^ 23 + (2 ^ 23 + K))) = true :=
      binary32.isFinite_pack _ (by rw [hinf]; omega)
    rw [binary32.sub_num (binary32.isFinite_not_nan hf) (by decide),
      binary32.add_finite hf (by decide +kernel)]
    have u1 : binary32.units (binary32.pack false (149 * 2 ^ 23 + (2 ^ 23 + K))) = ((2 ^ 23 + K) * 2 ^ 149 : Nat) := by
      unfold Fmt.units
      rw [binary32.neg_pack _ hcl, binary32.code_pack _ hcl, hmb, hm]; simp
    have u2 : binary32.units (binary32.negate 0x4B000000#32) = -2 ^ 172 := by decide +kernel
    rw [u1, u2]
    have e : (((2 ^ 23 + K) * 2 ^ 149 : Nat) : Int) + -2 ^ 172 = ((K * 2 ^ 149 : Nat) : Int) := by
      push_cast; ring
    rw [e]
    by_cases hK0 : K = 0
    · rw [if_pos (by rw [hK0]; simp), binary32.neg_pack _ hcl, hK0]
      decide +kernel
    · rw [if_neg (by positivity), Int.natAbs_natCast, decide_eq_false (by omega)]
  rw [hdiff]
  -- the specification
  unfold Fmt.roundInt
  rw [binary32.isFinite_not_nan hfin, binary32.isFinite_not_inf hfin]
  simp only [Bool.false_eq_true, if_false]
  have e : Fmt.roundMag .nearest (binary32.neg x) (mag binary32.mb (binary32.code x)) (2 ^ binary32.scale) = K := by
    rw [hmb, hsc]; rfl
  rw [e, hsc]
  apply binary32.ext
  · rw [binary32.neg_xor_sign, binary32.packRnd_neg, binary32.packRnd_neg]; simp
  · rw [binary32.code_xor_sign, binary32.packRnd_code, binary32.packRnd_code]

/-- Adding numbers whose sum is representable. -/
theorem add_step {x y t : BitVec 32} (hx : binary32.isFinite x = true) (hy : binary32.isFinite y = true)
    (ht : binary32.isFinite t = true) (h : binary32.units x + binary32.units y = binary32.units t) :
    binary32.add x y =
      if binary32.code t = 0 then binary32.pack (binary32.neg x && binary32.neg y) 0 else t := by
  split
  · rename_i h0
    exact binary32.add_zero_sum hx hy (by rw [h]; exact binary32.units_eq_zero.mpr h0)
  · rename_i h0
    exact binary32.add_exact hx hy ht h h0

/-- The parts of a number below 2^23 and its roundings. -/
theorem round_parts (m : Fmt.Mode) {x : BitVec 32} (hx : binary32.code x < 0x4B000000) :
    binary32.isFinite (binary32.roundInt m x) = true ∧
    binary32.neg (binary32.roundInt m x) = binary32.neg x ∧
    mag 23 (binary32.code (binary32.roundInt m x)) =
      Fmt.roundMag m (binary32.neg x) (mag 23 (binary32.code x)) (2 ^ 149) * 2 ^ 149 := by
  have hinf : binary32.infCode = 0x7f800000 := by decide
  have hfin : binary32.isFinite x = true := by
    unfold Fmt.isFinite; rw [hinf]; exact decide_eq_true (by omega)
  obtain ⟨c, h1, h2, h3⟩ := binary32.roundInt_finite Fmt.wide32 m hfin
  have h4 := binary32.infCode_lt
  rw [h3]
  refine ⟨binary32.isFinite_pack _ h1, binary32.neg_pack _ (by omega), ?_⟩
  rw [binary32.code_pack _ (by omega)]
  exact h2

theorem units_eq (x : BitVec 32) :
    binary32.units x = if binary32.neg x then -(mag 23 (binary32.code x) : Int) else mag 23 (binary32.code x) := rfl

theorem sub_posZero {x : BitVec 32} (hx : binary32.isFinite x = true) : binary32.sub x 0#32 = x := by
  rw [binary32.sub_num (binary32.isFinite_not_nan hx) (by decide),
    add_step hx (by decide) hx (by have : binary32.units (binary32.negate 0#32) = 0 := by decide
                                   omega)]
  split
  · rename_i h0
    apply binary32.ext
    · rw [binary32.neg_pack _ (by decide)]
      have : binary32.neg (binary32.negate 0#32) = true := by decide
      rw [this]; simp
    · rw [binary32.code_pack _ (by decide), h0]
  · rfl

theorem add_posZero {x : BitVec 32} (hx : binary32.isFinite x = true) :
    binary32.add x 0#32 = if binary32.code x = 0 then 0#32 else x := by
  rw [add_step hx (by decide) hx (by have : binary32.units 0#32 = 0 := by decide
                                     omega)]
  split
  · have : binary32.neg 0#32 = false := by decide
    rw [this, Bool.and_false]; decide
  · rfl

theorem ltb_units {x y : BitVec 32} (hx : binary32.isFinite x = true) (hy : binary32.isFinite y = true) :
    binary32.ltb x y = decide (binary32.units x < binary32.units y) := by
  rw [binary32.ltb_of_num (binary32.isFinite_not_nan hx) (binary32.isFinite_not_nan hy)]
  congr 1
  rw [binary32.key_lt_iff_units]

/-- What floor and ceil need in addition. -/
structure LaneOps.RoundsCmp (V : LaneOps 32) : Prop extends V.Rounds where
  one : V.one = 0x3f800000#32
  gt : ∀ x y, V.maskGt x y = maskOf (binary32.ltb y x)
  lt : ∀ x y, V.maskLt x y = maskOf (binary32.ltb x y)

theorem sse_roundsCmp (f : Sse.Flags) (P : Platform 32) : (Sse.ops f (P.x86 binary32)).RoundsCmp :=
  ⟨sse_rounds f P, sse_one _ P, fun _ _ => rfl, fun _ _ => rfl⟩
theorem neon_roundsCmp (P : Platform 32) : (Neon.ops (P.arm binary32)).RoundsCmp :=
  ⟨neon_rounds P, litF_one, fun _ _ => rfl, fun _ _ => rfl⟩

theorem finite_of_lt {x : BitVec 32} (hx : binary32.code x < 0x4B000000) : binary32.isFinite x = true := by
  have hinf : binary32.infCode = 0x7f800000 := by decide
  unfold Fmt.isFinite; rw [hinf]; exact decide_eq_true (by omega)

theorem eq_of_units {x y : BitVec 32} (hn : binary32.neg x = binary32.neg y)
    (h : mag 23 (binary32.code x) = mag 23 (binary32.code y)) : x = y :=
  binary32.ext hn (mag_inj.mp h)

theorem vecFloor_eq {V : LaneOps 32} (h : V.RoundsCmp) {x : BitVec 32}
    (hx : binary32.code x < 0x4B000000) : vecFloor V x = binary32.roundInt .down x := by
  unfold vecFloor
  dsimp only
  rw [vecRound_eq h.toRounds hx, h.gt, h.one, h.sub, maskOf_and]
  have hfin := finite_of_lt hx
  obtain ⟨r1, r2, r3⟩ := round_parts .nearest hx
  obtain ⟨t1, t2, t3⟩ := round_parts .down hx
  have kr := Fmt.roundMag_spec .nearest (binary32.neg x) (mag 23 (binary32.code x)) (D := 2 ^ 149) (by decide)
  have kt := Fmt.roundMag_spec .down (binary32.neg x) (mag 23 (binary32.code x)) (D := 2 ^ 149) (by decide)
  generalize binary32.roundInt .nearest x = r at *
  generalize binary32.roundInt .down x = t at *
  generalize Fmt.roundMag .nearest (binary32.neg x) (mag 23 (binary32.code x)) (2 ^ 149) = K at *
  generalize Fmt.roundMag .down (binary32.neg x) (mag 23 (binary32.code x)) (2 ^ 149) = L at *
  rw [ltb_units hfin r1]
  have ux := units_eq x
  have ur := units_eq r
  have ut := units_eq t
  rw [r2, r3] at ur
  rw [t2, t3] at ut
  unfold Fmt.RoundsTo at kr kt
  dsimp only at kr kt
  have u1 : binary32.units (binary32.negate 0x3f800000#32) = -2 ^ 149 := by decide +kernel
  generalize mag 23 (binary32.code x) = N at *
  cases hs : binary32.neg x
  · rw [hs] at ux ur ut kt r2 t2
    simp only [Bool.false_eq_true, if_false] at ux ur ut kt
    by_cases hKL : K = L
    · subst hKL
      rw [if_neg (by rw [decide_eq_true_eq]; omega), sub_posZero r1]
      exact eq_of_units (r2.trans t2.symm) (r3.trans t3.symm)
    · rw [if_pos (by rw [decide_eq_true_eq]; omega), binary32.sub_num (binary32.isFinite_not_nan r1) (by decide),
        add_step r1 (by decide +kernel) t1 (by rw [u1]; omega)]
      split
      · rename_i h0
        rw [r2]; apply binary32.ext
        · rw [binary32.neg_pack _ (by decide), t2]; rfl
        · rw [binary32.code_pack _ (by decide), h0]
      · rfl
  · rw [hs] at ux ur ut kt r2 t2
    simp only [if_true] at ux ur ut kt
    by_cases hKL : K = L
    · subst hKL
      rw [if_neg (by rw [decide_eq_true_eq]; omega), sub_posZero r1]
      exact eq_of_units (r2.trans t2.symm) (r3.trans t3.symm)
    · rw [if_pos (by rw [decide_eq_true_eq]; omega), binary32.sub_num (binary32.isFinite_not_nan r1) (by decide),
        add_step r1 (by decide +kernel) t1 (by rw [u1]; omega)]
      rw [if_neg]
      intro h0
      rw [h0, mag_zero] at t3
      omega

/-- ceil: the sign of a zero is lost. -/
theorem vecCeil_eq {V : LaneOps 32} (h : V.RoundsCmp) {x : BitVec 32}
    (hx : binary32.code x < 0x4B000000) :
    vecCeil V x = if binary32.code (binary32.roundInt .up x) = 0 then 0#32 else binary32.roundInt .up x := by
  unfold vecCeil
  dsimp only
  rw [vecRound_eq h.toRounds hx, h.lt, h.one, h.add, maskOf_and]
  have hfin := finite_of_lt hx
  obtain ⟨r1, r2, r3⟩ := round_parts .nearest hx
  obtain ⟨t1, t2, t3⟩ := round_parts .up hx
  have kr := Fmt.roundMag_spec .nearest (binary32.neg x) (mag 23 (binary32.code x)) (D := 2 ^ 149) (by decide)
  have kt := Fmt.roundMag_spec .up (binary32.neg x) (mag 23 (binary32.code x)) (D := 2 ^ 149) (by decide)
  generalize binary32.roundInt .nearest x = r at *
  generalize binary32.roundInt .up x = t at *
  generalize Fmt.roundMag .nearest (binary32.neg x) (mag 23 (binary32.code x)) (2 ^ 149) = K at *
  generalize Fmt.roundMag .up (binary32.neg x) (mag 23 (binary32.code x)) (2 ^ 149) = L at *
  rw [ltb_units r1 hfin]
  have ux := units_eq x
  have ur := units_eq r
  have ut := units_eq t
  rw [r2, r3] at ur
  rw [t2, t3] at ut
  unfold Fmt.RoundsTo at kr kt
  dsimp only at kr kt
  have u1 : binary32.units 0x3f800000#32 = 2 ^ 149 := by decide +kernel
  have n1 : binary32.neg 0x3f800000#32 = false := by decide
  have z : binary32.pack false 0 = 0#32 := by decide
  generalize mag 23 (binary32.code x) = N at *
  have heq : K = L → r = t := by
    rintro rfl; exact eq_of_units (r2.trans t2.symm) (r3.trans t3.symm)
  cases hs : binary32.neg x <;>
  · rw [hs] at ux ur ut kt
    simp only [Bool.false_eq_true, if_false, if_true] at ux ur ut kt
    by_cases hKL : K = L
    · have e := heq hKL
      subst e hKL
      rw [if_neg (by rw [decide_eq_true_eq]; omega), add_posZero r1]
    · rw [if_pos (by rw [decide_eq_true_eq]; omega),
        add_step r1 (by decide +kernel) t1 (by rw [u1]; omega), n1, Bool.and_false, z]

end Nova
