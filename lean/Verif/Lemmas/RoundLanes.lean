import Verif.Lemmas.RoundVec
import Verif.SpecFloat

/-! # round, floor, ceil of every build -/

namespace Nova
open FP VecMath

/-- Builds with a rounding instruction, or that call the C library. -/
def Build32.roundsAll : Build32 → Bool
  | .generic => true
  | .sse _ f => f.sse41
  | .avx _ => true
  | .neon => false
  | .altivec => false

/-- Builds whose floor and ceil are an instruction or a call of the C library. -/
def Build32.floorsAll : Build32 → Bool
  | .altivec => true
  | b => b.roundsAll

theorem round_lane32 (b : Build32) (P : Platform 32) {x : BitVec 32}
    (hx : b.roundsAll = true ∨ binary32.code x < 0x4B000000) :
    (b = .generic ∧ (b.lane P).round x = Scalar.round binary32 P.c99 x) ∨
    (b ≠ .generic ∧ (b.lane P).round x = binary32.roundInt .nearest x) := by
  cases b with
  | generic => exact .inl ⟨rfl, rfl⟩
  | sse s f =>
    refine .inr ⟨by simp, ?_⟩
    change Sse.round f (P.x86 binary32) x = _
    unfold Sse.round
    cases hf : f.sse41
    · rw [if_neg (by decide)]
      exact vecRound_eq (sse_pre_rounds f P) (hx.resolve_left (by simp [Build32.roundsAll, hf]))
    · rw [if_pos rfl]; rfl
  | avx f => exact .inr ⟨by simp, rfl⟩
  | neon => exact .inr ⟨by simp, vecRound_eq (neon_rounds P) (hx.resolve_left (by decide))⟩
  | altivec => exact .inr ⟨by simp, vecRound_eq (altivec_rounds P) (hx.resolve_left (by decide))⟩

theorem floor_lane32 (b : Build32) (P : Platform 32) {x : BitVec 32}
    (hx : b.floorsAll = true ∨ binary32.code x < 0x4B000000) :
    (b.lane P).floor x = binary32.roundInt .down x := by
  cases b with
  | generic => rfl
  | sse s f =>
    change Sse.floor f (P.x86 binary32) x = _
    unfold Sse.floor
    cases hf : f.sse41
    · rw [if_neg (by decide)]
      exact vecFloor_eq (sse_roundsCmp f P)
        (hx.resolve_left (by simp [Build32.floorsAll, Build32.roundsAll, hf]))
    · rw [if_pos rfl]; rfl
  | avx f => rfl
  | neon => exact vecFloor_eq (neon_roundsCmp P) (hx.resolve_left (by decide))
  | altivec => rfl

theorem ceil_lane32 (b : Build32) (P : Platform 32) {x : BitVec 32}
    (hx : b.floorsAll = true ∨ binary32.code x < 0x4B000000) :
    (b.lane P).ceil x = binary32.roundInt .up x ∨
    (b.floorsAll = false ∧ binary32.code (binary32.roundInt .up x) = 0 ∧ (b.lane P).ceil x = 0#32) := by
  cases b with
  | generic => exact .inl rfl
  | sse s f =>
    change Sse.ceil f (P.x86 binary32) x = _ ∨ (_ ∧ _ ∧ Sse.ceil f (P.x86 binary32) x = _)
    unfold Sse.ceil
    cases hf : f.sse41
    · have h := vecCeil_eq (sse_roundsCmp f P)
        (hx.resolve_left (by simp [Build32.floorsAll, Build32.roundsAll, hf]))
      rw [if_neg (by decide), h]
      by_cases h0 : binary32.code (binary32.roundInt .up x) = 0
      · rw [if_pos h0]; exact .inr ⟨hf, h0, rfl⟩
      · rw [if_neg h0]; exact .inl rfl
    · rw [if_pos rfl]; exact .inl rfl
  | avx f => exact .inl rfl
  | neon =>
    have h := vecCeil_eq (neon_roundsCmp P) (hx.resolve_left (by decide))
    change vecCeil (Neon.ops (P.arm binary32)) x = _ ∨ (_ ∧ _ ∧ vecCeil (Neon.ops (P.arm binary32)) x = _)
    rw [h]
    by_cases h0 : binary32.code (binary32.roundInt .up x) = 0
    · rw [if_pos h0]; exact .inr ⟨rfl, h0, rfl⟩
    · rw [if_neg h0]; exact .inl rfl
  | altivec => exact .inl rfl

/-! ## Explicit forms, for evaluation -/

theorem scalar_ceil (P : Platform 32) (x : BitVec 32) :
    (Build32.scalar P).ceil x = binary32.roundInt .up x := rfl
theorem scalar_floor (P : Platform 32) (x : BitVec 32) :
    (Build32.scalar P).floor x = binary32.roundInt .down x := rfl
theorem scalar_round (P : Platform 32) (x : BitVec 32) :
    (Build32.scalar P).round x = Scalar.round binary32 P.c99 x := rfl
theorem scalar_frac (P : Platform 32) (x : BitVec 32) :
    (Build32.scalar P).frac x = binary32.sub x (binary32.roundInt .down x) := rfl
theorem scalar_trunc (P : Platform 32) (x : BitVec 32) :
    (Build32.scalar P).trunc x = Scalar.trunc binary32 x := rfl


/-- `vec_round_float` with IEEE operations -/
def round23 (x : BitVec 32) : BitVec 32 :=
  (x &&& 0x80000000#32) ^^^
    binary32.sub (binary32.add ((x &&& 0x80000000#32) ^^^ x) 0x4B000000#32) 0x4B000000#32

theorem vecRound_explicit {V : LaneOps 32} (h : V.Rounds) (x : BitVec 32) : vecRound V x = round23 x := by
  unfold vecRound
  dsimp only
  rw [h.add, h.sub, h.sign, twoTo23_eq]; rfl

theorem vecFloor_explicit {V : LaneOps 32} (h : V.RoundsCmp) (x : BitVec 32) :
    vecFloor V x = binary32.sub (round23 x) (maskOf (binary32.ltb x (round23 x)) &&& 0x3f800000#32) := by
  unfold vecFloor
  dsimp only
  rw [vecRound_explicit h.toRounds, h.gt, h.one, h.sub]

theorem vecCeil_explicit {V : LaneOps 32} (h : V.RoundsCmp) (x : BitVec 32) :
    vecCeil V x = binary32.add (round23 x) (maskOf (binary32.ltb (round23 x) x) &&& 0x3f800000#32) := by
  unfold vecCeil
  dsimp only
  rw [vecRound_explicit h.toRounds, h.lt, h.one, h.add]

theorem round_lane32_explicit (b : Build32) (hb : b.roundsAll = false) (P : Platform 32) (x : BitVec 32) :
    (b.lane P).round x = round23 x := by
  cases b with
  | generic => exact absurd hb (by decide)
  | avx f => exact absurd hb (by simp [Build32.roundsAll])
  | sse s f =>
    change Sse.round f (P.x86 binary32) x = _
    have hf : f.sse41 = false := hb
    unfold Sse.round
    rw [hf, if_neg (by decide)]
    exact vecRound_explicit (sse_pre_rounds f P) x
  | neon => exact vecRound_explicit (neon_rounds P) x
  | altivec => exact vecRound_explicit (altivec_rounds P) x

theorem floor_lane32_explicit (b : Build32) (hb : b.floorsAll = false) (P : Platform 32) (x : BitVec 32) :
    (b.lane P).floor x =
      binary32.sub (round23 x) (maskOf (binary32.ltb x (round23 x)) &&& 0x3f800000#32) ∧
    (b.lane P).ceil x =
      binary32.add (round23 x) (maskOf (binary32.ltb (round23 x) x) &&& 0x3f800000#32) := by
  cases b with
  | generic => exact absurd hb (by decide)
  | altivec => exact absurd hb (by decide)
  | avx f => exact absurd hb (by simp [Build32.floorsAll, Build32.roundsAll])
  | sse s f =>
    change Sse.floor f (P.x86 binary32) x = _ ∧ Sse.ceil f (P.x86 binary32) x = _
    have hf : f.sse41 = false := hb
    unfold Sse.floor Sse.ceil
    rw [hf, if_neg (by decide), if_neg (by decide)]
    exact ⟨vecFloor_explicit (sse_roundsCmp f P) x, vecCeil_explicit (sse_roundsCmp f P) x⟩
  | neon => exact ⟨vecFloor_explicit (neon_roundsCmp P) x, vecCeil_explicit (neon_roundsCmp P) x⟩

/-- Numbers below 2^23 in terms of their value. -/
theorem code_lt_of_value {x : BitVec 32} (h : |binary32.toReal x| < 2 ^ 23) :
    binary32.code x < 0x4B000000 := by
  by_contra hc
  have h1 : mag 23 0x4B000000 ≤ mag 23 (binary32.code x) := mag_le_iff.mpr (by omega)
  have h2 : mag 23 0x4B000000 = 2 ^ 172 := by decide +kernel
  rw [h2] at h1
  rw [← binary32.toReal_fabs, binary32.toReal_eq, binary32.neg_fabs, binary32.code_fabs] at h
  have hs : binary32.scale = 149 := by decide
  have hmb : binary32.mb = 23 := rfl
  rw [hs, hmb] at h
  simp only [Bool.false_eq_true, if_false, one_mul] at h
  rw [div_lt_iff₀ (by positivity)] at h
  have h3 : (2 : ℝ) ^ 172 ≤ mag 23 (binary32.code x) := by exact_mod_cast h1
  have h4 : (2 : ℝ) ^ 23 * 2 ^ 149 = 2 ^ 172 := by norm_num
  linarith

theorem eq_of_toReal {w : Nat} (F : Fmt w) {x y : BitVec w} (hn : F.neg x = F.neg y)
    (h : F.toReal x = F.toReal y) : x = y := by
  have hu := (F.toReal_eq_iff x y).mp h
  have := congrArg Int.natAbs hu
  rw [F.natAbs_units, F.natAbs_units] at this
  exact F.ext hn (mag_inj.mp this)

/-- An integral number is not changed. -/
theorem roundInt_integral {w : Nat} (F : Fmt w) (hF : F.Wide) (m : Fmt.Mode) {x : BitVec w}
    (hx : F.isFinite x = true) (hk : ∃ k : ℤ, F.toReal x = k) : F.roundInt m x = x := by
  obtain ⟨h1, h2, h3⟩ := F.roundInt_value hF m hx
  obtain ⟨k, hk⟩ := hk
  apply eq_of_toReal F h2
  rw [hk] at h3 ⊢
  cases m with
  | nearest =>
    obtain ⟨j, e, hj, -⟩ := h3
    have : |((k - j : ℤ) : ℝ)| ≤ 1 / 2 := by push_cast; exact hj
    have : |k - j| < 1 := by
      rw [← Int.cast_abs] at this
      have h : ((|k - j| : ℤ) : ℝ) < 1 := by linarith
      exact_mod_cast h
    rw [e]; congr 1; have := Int.abs_lt_one_iff.mp this; omega
  | away =>
    obtain ⟨j, e, hj, -⟩ := h3
    have : |((k - j : ℤ) : ℝ)| ≤ 1 / 2 := by push_cast; exact hj
    have : |k - j| < 1 := by
      rw [← Int.cast_abs] at this
      have h : ((|k - j| : ℤ) : ℝ) < 1 := by linarith
      exact_mod_cast h
    rw [e]; congr 1; have := Int.abs_lt_one_iff.mp this; omega
  | zero =>
    unfold Fmt.IsRounded at h3
    rw [h3]; simp
  | down =>
    unfold Fmt.IsRounded at h3
    rw [h3]; simp
  | up =>
    unfold Fmt.IsRounded at h3
    rw [h3]; simp

/-- Away from ties there is only one nearest integer. -/
theorem nearest_unique {v a b : ℝ} (ha : Fmt.IsRounded .nearest v a) (hb : Fmt.IsRounded .away v b)
    (ht : ∀ k : ℤ, |v - k| ≠ 1 / 2) : a = b := by
  obtain ⟨j, rfl, hj, -⟩ := ha
  obtain ⟨k, rfl, hk, -⟩ := hb
  have h1 := lt_of_le_of_ne hj (ht j)
  have h2 := lt_of_le_of_ne hk (ht k)
  have h3 : |((k - j : ℤ) : ℝ)| < 1 := by
    push_cast
    rw [abs_lt] at h1 h2 ⊢
    constructor <;> linarith
  have : |k - j| < 1 := by rw [← Int.cast_abs] at h3; exact_mod_cast h3
  congr 1; have := Int.abs_lt_one_iff.mp this; omega

/-! ## trunc -/

/-- `(float)(long)x` keeps the integer part; only the sign of a zero is lost. -/
theorem trunc_scalar {w : Nat} (F : Fmt w) (hF : F.Wide) {x : BitVec w} (hx : F.isFinite x = true)
    (hr : |F.toReal x| < 2 ^ 63) :
    Scalar.trunc F x = .ok (if F.code (F.roundInt .zero x) = 0 then F.posZero else F.roundInt .zero x) := by
  obtain ⟨c, h1, h2, h3⟩ := F.roundInt_finite hF .zero hx
  have hD : 0 < 2 ^ F.scale := Nat.two_pow_pos _
  have hcl := F.infCode_lt
  have e0 : Fmt.roundMag .zero (F.neg x) (mag F.mb (F.code x)) (2 ^ F.scale) =
      mag F.mb (F.code x) / 2 ^ F.scale := rfl
  rw [e0] at h2
  have hk : mag F.mb (F.code x) / 2 ^ F.scale < 2 ^ 63 := by
    rw [Nat.div_lt_iff_lt_mul hD]
    rw [← F.toReal_fabs, F.toReal_eq, F.neg_fabs, F.code_fabs] at hr
    simp only [Bool.false_eq_true, if_false, one_mul] at hr
    rw [div_lt_iff₀ (by positivity)] at hr
    exact_mod_cast hr
  have hf := (F.roundInt_value hF .zero hx)
  unfold Scalar.trunc
  rw [if_pos hx]
  unfold Scalar.toLong
  dsimp only
  set k := mag F.mb (F.code x) / 2 ^ F.scale with hkdef
  have hrange : -(2 ^ 63) ≤ (if F.neg x then -(k : Int) else k) ∧ (if F.neg x then -(k : Int) else (k : Int)) < 2 ^ 63 := by
    cases F.neg x <;> simp only [Bool.false_eq_true, if_false, if_true] <;> omega
  rw [if_pos hrange, h3, F.code_pack _ (by omega)]
  congr 1
  unfold Fmt.ofInt
  have hc0 : c = 0 ↔ k = 0 := by
    rw [← mag_eq_zero (mb := F.mb), h2, Nat.mul_eq_zero]; simp
  by_cases hk0 : k = 0
  · rw [if_pos (by rw [hk0]; simp), if_pos (hc0.mpr hk0)]
  · have hnat : (if F.neg x then -(k : Int) else k).natAbs = k := by cases F.neg x <;> simp
    have hneg : decide ((if F.neg x then -(k : Int) else k) < 0) = F.neg x := by
      cases F.neg x
      · simp
      · simp; omega
    rw [if_neg (by cases F.neg x <;> simp <;> omega), if_neg (fun h => hk0 (hc0.mp h)), hnat, hneg]
    exact F.packRnd_mag _ (by decide) h1.le (by rw [h2, Nat.mul_one])

/-! ## frac -/

/-- `x - floor(x)` is a number between 0 and 1. -/
theorem sub_floor {w : Nat} (F : Fmt w) (hF : F.Wide) {x one : BitVec w} (hx : F.isFinite x = true)
    (hone : mag F.mb (F.code one) = 2 ^ F.scale) (honef : F.code one < F.infCode) :
    F.isFinite (F.sub x (F.roundInt .down x)) = true ∧ F.neg (F.sub x (F.roundInt .down x)) = false ∧
    F.code (F.sub x (F.roundInt .down x)) ≤ F.code one := by
  obtain ⟨h1, h2, h3⟩ := F.roundInt_value hF .down hx
  unfold Fmt.IsRounded at h3
  generalize F.roundInt .down x = y at *
  have hp : (0 : ℝ) < 2 ^ F.scale := by positivity
  have hlo : F.units y ≤ F.units x := by
    have : F.toReal y ≤ F.toReal x := by rw [h3]; exact Int.floor_le _
    unfold Fmt.toReal at this
    rw [div_le_div_iff_of_pos_right hp] at this
    exact_mod_cast this
  have hhi : F.units x < F.units y + 2 ^ F.scale := by
    have : F.toReal x < F.toReal y + 1 := by rw [h3]; exact Int.lt_floor_add_one _
    unfold Fmt.toReal at this
    rw [div_add_one hp.ne', div_lt_div_iff_of_pos_right hp] at this
    exact_mod_cast this
  rw [F.sub_num (F.isFinite_not_nan hx) (F.isFinite_not_nan h1), F.add_finite hx (by simpa using h1),
    F.units_negate]
  have hcl := F.infCode_lt
  by_cases h0 : F.units x + -F.units y = 0
  · rw [if_pos h0]
    refine ⟨F.isFinite_pack _ F.infCode_pos, ?_, ?_⟩
    · rw [F.neg_pack _ (Nat.two_pow_pos _), F.neg_negate, h2]; simp
    · rw [F.code_pack _ (Nat.two_pow_pos _)]; exact Nat.zero_le _
  · rw [if_neg h0]
    have hle : rne F.mb (F.units x + -F.units y).natAbs 1 ≤ F.code one := by
      refine rne_le (by decide) ?_
      rw [hone, Nat.mul_one]
      have hn : ((F.units x + -F.units y).natAbs : Int) = F.units x + -F.units y := by
        rw [Int.natCast_natAbs, abs_of_nonneg (by omega)]
      have : ((F.units x + -F.units y).natAbs : Int) ≤ ((2 ^ F.scale : Nat) : Int) := by
        rw [hn]; push_cast; omega
      exact_mod_cast this
    refine ⟨?_, ?_, ?_⟩
    · unfold Fmt.isFinite
      rw [F.packRnd_code]
      exact decide_eq_true (by omega)
    · rw [F.packRnd_neg]; exact decide_eq_false (by omega)
    · rw [F.packRnd_code]; exact le_trans (Nat.min_le_right _ _) hle

/-- The low part of a magnitude is a magnitude. -/
theorem mag_mod_exists (mb c t : Nat) : ∃ d, mag mb d = mag mb c % 2 ^ t := by
  obtain ⟨s, m, rfl, h1, h2⟩ := code_decomp mb c
  rw [mag_decomp mb h1.le h2]
  by_cases hs : t ≤ s
  · refine ⟨0, ?_⟩
    rw [mag_zero, Nat.mod_eq_zero_of_dvd (Dvd.dvd.mul_left (pow_dvd_pow 2 hs) m)]
  · obtain ⟨d, hd⟩ := mag_exists (mb := mb) (m := m % 2 ^ (t - s)) s
      ((Nat.mod_le _ _).trans h1.le)
    refine ⟨d, ?_⟩
    rw [hd, show 2 ^ t = 2 ^ (t - s) * 2 ^ s by rw [← pow_add]; congr 1; omega, Nat.mul_mod_mul_right]

/-- For `0 ≤ x` the fraction is exact. -/
theorem sub_floor_exact {w : Nat} (F : Fmt w) (hF : F.Wide) {x : BitVec w} (hx : F.isFinite x = true)
    (h0 : F.neg x = false) :
    F.toReal (F.sub x (F.roundInt .down x)) = F.toReal x - ⌊F.toReal x⌋ := by
  obtain ⟨h1, h2, h3⟩ := F.roundInt_value hF .down hx
  obtain ⟨c, hc1, hc2, hc3⟩ := F.roundInt_finite hF .down hx
  unfold Fmt.IsRounded at h3
  rw [← h3]
  rw [h0] at hc2 hc3
  have e0 : Fmt.roundMag .down false (mag F.mb (F.code x)) (2 ^ F.scale) =
      mag F.mb (F.code x) / 2 ^ F.scale := rfl
  rw [e0] at hc2
  have hux : F.units x = mag F.mb (F.code x) := by unfold Fmt.units; rw [h0]; rfl
  have huy : F.units (F.roundInt .down x) = (mag F.mb (F.code x) / 2 ^ F.scale * 2 ^ F.scale : Nat) := by
    unfold Fmt.units
    rw [h2, h0, hc3, F.code_pack _ (hc1.trans F.infCode_lt), hc2]; rfl
  generalize F.roundInt .down x = y at *
  have hd : F.units x + -F.units y = ((mag F.mb (F.code x) % 2 ^ F.scale : Nat) : Int) := by
    rw [hux, huy]
    have := Nat.div_add_mod' (mag F.mb (F.code x)) (2 ^ F.scale)
    omega
  obtain ⟨d, hdm⟩ := mag_mod_exists F.mb (F.code x) F.scale
  have hdc : d ≤ F.code x := by
    rw [← mag_le_iff (mb := F.mb), hdm]; exact Nat.mod_le _ _
  have hfin := F.finite_code hx
  have hcl := F.infCode_lt
  rw [F.sub_num (F.isFinite_not_nan hx) (F.isFinite_not_nan h1), F.add_finite hx (by simpa using h1),
    F.units_negate]
  have key : F.units x - F.units y = mag F.mb d := by rw [hdm, ← hd]; ring
  have hval : F.toReal x - F.toReal y = (mag F.mb d : ℝ) / 2 ^ F.scale := by
    unfold Fmt.toReal
    rw [← sub_div]; congr 1; exact_mod_cast key
  rw [hval]
  by_cases hz : F.units x + -F.units y = 0
  · rw [if_pos hz]
    have : mag F.mb d = 0 := by rw [hdm]; exact_mod_cast hd ▸ hz
    rw [this, F.toReal_eq, F.code_pack _ (Nat.two_pow_pos _), mag_zero]; simp
  · rw [if_neg hz, hd, Int.natAbs_natCast, F.packRnd_mag _ (by decide) (hdc.trans hfin.le) (by rw [hdm, Nat.mul_one]),
      F.toReal_eq, F.code_pack _ (by omega), F.neg_pack _ (by omega), decide_eq_false (by omega)]
    simp

end Nova
