import Verif.Float.Error
import Verif.SpecFloat

/-!
# Error tracking

`Tr x v e B`: the pattern `x` is a finite number within `e` of the real number `v`, and `|v| ≤ B`.  One lemma for
every operation of binary32.
-/

namespace Nova
open FP

theorem near_le {w : Nat} {F : Fmt w} {v : ℝ} {r : BitVec w} (h : F.Near v r) :
    |F.toReal r - v| ≤ F.u * |v| + F.eta := by
  refine h.2.trans (max_le ?_ ?_)
  · linarith [F.eta_pos]
  · have := mul_nonneg F.u_pos.le (abs_nonneg v); linarith

theorem near32 {v : ℝ} {r : BitVec 32} (h : binary32.Near v r) :
    |binary32.toReal r - v| ≤ 1 / 2 ^ 24 * |v| + 1 / 2 ^ 150 := by
  have := near_le h; rwa [Fmt.u32, Fmt.eta32] at this

theorem nearRel32 {v : ℝ} {r : BitVec 32} (h : binary32.NearRel v r) :
    |binary32.toReal r - v| ≤ 1 / 2 ^ 24 * |v| := by
  have := h.2; rwa [Fmt.u32] at this

theorem bias32 : binary32.bias = 127 := by decide

theorem add_near32 {x y : BitVec 32} (hx : IsFin binary32 x) (hy : IsFin binary32 y)
    (h : |binary32.toReal x + binary32.toReal y| ≤ 2 ^ 127) :
    IsFin binary32 (binary32.add x y) ∧
    |binary32.toReal (binary32.add x y) - (binary32.toReal x + binary32.toReal y)| ≤
      1 / 2 ^ 24 * |binary32.toReal x + binary32.toReal y| := by
  have := Fmt.add_near (F := binary32) hx hy (by rw [bias32]; exact h)
  exact ⟨this.1, nearRel32 this⟩

theorem sub_near32 {x y : BitVec 32} (hx : IsFin binary32 x) (hy : IsFin binary32 y)
    (h : |binary32.toReal x - binary32.toReal y| ≤ 2 ^ 127) :
    IsFin binary32 (binary32.sub x y) ∧
    |binary32.toReal (binary32.sub x y) - (binary32.toReal x - binary32.toReal y)| ≤
      1 / 2 ^ 24 * |binary32.toReal x - binary32.toReal y| := by
  have := Fmt.sub_near (F := binary32) hx hy (by rw [bias32]; exact h)
  exact ⟨this.1, nearRel32 this⟩

theorem mul_near32 {x y : BitVec 32} (hx : IsFin binary32 x) (hy : IsFin binary32 y)
    (h : |binary32.toReal x * binary32.toReal y| ≤ 2 ^ 127) :
    IsFin binary32 (binary32.mul x y) ∧
    |binary32.toReal (binary32.mul x y) - binary32.toReal x * binary32.toReal y| ≤
      1 / 2 ^ 24 * |binary32.toReal x * binary32.toReal y| + 1 / 2 ^ 150 := by
  have := Fmt.mul_near (F := binary32) hx hy (by rw [bias32]; exact h)
  exact ⟨this.1, near32 this⟩

theorem fma_near32 {x y z : BitVec 32} (hx : IsFin binary32 x) (hy : IsFin binary32 y)
    (hz : IsFin binary32 z)
    (h : |binary32.toReal x * binary32.toReal y + binary32.toReal z| ≤ 2 ^ 127) :
    IsFin binary32 (binary32.fma x y z) ∧
    |binary32.toReal (binary32.fma x y z) - (binary32.toReal x * binary32.toReal y + binary32.toReal z)| ≤
      1 / 2 ^ 24 * |binary32.toReal x * binary32.toReal y + binary32.toReal z| + 1 / 2 ^ 150 := by
  have := Fmt.fma_near (F := binary32) hx hy hz (by rw [bias32]; exact h)
  exact ⟨this.1, near32 this⟩

theorem toReal_one32' : binary32.toReal 0x3f800000#32 = 1 := by
  rw [binary32.toReal_eq, show binary32.neg 0x3f800000#32 = false by decide,
    show mag binary32.mb (binary32.code 0x3f800000#32) = 2 ^ 149 by decide +kernel,
    show binary32.scale = 149 by decide]
  norm_num


/-- `x` is a finite pattern within `e` of `v`, which is at most `B` in magnitude. -/
structure Tr (x : BitVec 32) (v e B : ℝ) : Prop where
  fin : IsFin binary32 x
  err : |binary32.toReal x - v| ≤ e
  bnd : |v| ≤ B

namespace Tr
variable {x y : BitVec 32} {v w e f B C D E : ℝ}

theorem e_nonneg (h : Tr x v e B) : 0 ≤ e := (abs_nonneg _).trans h.err
theorem b_nonneg (h : Tr x v e B) : 0 ≤ B := (abs_nonneg _).trans h.bnd

theorem abs_le (h : Tr x v e B) : |binary32.toReal x| ≤ B + e := by
  have := abs_add_le (binary32.toReal x - v) v
  rw [sub_add_cancel] at this
  have := h.err; have := h.bnd
  linarith

theorem mono (h : Tr x v e B) (he : e ≤ f) (hb : B ≤ C) : Tr x v f C :=
  ⟨h.fin, h.err.trans he, h.bnd.trans hb⟩

theorem congr (h : Tr x v e B) (hv : v = w) : Tr x w e B := hv ▸ h

/-- A better bound of the value. -/
theorem bound (h : Tr x v e B) (hv : |v| ≤ C) : Tr x v e C := ⟨h.fin, h.err, hv⟩

/-- Another reference value. -/
theorem recenter (h : Tr x v e B) (hv : |v - w| ≤ f) (hE : e + f ≤ E) (hw : |w| ≤ C) : Tr x w E C := by
  refine ⟨h.fin, ?_, hw⟩
  have := abs_add_le (binary32.toReal x - v) (v - w)
  rw [sub_add_sub_cancel] at this
  linarith [h.err]

theorem exact (hx : IsFin binary32 x) (hb : |binary32.toReal x| ≤ B) : Tr x (binary32.toReal x) 0 B :=
  ⟨hx, by rw [sub_self, abs_zero], hb⟩

/-- addition -/
theorem add_of (hx : Tr x v e B) (hy : Tr y w f C) (hD : |v + w| ≤ D)
    (hE : e + f + 1 / 2 ^ 24 * (D + e + f) ≤ E) (hr : D + e + f ≤ 2 ^ 127) :
    Tr (binary32.add x y) (v + w) E D := by
  have a1 := hx.err
  have a2 := hy.err
  have h1 : |binary32.toReal x + binary32.toReal y - (v + w)| ≤ e + f := by
    rw [show binary32.toReal x + binary32.toReal y - (v + w) =
      (binary32.toReal x - v) + (binary32.toReal y - w) by ring]
    exact (abs_add_le _ _).trans (add_le_add a1 a2)
  have h2 : |binary32.toReal x + binary32.toReal y| ≤ D + e + f := by
    have := abs_add_le (binary32.toReal x + binary32.toReal y - (v + w)) (v + w)
    rw [sub_add_cancel] at this
    linarith
  obtain ⟨f1, e1⟩ := add_near32 hx.fin hy.fin (h2.trans hr)
  refine ⟨f1, ?_, hD⟩
  have h3 := abs_add_le (binary32.toReal (binary32.add x y) - (binary32.toReal x + binary32.toReal y))
    (binary32.toReal x + binary32.toReal y - (v + w))
  rw [sub_add_sub_cancel] at h3
  have h4 := mul_le_mul_of_nonneg_left h2 (by norm_num : (0 : ℝ) ≤ 1 / 2 ^ 24)
  linarith

theorem add (hx : Tr x v e B) (hy : Tr y w f C) (hD : B + C ≤ D)
    (hE : e + f + 1 / 2 ^ 24 * (D + e + f) ≤ E) (hr : D + e + f ≤ 2 ^ 127) :
    Tr (binary32.add x y) (v + w) E D :=
  hx.add_of hy ((abs_add_le _ _).trans ((add_le_add hx.bnd hy.bnd).trans hD)) hE hr

/-- subtraction -/
theorem sub_of (hx : Tr x v e B) (hy : Tr y w f C) (hD : |v - w| ≤ D)
    (hE : e + f + 1 / 2 ^ 24 * (D + e + f) ≤ E) (hr : D + e + f ≤ 2 ^ 127) :
    Tr (binary32.sub x y) (v - w) E D := by
  have a1 := hx.err
  have a2 := hy.err
  have h1 : |binary32.toReal x - binary32.toReal y - (v - w)| ≤ e + f := by
    rw [show binary32.toReal x - binary32.toReal y - (v - w) =
      (binary32.toReal x - v) - (binary32.toReal y - w) by ring]
    exact (abs_sub _ _).trans (add_le_add a1 a2)
  have h2 : |binary32.toReal x - binary32.toReal y| ≤ D + e + f := by
    have := abs_add_le (binary32.toReal x - binary32.toReal y - (v - w)) (v - w)
    rw [sub_add_cancel] at this
    linarith
  obtain ⟨f1, e1⟩ := sub_near32 hx.fin hy.fin (h2.trans hr)
  refine ⟨f1, ?_, hD⟩
  have h3 := abs_add_le (binary32.toReal (binary32.sub x y) - (binary32.toReal x - binary32.toReal y))
    (binary32.toReal x - binary32.toReal y - (v - w))
  rw [sub_add_sub_cancel] at h3
  have h4 := mul_le_mul_of_nonneg_left h2 (by norm_num : (0 : ℝ) ≤ 1 / 2 ^ 24)
  linarith

theorem sub (hx : Tr x v e B) (hy : Tr y w f C) (hD : B + C ≤ D)
    (hE : e + f + 1 / 2 ^ 24 * (D + e + f) ≤ E) (hr : D + e + f ≤ 2 ^ 127) :
    Tr (binary32.sub x y) (v - w) E D :=
  hx.sub_of hy ((abs_sub _ _).trans ((add_le_add hx.bnd hy.bnd).trans hD)) hE hr

/-- multiplication -/
theorem mul_of (hx : Tr x v e B) (hy : Tr y w f C) (hD : |v * w| ≤ D)
    (hE : e * C + f * B + e * f + 1 / 2 ^ 24 * (D + (e * C + f * B + e * f)) + 1 / 2 ^ 150 ≤ E)
    (hr : D + (e * C + f * B + e * f) ≤ 2 ^ 127) :
    Tr (binary32.mul x y) (v * w) E D := by
  have a1 := hx.err
  have a2 := hy.err
  have h1 : |binary32.toReal x * binary32.toReal y - v * w| ≤ e * C + f * B + e * f := by
    rw [show binary32.toReal x * binary32.toReal y - v * w =
      (binary32.toReal x - v) * w + v * (binary32.toReal y - w) +
      (binary32.toReal x - v) * (binary32.toReal y - w) by ring]
    refine (abs_add_le _ _).trans (add_le_add ((abs_add_le _ _).trans (add_le_add ?_ ?_)) ?_)
    · rw [abs_mul]; exact mul_le_mul a1 hy.bnd (abs_nonneg _) hx.e_nonneg
    · rw [abs_mul, mul_comm f]; exact mul_le_mul hx.bnd a2 (abs_nonneg _) hx.b_nonneg
    · rw [abs_mul]; exact mul_le_mul a1 a2 (abs_nonneg _) hx.e_nonneg
  have h2 : |binary32.toReal x * binary32.toReal y| ≤ D + (e * C + f * B + e * f) := by
    have := abs_add_le (binary32.toReal x * binary32.toReal y - v * w) (v * w)
    rw [sub_add_cancel] at this
    linarith
  obtain ⟨f1, e1⟩ := mul_near32 hx.fin hy.fin (h2.trans hr)
  refine ⟨f1, ?_, hD⟩
  have h3 := abs_add_le (binary32.toReal (binary32.mul x y) - (binary32.toReal x * binary32.toReal y))
    (binary32.toReal x * binary32.toReal y - v * w)
  rw [sub_add_sub_cancel] at h3
  have h4 := mul_le_mul_of_nonneg_left h2 (by norm_num : (0 : ℝ) ≤ 1 / 2 ^ 24)
  linarith

theorem mul (hx : Tr x v e B) (hy : Tr y w f C) (hD : B * C ≤ D)
    (hE : e * C + f * B + e * f + 1 / 2 ^ 24 * (D + (e * C + f * B + e * f)) + 1 / 2 ^ 150 ≤ E)
    (hr : D + (e * C + f * B + e * f) ≤ 2 ^ 127) :
    Tr (binary32.mul x y) (v * w) E D :=
  hx.mul_of hy (by
    rw [abs_mul]
    exact (mul_le_mul hx.bnd hy.bnd (abs_nonneg _) hx.b_nonneg).trans hD) hE hr

end Tr

/-! ## Constants -/

/-- The pattern is finite and its value is `q`. -/
def isVal (x : BitVec 32) (q : ℚ) : Bool :=
  binary32.isFinite x && decide (binary32.units x * q.den = q.num * 2 ^ 149)

theorem isVal_fin {x : BitVec 32} {q : ℚ} (h : isVal x q = true) : IsFin binary32 x :=
  (Bool.and_eq_true _ _ ▸ h).1

theorem isVal_value {x : BitVec 32} {q : ℚ} (h : isVal x q = true) : binary32.toReal x = q := by
  have h2 := of_decide_eq_true (Bool.and_eq_true _ _ ▸ h).2
  have h3 : (binary32.units x : ℝ) * q.den = q.num * 2 ^ 149 := by exact_mod_cast h2
  have hd : (q.den : ℝ) ≠ 0 := by exact_mod_cast q.den_ne_zero
  unfold Fmt.toReal
  rw [show binary32.scale = 149 by decide, Rat.cast_def, div_eq_div_iff (by positivity) hd]
  exact h3

/-- A constant of the program. -/
theorem Tr.const {x : BitVec 32} (q : ℚ) (B : ℝ) (h : isVal x q = true) (hB : |(q : ℝ)| ≤ B) :
    Tr x q 0 B :=
  ⟨isVal_fin h, by rw [isVal_value h, sub_self, abs_zero], hB⟩

/-! ## Conversions -/

/-- `cvttps2dq` truncates. -/
theorem toInt32_value {x : BitVec 32} (hx : IsFin binary32 x) (h : |binary32.toReal x| < 2 ^ 31) :
    ∃ k : ℕ, (binary32.toInt32 x).toInt = (if binary32.neg x then -(k : ℤ) else k) ∧ k < 2 ^ 31 ∧
      (k : ℝ) ≤ |binary32.toReal x| ∧ |binary32.toReal x| < k + 1 := by
  have habs : |binary32.toReal x| = (mag 23 (binary32.code x) : ℝ) / 2 ^ 149 := by
    rw [binary32.toReal_eq, abs_mul, show binary32.scale = 149 by decide]
    rw [show |(if binary32.neg x = true then -1 else 1 : ℝ)| = 1 by cases binary32.neg x <;> simp, one_mul,
      abs_of_nonneg (by positivity)]
    rfl
  have hS : (0 : ℝ) < 2 ^ 149 := by positivity
  generalize hm : mag 23 (binary32.code x) = m at habs
  have h1 : ((m / 2 ^ 149 : ℕ) : ℝ) ≤ |binary32.toReal x| := by
    rw [habs, le_div_iff₀ hS]; exact_mod_cast Nat.div_mul_le_self m (2 ^ 149)
  have h2 : |binary32.toReal x| < ((m / 2 ^ 149 : ℕ) : ℝ) + 1 := by
    rw [habs, div_lt_iff₀ hS]
    have := Nat.lt_div_mul_add (a := m) (b := 2 ^ 149) (by positivity)
    rw [add_mul, one_mul]; exact_mod_cast this
  have h3 : m / 2 ^ 149 < 2 ^ 31 := by
    have : ((m / 2 ^ 149 : ℕ) : ℝ) < 2 ^ 31 := lt_of_le_of_lt h1 h
    exact_mod_cast this
  refine ⟨m / 2 ^ 149, ?_, h3, h1, h2⟩
  unfold Fmt.toInt32
  rw [show binary32.isFinite x = true from hx, show binary32.scale = 149 by decide,
    show mag binary32.mb (binary32.code x) = m from hm]
  generalize m / 2 ^ 149 = k at *
  simp only [Bool.not_true, Bool.false_eq_true, if_false]
  cases binary32.neg x
  · simp only [Bool.false_eq_true, if_false]
    rw [if_neg (by omega), BitVec.toInt_ofInt]
    exact Int.bmod_eq_of_le (by omega) (by omega)
  · simp only [if_true]
    rw [if_neg (by omega), BitVec.toInt_ofInt]
    exact Int.bmod_eq_of_le (by omega) (by omega)

/-- Integers up to `2^24` are converted exactly. -/
theorem ofInt_value {k : ℤ} (h : k.natAbs ≤ 2 ^ 24) :
    IsFin binary32 (binary32.ofInt k) ∧ binary32.toReal (binary32.ofInt k) = k := by
  unfold Fmt.ofInt
  by_cases h0 : k = 0
  · rw [if_pos h0, h0]
    refine ⟨by decide, ?_⟩
    rw [binary32.toReal_eq, show mag binary32.mb (binary32.code binary32.posZero) = 0 by decide +kernel]; simp
  · rw [if_neg h0]
    obtain ⟨c, hc⟩ := mag_exists (mb := 23) (m := k.natAbs) 149 h
    have hlt : c < binary32.infCode := by
      have e : binary32.infCode = 0x7f800000 := by decide
      have : mag 23 c < mag 23 0x7f800000 := by
        rw [hc, show mag 23 0x7f800000 = 2 ^ 277 by decide +kernel]
        calc k.natAbs * 2 ^ 149 ≤ 2 ^ 24 * 2 ^ 149 := Nat.mul_le_mul_right _ h
          _ = 2 ^ 173 := by rw [← pow_add]
          _ < 2 ^ 277 := Nat.pow_lt_pow_right (by decide) (by decide)
      rw [e]; exact mag_lt_iff.mp this
    have hr : rne binary32.mb (k.natAbs * 2 ^ binary32.scale) 1 = c := by
      rw [show binary32.scale = 149 by decide, ← hc]
      exact rne_exact (by decide) (by rw [Nat.mul_one]; rfl)
    unfold Fmt.packRnd
    rw [hr, Nat.min_eq_right hlt.le]
    refine ⟨binary32.isFinite_pack _ hlt, ?_⟩
    rw [binary32.toReal_pack _ hlt, show mag binary32.mb c = _ from hc, show binary32.scale = 149 by decide]
    have hn : ((k.natAbs : ℕ) : ℝ) = |(k : ℝ)| := by
      rw [← Int.cast_abs, ← Int.natCast_natAbs]; rfl
    rw [Nat.cast_mul, Nat.cast_pow, Nat.cast_ofNat, hn, mul_div_assoc, div_self (by positivity), mul_one]
    by_cases hk : k < 0
    · rw [decide_eq_true hk, if_pos rfl, abs_of_neg (by exact_mod_cast hk)]; ring
    · rw [decide_eq_false hk, if_neg (by decide), abs_of_nonneg (by exact_mod_cast not_lt.mp hk)]; ring

/-- A product that is a number of the format is exact. -/
theorem mul_exact32 {x y : BitVec 32} (hx : IsFin binary32 x) (hy : IsFin binary32 y) {m s : ℕ}
    (hm : m ≤ 2 ^ 24) (hs : (m : ℝ) * 2 ^ s / 2 ^ 149 ≤ 2 ^ 127)
    (h : |binary32.toReal x * binary32.toReal y| = (m : ℝ) * 2 ^ s / 2 ^ 149) :
    IsFin binary32 (binary32.mul x y) ∧
    binary32.toReal (binary32.mul x y) = binary32.toReal x * binary32.toReal y := by
  have hn := Fmt.mul_near (F := binary32) hx hy (by rw [bias32, h]; exact hs)
  refine ⟨hn.1, ?_⟩
  rw [binary32.mul_finite hx hy]
  obtain ⟨c, hc⟩ := mag_exists (mb := 23) (m := m) s hm
  rw [binary32.toReal_eq x, binary32.toReal_eq y, Fmt.sign_xor_mul] at h ⊢
  generalize hM : mag binary32.mb (binary32.code x) * mag binary32.mb (binary32.code y) = M
  have hM' : (mag binary32.mb (binary32.code x) : ℝ) * mag binary32.mb (binary32.code y) = M := by
    exact_mod_cast hM
  have e : (mag binary32.mb (binary32.code x) : ℝ) / 2 ^ binary32.scale *
      (mag binary32.mb (binary32.code y) / 2 ^ binary32.scale) = (M : ℝ) / 2 ^ 298 := by
    rw [div_mul_div_comm, hM', show binary32.scale = 149 by decide, ← pow_add]
  rw [e] at h ⊢
  have hMc : M = mag 23 c * 2 ^ 149 := by
    rw [abs_mul, show |(if (binary32.neg x != binary32.neg y) = true then -1 else 1 : ℝ)| = 1 by
      cases (binary32.neg x != binary32.neg y) <;> simp, one_mul, abs_of_nonneg (by positivity)] at h
    rw [hc]
    have : (M : ℝ) = (m : ℝ) * 2 ^ s * 2 ^ 149 := by
      rw [div_eq_div_iff (by positivity) (by positivity)] at h
      have h2 : (2 : ℝ) ^ 298 = 2 ^ 149 * 2 ^ 149 := by rw [← pow_add]
      rw [h2] at h
      have h3 : (0 : ℝ) < 2 ^ 149 := by positivity
      nlinarith [mul_right_cancel₀ h3.ne' (show (M : ℝ) * 2 ^ 149 = ((m : ℝ) * 2 ^ s * 2 ^ 149) * 2 ^ 149 by linarith)]
    exact_mod_cast this
  have hlt : c < binary32.infCode := by
    have e : binary32.infCode = 0x7f800000 := by decide
    have : mag 23 c < mag 23 0x7f800000 := by
      rw [hc, show mag 23 0x7f800000 = 2 ^ 277 by decide +kernel]
      have : (m : ℝ) * 2 ^ s < 2 ^ 277 := by
        rw [div_le_iff₀ (by positivity), ← pow_add] at hs
        refine lt_of_le_of_lt hs ?_
        exact pow_lt_pow_right₀ (by norm_num) (by norm_num)
      exact_mod_cast this
    rw [e]; exact mag_lt_iff.mp this
  have hr : rne binary32.mb M (2 ^ binary32.scale) = c := by
    rw [hMc, show binary32.scale = 149 by decide]
    exact rne_exact (Nat.two_pow_pos _) rfl
  unfold Fmt.packRnd
  rw [hr, Nat.min_eq_right hlt.le, binary32.toReal_pack _ hlt, show binary32.scale = 149 by decide, hMc]
  rw [Nat.cast_mul, Nat.cast_pow, Nat.cast_ofNat, show (2 : ℝ) ^ 298 = 2 ^ 149 * 2 ^ 149 by rw [← pow_add], mul_div_mul_right _ _ (by positivity)]
  rfl

end Nova
