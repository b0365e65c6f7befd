import Verif.Lemmas.TanhPoly
import Verif.Lemmas.AsinFinal
import Verif.Lemmas.ExpFinal

/-!
# `vec_tanh_float`: the three ranges
-/

namespace Nova
open FP VecMath

/-- Doubling is exact. -/
theorem double32 {a : BitVec 32} (ha : IsFin binary32 a) (h0 : binary32.toReal a ≠ 0)
    (h : |binary32.toReal a| ≤ 2 ^ 100) :
    IsFin binary32 (binary32.add a a) ∧ binary32.toReal (binary32.add a a) = 2 * binary32.toReal a := by
  obtain ⟨s, m, hc, h1, h2⟩ := code_decomp 23 (binary32.code a)
  obtain ⟨c, e⟩ := mag_exists (mb := 23) (m := m) (s + 1) h1.le
  have em : mag 23 c = 2 * mag 23 (binary32.code a) := by
    rw [e, hc, mag_decomp 23 h1.le h2, pow_succ]; ring
  have ea := binary32.toReal_eq a
  have habs : |binary32.toReal a| = (mag 23 (binary32.code a) : ℝ) / 2 ^ 149 := by
    rw [ea, abs_mul, show |(if binary32.neg a = true then -1 else 1 : ℝ)| = 1 by
      cases binary32.neg a <;> simp, one_mul, abs_of_nonneg (by positivity)]
    rfl
  have hlt : c < binary32.infCode := by
    have e1 : binary32.infCode = 0x7f800000 := by decide
    have : mag 23 c < mag 23 0x7f800000 := by
      rw [em, show mag 23 0x7f800000 = 2 ^ 277 by decide +kernel]
      rw [habs, div_le_iff₀ (by positivity), ← pow_add] at h
      have h3 : mag 23 (binary32.code a) ≤ 2 ^ 249 := by exact_mod_cast h
      calc 2 * mag 23 (binary32.code a) ≤ 2 * 2 ^ 249 := Nat.mul_le_mul_left _ h3
        _ = 2 ^ 250 := by rw [← pow_succ']
        _ < 2 ^ 277 := Nat.pow_lt_pow_right (by decide) (by decide)
    rw [e1]; exact mag_lt_iff.mp this
  have er : binary32.toReal (binary32.pack (binary32.neg a) c) = binary32.toReal a + binary32.toReal a := by
    rw [binary32.toReal_pack _ hlt, ea, show mag binary32.mb c = 2 * mag 23 (binary32.code a) from em]
    rw [show mag binary32.mb (binary32.code a) = mag 23 (binary32.code a) from rfl]
    push_cast
    ring
  have hf := binary32.isFinite_pack (binary32.neg a) hlt
  have hu : binary32.units a + binary32.units a = binary32.units (binary32.pack (binary32.neg a) c) := by
    unfold Fmt.toReal at er
    rw [← add_div, div_left_inj' (by positivity)] at er
    exact_mod_cast er.symm
  have hu0 : binary32.units a ≠ 0 := fun hh => h0 (by unfold Fmt.toReal; rw [hh]; simp)
  rw [binary32.add_exact ha ha hf hu (fun hh => hu0 (by
    have := binary32.units_eq_zero.mpr hh
    omega))]
  exact ⟨hf, by rw [er]; ring⟩

theorem tanh_eq_exp (a : ℝ) : Real.tanh a = 1 - 2 / (Real.exp (2 * a) + 1) := by
  have h1 := Real.exp_pos a
  have h2 : Real.exp (2 * a) = Real.exp a * Real.exp a := by rw [← Real.exp_add]; congr 1; ring
  rw [Real.tanh_eq_sinh_div_cosh, Real.sinh_eq, Real.cosh_eq, h2, Real.exp_neg]
  field_simp
  ring

/-- The lower end of the middle range. -/
theorem tanh_lower {a : ℝ} (h : 0.625 ≤ a) : 0.5544 ≤ Real.tanh a ∧ Real.tanh a < 1 := by
  have e1 : Real.exp 1.25 ≤ Real.exp (2 * a) := Real.exp_le_exp.mpr (by norm_num at *; linarith)
  have e2 : (3.4892 : ℝ) ≤ Real.exp 1.25 := by
    have := Real.sum_le_exp_of_nonneg (x := 1.25) (by norm_num) 8
    refine le_trans ?_ this
    simp only [Finset.sum_range_succ, Finset.sum_range_zero, Nat.factorial]
    norm_num
  rw [tanh_eq_exp]
  have hp : 4.4892 ≤ Real.exp (2 * a) + 1 := by
    have := e2.trans e1
    norm_num at this ⊢; linarith
  have hp0 : 0 < Real.exp (2 * a) + 1 := lt_of_lt_of_le (by norm_num) hp
  have : 2 / (Real.exp (2 * a) + 1) ≤ 2 / 4.4892 := div_le_div_of_nonneg_left (by norm_num) (by norm_num) hp
  have h3 : 0 < 2 / (Real.exp (2 * a) + 1) := by positivity
  constructor
  · norm_num at this ⊢; linarith
  · linarith

/-- The expression for medium arguments, for any good approximation of the exponential. -/
theorem tanh_medium_of {V : LaneOps 32} (h : V.Ieee) {a E : BitVec 32} (h1 : 0.625 ≤ binary32.toReal a)
    (h2 : binary32.toReal a ≤ 22) (hf1 : IsFin binary32 E)
    (n2 : |binary32.toReal E - Real.exp (2 * binary32.toReal a)| ≤ 39 / 10 ^ 8 * Real.exp (2 * binary32.toReal a)) :
    IsFin binary32 (V.sub V.one (V.div (litF 2) (V.add E V.one))) ∧
    |binary32.toReal (V.sub V.one (V.div (litF 2) (V.add E V.one))) -
      Real.tanh (binary32.toReal a)| ≤ 5 / 10 ^ 7 * Real.tanh (binary32.toReal a) ∧
    binary32.toReal (V.sub V.one (V.div (litF 2) (V.add E V.one))) ≤ 1 + 1 / 2 ^ 24 := by
  have tl := tanh_lower h1
  rw [tanh_eq_exp] at tl ⊢
  have he0 := Real.exp_pos (2 * binary32.toReal a)
  have heu : Real.exp (2 * binary32.toReal a) ≤ 2 ^ 88 := by
    have l1 : Real.exp (2 * binary32.toReal a) ≤ Real.exp (44 * 1) := Real.exp_le_exp.mpr (by linarith)
    have l2 : Real.exp (44 * 1) ≤ (2 ^ 2) ^ 44 := by
      rw [show (44 : ℝ) * 1 = (44 : ℕ) * 1 by norm_num, Real.exp_nat_mul]
      exact pow_le_pow_left₀ (Real.exp_pos _).le (Real.exp_one_lt_d9.le.trans (by norm_num)) _
    exact l1.trans (l2.trans (by norm_num))
  generalize Real.exp (2 * binary32.toReal a) = e at *
  have hw0 : 0 < e + 1 := by linarith
  rw [h.sub, h.div, h.add, h.one]
  have hone : IsFin binary32 0x3f800000#32 := by decide
  have vone := toReal_one32'
  have htwo := isVal_fin (x := litF 2) (q := 2) (by decide +kernel)
  have vtwo : binary32.toReal (litF 2) = 2 := by
    have := isVal_value (x := litF 2) (q := 2) (by decide +kernel)
    rw [this]; norm_num
  -- the sum
  have nE := abs_le.mp n2
  have hE1 : binary32.toReal E ≤ 2 ^ 90 := by norm_num at *; linarith
  have hE0 : 0 ≤ binary32.toReal E := by norm_num at *; linarith
  obtain ⟨fs, es⟩ := add_near32 hf1 hone (by
    rw [vone, abs_of_nonneg (by linarith)]; norm_num at *; linarith)
  rw [vone, abs_of_nonneg (a := binary32.toReal E + 1) (by linarith)] at es
  generalize binary32.add E 0x3f800000#32 = s at *
  have es' : |binary32.toReal s - (e + 1)| ≤ 4.5e-7 * (e + 1) := by
    have := abs_le.mp es
    rw [abs_le]
    norm_num at *
    constructor <;> linarith
  have hs := abs_le.mp es'
  have hs0 : 0.9999 * (e + 1) ≤ binary32.toReal s := by norm_num at *; linarith
  have hs1 : 0 < binary32.toReal s := lt_of_lt_of_le (by positivity) hs0
  -- the quotient
  have hD : 2 / (e + 1) ≤ 0.4456 := by norm_num at *; linarith
  have hD0 : 0 < 2 / (e + 1) := by positivity
  have hD1 : 1 / 2 ^ 89 ≤ 2 / (e + 1) := by
    rw [div_le_div_iff₀ (by positivity) hw0]
    norm_num at heu ⊢; linarith
  have q1 : |2 / binary32.toReal s - 2 / (e + 1)| ≤ 2 / (e + 1) * 4.501e-7 := by
    rw [show 2 / binary32.toReal s - 2 / (e + 1) = 2 / (e + 1) * (-(binary32.toReal s - (e + 1)) / binary32.toReal s) by
      field_simp; ring, abs_mul, abs_of_pos hD0, abs_div, abs_neg, abs_of_pos hs1]
    refine mul_le_mul_of_nonneg_left ?_ hD0.le
    rw [div_le_iff₀ hs1]
    refine es'.trans ?_
    norm_num at *
    linarith
  have q2 : 2 / binary32.toReal s ≤ 0.446 ∧ 0 < 2 / binary32.toReal s := by
    refine ⟨?_, by positivity⟩
    have := (abs_le.mp q1).2
    norm_num at *
    linarith
  obtain ⟨fq, eq⟩ := div_near32 htwo fs hs1.ne' (by
    rw [vtwo, abs_of_pos q2.2]; exact q2.1.trans (by norm_num))
  rw [vtwo, abs_of_pos q2.2] at eq
  generalize binary32.div (litF 2) s = q at *
  have q3 : |binary32.toReal q - 2 / (e + 1)| ≤ 2 / (e + 1) * 5.11e-7 + 1 / 2 ^ 150 := by
    have := abs_sub_le (binary32.toReal q) (2 / binary32.toReal s) (2 / (e + 1))
    have h5 := (abs_le.mp q1).2
    generalize |binary32.toReal q - 2 / (e + 1)| = g1 at *
    generalize |binary32.toReal q - 2 / binary32.toReal s| = g2 at *
    generalize |2 / binary32.toReal s - 2 / (e + 1)| = g3 at *
    generalize 2 / (e + 1) = D at *
    norm_num at this h5 q1 eq ⊢
    linarith
  generalize 2 / (e + 1) = D at *
  have q4 := abs_le.mp q3
  have q5 : 0 ≤ 1 - binary32.toReal q := by norm_num at *; linarith
  have q6 : 1 - binary32.toReal q ≤ 2 := by norm_num at *; linarith
  obtain ⟨fr, er⟩ := sub_near32 hone fq (by rw [vone, abs_of_nonneg q5]; exact q6.trans (by norm_num))
  rw [vone, abs_of_nonneg q5] at er
  have := abs_le.mp er
  refine ⟨fr, ?_, ?_⟩
  · rw [abs_le]
    norm_num at this q4 tl hD ⊢
    constructor <;> linarith
  · have hq : 0 ≤ binary32.toReal q := by norm_num at q4 hD1 ⊢; linarith
    norm_num at this ⊢
    linarith

/-- The middle range. -/
theorem tanh_medium {V : LaneOps 32} (h : V.Ieee) (hV : IsX86Class V) {a : BitVec 32} (ha : IsFin binary32 a)
    (h1 : 0.625 ≤ binary32.toReal a) (h2 : binary32.toReal a ≤ 22) :
    IsFin binary32 (V.sub V.one (V.div (litF 2) (V.add (vecExpTanh V (V.add a a)) V.one))) ∧
    |binary32.toReal (V.sub V.one (V.div (litF 2) (V.add (vecExpTanh V (V.add a a)) V.one))) -
      Real.tanh (binary32.toReal a)| ≤ 5 / 10 ^ 7 * Real.tanh (binary32.toReal a) ∧
    binary32.toReal (V.sub V.one (V.div (litF 2) (V.add (vecExpTanh V (V.add a a)) V.one))) ≤ 1 + 1 / 2 ^ 24 := by
  have hA0 : 0 < binary32.toReal a := lt_of_lt_of_le (by norm_num) h1
  obtain ⟨fd, ed⟩ := double32 ha hA0.ne' (by rw [abs_of_pos hA0]; exact h2.trans (by norm_num))
  have t1 : Tr (litF 1) 1 0 1 := (Tr.const (x := litF 1) 1 1 (by decide +kernel) (by norm_num)).congr (by norm_num)
  have S := exp_scaled h hV (x := binary32.add a a) t1 fd (by rw [ed]; norm_num at *; linarith)
    (by rw [ed]; norm_num at *; linarith)
  obtain ⟨n1, n2⟩ := S
  have ee : vecExpTanh V (V.add a a) = ldexp V (expPoly V (litF 1) (expReduce V (binary32.add a a)
      (expScale V (binary32.add a a)))) (V.truncateToInt (expScale V (binary32.add a a))) := by
    rw [← h.add]; rfl
  rw [← ee, ed] at n2
  rw [← ee] at n1
  exact tanh_medium_of h h1 h2 n1.2 n2

theorem tanh_big {a : ℝ} (h : 22 ≤ a) : 1 - 1 / 10 ^ 10 ≤ Real.tanh a ∧ Real.tanh a < 1 := by
  refine ⟨?_, (tanh_lower (le_trans (by norm_num) h)).2⟩
  rw [tanh_eq_exp]
  have e1 : Real.exp (44 * 1) ≤ Real.exp (2 * a) := Real.exp_le_exp.mpr (by linarith)
  have e2 : (2 : ℝ) ^ 44 ≤ Real.exp (44 * 1) := by
    rw [show (44 : ℝ) * 1 = (44 : ℕ) * 1 by norm_num, Real.exp_nat_mul]
    exact pow_le_pow_left₀ (by norm_num) (le_trans (by norm_num) Real.exp_one_gt_d9.le) _
  have hp : (2 : ℝ) ^ 44 ≤ Real.exp (2 * a) + 1 := by linarith
  have : 2 / (Real.exp (2 * a) + 1) ≤ 2 / 2 ^ 44 := div_le_div_of_nonneg_left (by norm_num) (by norm_num) hp
  norm_num at *
  linarith

/-- Merging a sign bit into a nonnegative number. -/
theorem or_signBit {r : BitVec 32} (hr : binary32.neg r = false) (c : Bool) : r ||| signBit c = r ^^^ signBit c := by
  have h : r &&& 0x80000000#32 = 0#32 := by rw [sign_and, hr]; rfl
  cases c
  · simp [signBit]
  · simp only [signBit, if_true]
    refine BitVec.eq_of_getLsbD_eq fun i hi => ?_
    have h1 := congrArg (fun z => z.getLsbD i) h
    simp only [BitVec.getLsbD_and, BitVec.getLsbD_or, BitVec.getLsbD_xor, BitVec.getLsbD_zero] at h1 ⊢
    revert h1
    generalize r.getLsbD i = u
    generalize (0x80000000#32).getLsbD i = v
    cases u <;> cases v <;> simp

theorem ltHalf {V : LaneOps 32} (h : V.Ieee) {a l : BitVec 32} {q : ℚ} (ha : IsFin binary32 a) (hl : isVal l q = true) :
    V.maskLt a l = maskOf (decide (binary32.toReal a < (q : ℝ))) := by
  rw [h.lt, toReal_lt_of_ltb ha (isVal_fin hl), isVal_value hl]

/-- `vec_tanh_float` of a finite number. -/
theorem vecTanh_eq {V : LaneOps 32} (h : V.Ieee) {x a : BitVec 32} (hx : IsFin binary32 x) (ha : a = binary32.fabs x) :
    vecTanh V x = if |binary32.toReal x| < 0.625 then tanhSmall V x a else
      (if 22 < |binary32.toReal x| then 0x3f800000#32 else
        V.sub V.one (V.div (litF 2) (V.add (vecExpTanh V (V.add a a)) V.one))) ||| signBit (binary32.neg x) := by
  have hf : IsFin binary32 a := by rw [ha]; unfold IsFin; rw [binary32.isFinite_fabs]; exact hx
  have ea : x ^^^ signBit (binary32.neg x) = a := by
    rw [ha, ← sign_and]; exact binary32.xor_sign x
  have va : binary32.toReal a = |binary32.toReal x| := by rw [ha, binary32.toReal_fabs]
  unfold vecTanh
  dsimp only
  rw [h.sign, sign_and, ea, gtHalf h hf (q := 22) (by decide +kernel), ltHalf h hf (q := 625 / 1000) (by decide +kernel),
    h.sel, h.sel, va]
  have e1 : ((625 / 1000 : ℚ) : ℝ) = 0.625 := by norm_num
  have e2 : ((22 : ℚ) : ℝ) = 22 := by norm_num
  rw [e1, e2]
  simp only [decide_eq_true_eq]
  by_cases h1 : |binary32.toReal x| < 0.625
  · rw [if_pos h1, if_pos h1]
  · rw [if_neg h1, if_neg h1]
    by_cases h2 : 22 < |binary32.toReal x|
    · rw [if_pos h2, if_pos h2, h.one]
    · rw [if_neg h2, if_neg h2]

theorem signed_tanh (x : BitVec 32) :
    (if binary32.neg x then -Real.tanh |binary32.toReal x| else Real.tanh |binary32.toReal x|) =
      Real.tanh (binary32.toReal x) := by
  conv_rhs => rw [toReal_eq_signed x]
  cases binary32.neg x
  · rfl
  · rw [if_pos rfl, if_pos rfl, Real.tanh_neg]

theorem abs_tanh_eq (x : BitVec 32) (h : 0 ≤ Real.tanh |binary32.toReal x|) :
    |Real.tanh (binary32.toReal x)| = Real.tanh |binary32.toReal x| := by
  rw [← signed_tanh]
  cases binary32.neg x
  · exact abs_of_nonneg h
  · rw [if_pos rfl, abs_neg, abs_of_nonneg h]

/-- The error relative to the argument, relative to the result. -/
theorem tanh_small_of {R X : ℝ} (h1 : |X| < 0.625) (e : |R - Real.tanh X| ≤ 13 / 10 ^ 8 * |X|) :
    |R - Real.tanh X| ≤ 5 / 10 ^ 7 * |Real.tanh X| := by
  refine e.trans ?_
  have hz0 : 0 ≤ X * X := mul_self_nonneg _
  have hz : X * X ≤ 0.390625 := by
    rw [← abs_mul_abs_self]
    have := mul_le_mul h1.le h1.le (abs_nonneg _) (by norm_num)
    exact this.trans (by norm_num)
  obtain ⟨q1, q2⟩ := tanhQ_bound hz0 hz
  have p := tanhP_error h1.le
  have e1 : tanhP (X) =
      X * (1 + X * X * tanhQ (X * X)) := by
    unfold tanhP; ring
  generalize tanhQ (X * X) = Q at *
  have a1 : -0.14 ≤ X * X * Q := by nlinarith
  have e2 : 0.86 * |X| ≤ |tanhP (X)| := by
    rw [e1, abs_mul, mul_comm]
    refine mul_le_mul_of_nonneg_left ?_ (abs_nonneg _)
    refine le_trans ?_ (le_abs_self _)
    norm_num at a1 ⊢; linarith
  have e3 := abs_sub_abs_le_abs_sub (tanhP (X)) (Real.tanh (X))
  have e4 := abs_nonneg (X)
  generalize |tanhP (X) - Real.tanh (X)| = g at *
  generalize |tanhP (X)| = g2 at *
  norm_num at e2 e3 p ⊢
  linarith

/-- Putting the sign back. -/
theorem tanh_key {x : BitVec 32} (h1 : 0.625 ≤ |binary32.toReal x|) : ∀ r : BitVec 32, IsFin binary32 r →
    abs (binary32.toReal r - Real.tanh |binary32.toReal x|) ≤ 5 / 10 ^ 7 * Real.tanh |binary32.toReal x| →
    IsFin binary32 (r ||| signBit (binary32.neg x)) ∧
    |binary32.toReal (r ||| signBit (binary32.neg x)) - Real.tanh (binary32.toReal x)| ≤
      5 / 10 ^ 7 * |Real.tanh (binary32.toReal x)| := by
  have tl := tanh_lower h1
  have t0 : 0 ≤ Real.tanh |binary32.toReal x| := le_trans (by norm_num) tl.1
  intro r fr er
  have hr : binary32.neg r = false := by
    apply neg_of_toReal
    have := (abs_le.mp er).1
    norm_num at this tl ⊢
    linarith
  rw [or_signBit hr, abs_tanh_eq x t0]
  have t : Tr r (Real.tanh |binary32.toReal x|) _ _ := ⟨fr, er, le_rfl⟩
  have s := t.signed (binary32.neg x)
  rw [signed_tanh] at s
  exact ⟨s.fin, s.err⟩

/-- The selections of `vec_tanh_float`, for any good approximations of its parts. -/
theorem tanh_error_of {x s m : BitVec 32}
    (hs : |binary32.toReal x| < 0.625 → IsFin binary32 s ∧
      |binary32.toReal s - Real.tanh (binary32.toReal x)| ≤ 13 / 10 ^ 8 * |binary32.toReal x|)
    (hm : 0.625 ≤ |binary32.toReal x| → |binary32.toReal x| ≤ 22 → IsFin binary32 m ∧
      abs (binary32.toReal m - Real.tanh |binary32.toReal x|) ≤ 5 / 10 ^ 7 * Real.tanh |binary32.toReal x|)
    {r : BitVec 32} (hr : r = if |binary32.toReal x| < 0.625 then s else
      (if 22 < |binary32.toReal x| then 0x3f800000#32 else m) ||| signBit (binary32.neg x)) :
    IsFin binary32 r ∧
    |binary32.toReal r - Real.tanh (binary32.toReal x)| ≤ 5 / 10 ^ 7 * |Real.tanh (binary32.toReal x)| := by
  rw [hr]
  by_cases h1 : |binary32.toReal x| < 0.625
  · rw [if_pos h1]
    exact ⟨(hs h1).1, tanh_small_of h1 (hs h1).2⟩
  · rw [if_neg h1]
    rw [not_lt] at h1
    by_cases h2 : 22 < |binary32.toReal x|
    · rw [if_pos h2]
      refine tanh_key h1 _ (by decide) ?_
      rw [toReal_one32']
      have := tanh_big h2.le
      rw [abs_le]
      norm_num at this ⊢
      constructor <;> linarith
    · rw [if_neg h2]
      obtain ⟨f, e⟩ := hm h1 (not_lt.mp h2)
      exact tanh_key h1 _ f e

/-- The relative error, for every finite number. -/
theorem vecTanh_error {V : LaneOps 32} (h : V.Ieee) (hV : IsX86Class V) {x : BitVec 32} (hx : IsFin binary32 x) :
    IsFin binary32 (vecTanh V x) ∧
    |binary32.toReal (vecTanh V x) - Real.tanh (binary32.toReal x)| ≤ 5 / 10 ^ 7 * |Real.tanh (binary32.toReal x)| := by
  have hf : IsFin binary32 (binary32.fabs x) := by unfold IsFin; rw [binary32.isFinite_fabs]; exact hx
  have va : binary32.toReal (binary32.fabs x) = |binary32.toReal x| := by rw [binary32.toReal_fabs]
  refine tanh_error_of (fun h1 => tanhSmall_error h hx hf (by rw [va, abs_abs]) h1.le) (fun h1 h2 => ?_)
    (vecTanh_eq h hx rfl)
  have := tanh_medium h hV hf (by rw [va]; exact h1) (by rw [va]; exact h2)
  rw [va] at this
  exact ⟨this.1, this.2.1⟩

/-- There is no float between 1 and `1 + 2^-23`. -/
theorem le_one_of_lt {r : BitVec 32} (hr : IsFin binary32 r) (h : binary32.toReal r ≤ 1 + 1 / 2 ^ 24) :
    binary32.toReal r ≤ 1 := by
  have v : binary32.toReal 0x3f800001#32 = 8388609 / 2 ^ 23 := by
    rw [isVal_value (q := 8388609 / 2 ^ 23) (by decide +kernel)]; norm_num
  have hl := toReal_lt_of_ltb hr (y := 0x3f800001#32) (by decide)
  rw [v, decide_eq_true (lt_of_le_of_lt h (by norm_num)), binary32.ltb_iff] at hl
  have hk := hl.2.2
  have hk2 : binary32.key r ≤ binary32.key 0x3f800000#32 := by
    have e1 : binary32.key 0x3f800000#32 = 0x3f800000 := by decide
    have e2 : binary32.key 0x3f800001#32 = 0x3f800001 := by decide
    rw [e1]; rw [e2] at hk; omega
  have := (binary32.key_le_iff_value (x := r) (y := 0x3f800000#32) (binary32.isFinite_not_nan hr) (by decide)).mp hk2
  rw [binary32.toEReal_of_finite hr, binary32.toEReal_of_finite (by decide), toReal_one32', EReal.coe_le_coe_iff] at this
  exact this

/-- The result never exceeds 1. -/
theorem vecTanh_le {V : LaneOps 32} (h : V.Ieee) (hV : IsX86Class V) {x : BitVec 32} (hx : IsFin binary32 x) :
    |binary32.toReal (vecTanh V x)| ≤ 1 := by
  have hf : IsFin binary32 (binary32.fabs x) := by unfold IsFin; rw [binary32.isFinite_fabs]; exact hx
  have va : binary32.toReal (binary32.fabs x) = |binary32.toReal x| := by rw [binary32.toReal_fabs]
  rw [vecTanh_eq h hx rfl]
  by_cases h1 : |binary32.toReal x| < 0.625
  · rw [if_pos h1]
    obtain ⟨-, e⟩ := tanhSmall_error h hx hf (by rw [va, abs_abs]) h1.le
    have a1 := abs_add_le (binary32.toReal (tanhSmall V x (binary32.fabs x)) - Real.tanh (binary32.toReal x))
      (Real.tanh (binary32.toReal x))
    rw [sub_add_cancel] at a1
    have p := tanhP_error h1.le
    have hz0 : 0 ≤ binary32.toReal x * binary32.toReal x := mul_self_nonneg _
    have hz : binary32.toReal x * binary32.toReal x ≤ 0.390625 := by
      rw [← abs_mul_abs_self]
      have := mul_le_mul h1.le h1.le (abs_nonneg _) (by norm_num)
      exact this.trans (by norm_num)
    obtain ⟨q1, q2⟩ := tanhQ_bound hz0 hz
    have e1 : tanhP (binary32.toReal x) =
        binary32.toReal x * (1 + binary32.toReal x * binary32.toReal x * tanhQ (binary32.toReal x * binary32.toReal x)) := by
      unfold tanhP; ring
    generalize tanhQ (binary32.toReal x * binary32.toReal x) = Q at *
    have e2 : |tanhP (binary32.toReal x)| ≤ |binary32.toReal x| := by
      rw [e1, abs_mul]
      refine mul_le_of_le_one_right (abs_nonneg _) ?_
      rw [abs_le]; constructor <;> nlinarith
    have e3 := abs_sub_abs_le_abs_sub (Real.tanh (binary32.toReal x)) (tanhP (binary32.toReal x))
    rw [abs_sub_comm] at e3
    generalize |tanhP (binary32.toReal x) - Real.tanh (binary32.toReal x)| = g at *
    generalize |binary32.toReal (tanhSmall V x (binary32.fabs x)) - Real.tanh (binary32.toReal x)| = g2 at *
    norm_num at e3 p e h1 ⊢
    linarith
  · rw [if_neg h1]
    rw [not_lt] at h1
    have tl := tanh_lower h1
    have key : ∀ r : BitVec 32, IsFin binary32 r → 0 < binary32.toReal r → binary32.toReal r ≤ 1 + 1 / 2 ^ 24 →
        |binary32.toReal (r ||| signBit (binary32.neg x))| ≤ 1 := by
      intro r fr h0 h2
      have h3 := le_one_of_lt fr h2
      rw [or_signBit (neg_of_toReal h0)]
      have t : Tr r (binary32.toReal r) 0 1 := Tr.exact fr (by rw [abs_of_pos h0]; exact h3)
      have s := (t.signed (binary32.neg x)).abs_le
      rwa [add_zero] at s
    by_cases h2 : 22 < |binary32.toReal x|
    · rw [if_pos h2]
      refine key _ (by decide) ?_ ?_ <;> rw [toReal_one32'] <;> norm_num
    · rw [if_neg h2]
      have := tanh_medium h hV hf (by rw [va]; exact h1) (by rw [va]; exact not_lt.mp h2)
      rw [va] at this
      refine key _ this.1 ?_ this.2.2
      have h3 := (abs_le.mp this.2.1).1
      norm_num at h3 tl ⊢
      linarith

/-- The infinities. -/
theorem vecTanh_inf {V : LaneOps 32} (h : V.Ieee) (s : Bool) :
    vecTanh V (0x7f800000#32 ||| signBit s) = 0x3f800000#32 ||| signBit s := by
  have e0 : binary32.neg (0x7f800000#32 ||| signBit s) = s := by cases s <;> decide
  have e1 : (0x7f800000#32 ||| signBit s) ^^^ signBit s = 0x7f800000#32 := by cases s <;> decide
  unfold vecTanh
  dsimp only
  rw [h.sign, sign_and, e0, e1, h.gt _ _ (by decide +kernel) (by decide +kernel), h.lt, h.sel, h.sel]
  rw [if_neg (by decide +kernel), if_pos (by decide +kernel), h.one]

end Nova
