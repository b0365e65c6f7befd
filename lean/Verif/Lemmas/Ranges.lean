import Verif.Lemmas.ContractInv
import Verif.Lemmas.Order
import Verif.Lemmas.Numbers

/-!
# The ranges of the functions, with contraction
-/

namespace Nova
open FP VecMath

namespace FP.Fmt
variable {w : Nat} {F : Fmt w}

theorem IsRnd.real_le {u v : ℝ} {r s : BitVec w} (h : F.IsRnd u r) (h' : F.IsRnd v s) (hr : F.isFinite r = true)
    (hs : F.isFinite s = true) (e : u ≤ v) : F.toReal r ≤ F.toReal s := by
  have := h.mono h' e
  rw [F.key_le_iff_value h.1 h'.1, F.toEReal_of_finite hr, F.toEReal_of_finite hs, EReal.coe_le_coe_iff] at this
  exact this

/-- Subtracting a number which is not negative. -/
theorem sub_le_left {x y : BitVec w} (hx : F.isFinite x = true) (hy : F.isFinite y = true)
    (h : F.isFinite (F.sub x y) = true) (h0 : 0 ≤ F.toReal y) : F.toReal (F.sub x y) ≤ F.toReal x :=
  (sub_rounds' hx hy).real_le (IsRnd.self hx) h hx (by linarith)

theorem isFinite_mul {x y : BitVec w} (h : F.isFinite (F.mul x y) = true) : F.isFinite x = true ∧ F.isFinite y = true := by
  have hn := isFinite_not_nan F h
  obtain ⟨n1, n2⟩ := mul_num hn
  have key : ∀ z : BitVec w, F.isNaN z = false → F.isInf z = false → F.isFinite z = true := by
    intro z h1 h2
    rcases num_cases h1 with ⟨i, -, -⟩ | ⟨i, -, -⟩ | ⟨f, -, -⟩
    · rw [i] at h2; cases h2
    · rw [i] at h2; cases h2
    · exact f
  have hi : (F.isInf x || F.isInf y) = false := by
    by_contra hc
    rw [Bool.not_eq_false] at hc
    unfold mul at h
    dsimp only at h
    rw [n1, n2, if_neg (by decide), if_pos hc] at h
    split at h
    · have := isFinite_not_nan F h
      rw [F.isNaN_defaultNaN] at this; cases this
    · have h1 := (isInf_pack_inf (F := F) (F.neg x != F.neg y)).1
      simp only [isFinite, isInf, decide_eq_true_eq] at h h1
      omega
  rw [Bool.or_eq_false_iff] at hi
  exact ⟨key x n1 hi.1, key y n2 hi.2⟩

end FP.Fmt

/-- The numbers between a number and its successor. -/
theorem le_of_next {r c : BitVec 32} (n : BitVec 32) (hr : IsFin binary32 r) (hc : IsFin binary32 c) (hn : IsFin binary32 n)
    (hk : binary32.key n = binary32.key c + 1) (h : binary32.toReal r < binary32.toReal n) :
    binary32.toReal r ≤ binary32.toReal c := by
  have hl := toReal_lt_of_ltb hr hn
  rw [decide_eq_true h, binary32.ltb_iff] at hl
  have := (binary32.key_le_iff_value (x := r) (y := c) (binary32.isFinite_not_nan hr) (binary32.isFinite_not_nan hc)).mp
    (by have := hl.2.2; omega)
  rwa [binary32.toEReal_of_finite hr, binary32.toEReal_of_finite hc, EReal.coe_le_coe_iff] at this

theorem toReal_posZero32 : binary32.toReal 0#32 = 0 := by
  rw [isVal_value (q := 0) (by decide +kernel)]; norm_num

theorem halfPi32 : binary32.toReal 0x3fc90fdb#32 = 13176795 / 2 ^ 23 := by
  rw [isVal_value (q := 13176795 / 2 ^ 23) (by decide +kernel)]; norm_num

theorem pi32 : binary32.toReal 0x40490fdb#32 = 13176795 / 2 ^ 22 := by
  rw [isVal_value (q := 13176795 / 2 ^ 22) (by decide +kernel)]; norm_num

/-! ## The exponential -/

/-- The scaled polynomial is positive down to the limit of the exponential. -/
theorem exp_sign_of {V : LaneOps 32} (h : V.Ieee) {q n : BitVec 32} {k : ℤ} {X : ℝ} (k2 : n.toInt = k) (hk : |k| ≤ 128)
    (n1 : IsNormal q) (n2 : binary32.neg q = false)
    (n3 : |binary32.toReal q - Real.exp (X - k * Real.log 2)| ≤ (39 / 10 ^ 8) * Real.exp (X - k * Real.log 2))
    (n4 : |X - k * Real.log 2| ≤ 0.34667) (k3 : |(k : ℝ) - 12102203 / 2 ^ 23 * X| ≤ 0.50003)
    (hlo : -88.0001 ≤ X) : binary32.neg (ldexp V q n) = false := by
  have L1 := Real.log_two_gt_d9
  have L2 := Real.log_two_lt_d9
  have hk2 : -128 < (k : ℝ) := by
    have := (abs_le.mp k3).1
    norm_num at *; linarith
  have hk2' : -128 < k := by exact_mod_cast hk2
  have hk1' := (abs_le.mp hk).2
  obtain ⟨b1, b2⟩ := normal_bounds n1
  rw [abs_of_nonneg (toReal_nonneg n2)] at b1 b2
  have he := Real.exp_pos (X - k * Real.log 2)
  obtain ⟨c1, c2⟩ := abs_le.mp n3
  obtain ⟨d1, d2⟩ := abs_le.mp n4
  have hE1 : (expField q : ℤ) ≤ 127 := by
    have u : Real.exp (X - k * Real.log 2) ≤ 1.6 := by
      have e2 := Real.add_one_le_exp (-(X - k * Real.log 2))
      have e3 : Real.exp (X - k * Real.log 2) * Real.exp (-(X - k * Real.log 2)) = 1 := by
        rw [← Real.exp_add]; simp
      have e4 : 0.65 ≤ Real.exp (-(X - k * Real.log 2)) := by norm_num at *; linarith
      have e5 := mul_le_mul_of_nonneg_left e4 he.le
      rw [e3] at e5
      norm_num at *; linarith
    have : (2 : ℝ) ^ ((expField q : ℤ) - 127) < 2 ^ (1 : ℤ) := by
      refine lt_of_le_of_lt b1 ?_
      norm_num at *; linarith
    rw [zpow_lt_zpow_iff_right₀ (by norm_num)] at this
    omega
  have hE2 : 126 ≤ (expField q : ℤ) := by
    have l2 : 0.65 ≤ Real.exp (X - k * Real.log 2) := by
      have := Real.add_one_le_exp (X - k * Real.log 2)
      norm_num at *; linarith
    have : (2 : ℝ) ^ (-1 : ℤ) < 2 ^ ((expField q : ℤ) - 126) := by
      refine lt_of_le_of_lt ?_ b2
      norm_num at *; linarith
    rw [zpow_lt_zpow_iff_right₀ (by norm_num)] at this
    omega
  have hE3 : k = -127 → 127 ≤ (expField q : ℤ) := by
    rintro rfl
    have l2 : 1.02 ≤ Real.exp (X - ((-127 : ℤ) : ℝ) * Real.log 2) := by
      have := Real.add_one_le_exp (X - ((-127 : ℤ) : ℝ) * Real.log 2)
      norm_num at *; linarith
    have : (2 : ℝ) ^ (0 : ℤ) < 2 ^ ((expField q : ℤ) - 126) := by
      refine lt_of_le_of_lt ?_ b2
      norm_num at *; linarith
    rw [zpow_lt_zpow_iff_right₀ (by norm_num)] at this
    omega
  have hd : expField q = binary32.code q / 2 ^ 23 := rfl
  obtain ⟨s1, -⟩ := ldexp_code h.toExps (x := q) (n := n) (by rw [k2]; omega) (by rw [k2]; omega)
  exact s1.trans n2

namespace Contract
variable {c : Bool} {V : LaneOps 32} {x y r : BitVec 32}

/-- A product whose rounded value is between the limits of the exponential. -/
theorem operand_small {a : Operand 32} (ha : IsFin binary32 (binary32.value a)) (hlo : -88 ≤ binary32.toReal (binary32.value a))
    (hhi : binary32.toReal (binary32.value a) ≤ 11629080 / 2 ^ 17) : a.Fin ∧ |a.exact| ≤ 89 := by
  cases a with
  | reg x =>
    refine ⟨ha, ?_⟩
    change -88 ≤ binary32.toReal x at hlo
    change binary32.toReal x ≤ _ at hhi
    change |binary32.toReal x| ≤ 89
    rw [abs_le]; norm_num at *; constructor <;> linarith
  | prod x y =>
    obtain ⟨hx, hy⟩ := Fmt.isFinite_mul ha
    refine ⟨⟨hx, hy⟩, ?_⟩
    change -88 ≤ binary32.toReal (binary32.mul x y) at hlo
    change binary32.toReal (binary32.mul x y) ≤ _ at hhi
    change |binary32.toReal x * binary32.toReal y| ≤ 89
    have r := Fmt.mul_rounds hx hy
    have v1 : binary32.toReal 0x42b20000#32 = 89 := by
      rw [isVal_value (q := 89) (by decide +kernel)]; norm_num
    have v2 : binary32.toReal 0xc2b20000#32 = -89 := by
      rw [isVal_value (q := -89) (by decide +kernel)]; norm_num
    rw [abs_le]
    constructor
    · by_contra hc
      have := r.real_le (Fmt.IsRnd.self (x := 0xc2b20000#32) (by decide)) ha (by decide) (by rw [v2]; linarith)
      rw [v2] at this
      norm_num at *; linarith
    · by_contra hc
      have := (Fmt.IsRnd.self (x := 0x42b20000#32) (by decide)).real_le r (by decide) ha (by rw [v1]; linarith)
      rw [v1] at this
      norm_num at *; linarith

/-- The exponential of a number has no sign. -/
theorem vecExp_sign (h : V.Ieee) {a : Operand 32} (ha : Num binary32 (binary32.value a)) :
    ∀ r ∈ vecExp c V a, binary32.neg r = false := by
  intro r hr
  rcases vecExp_cases h ha r hr with ⟨-, rfl⟩ | ⟨-, -, rfl⟩ | ⟨h1, h2, hr⟩
  · decide
  · decide
  have hf : IsFin binary32 (binary32.value a) := by
    rcases Fmt.num_cases ha with ⟨i, n, e⟩ | ⟨i, n, e⟩ | ⟨f, -, -⟩
    · have : binary32.ltb (binary32.value a) 0xc2b00000#32 = true := by
        rw [binary32.ltb_iff]
        refine ⟨ha, by decide, ?_⟩
        have hc : binary32.code (binary32.value a) = binary32.infCode := by simpa [Fmt.isInf] using i
        unfold Fmt.key; rw [n, hc]; decide
      rw [this] at h1; cases h1
    · have : binary32.ltb 0x42b17218#32 (binary32.value a) = true := by
        rw [binary32.ltb_iff]
        refine ⟨by decide, ha, ?_⟩
        have hc : binary32.code (binary32.value a) = binary32.infCode := by simpa [Fmt.isInf] using i
        rw [binary32.key_nonneg n, hc]; decide
      rw [this] at h2; cases h2
    · exact f
  rw [toReal_lt_of_ltb hf (by decide), minlogf_val, decide_eq_false_iff_not, not_lt] at h1
  rw [toReal_lt_of_ltb (by decide) hf, maxlogf_val, decide_eq_false_iff_not, not_lt] at h2
  obtain ⟨fa, ba⟩ := operand_small hf h1 h2
  unfold expApprox at hr
  simp only [List.mem_flatMap, List.mem_map] at hr
  obtain ⟨z, hz, p, hp, rfl⟩ := hr
  have t1 : Tr V.one 1 0 1 := by rw [h.one]; exact one_track
  obtain ⟨k, hk3, k2, hk1, H⟩ := exp_core (c := c) h t1 hf fa (by
    rw [abs_le]; constructor <;> norm_num at * <;> linarith) (ba.trans (by norm_num))
  obtain ⟨X, hX, n1, n2, n3, n4⟩ := H z hz p hp
  have hn := abs_le.mp (hX.near (ba.trans (by norm_num)))
  refine exp_sign_of h k2 hk3 n1 n2 n3 n4 ?_ (by norm_num at *; linarith)
  rw [abs_le] at hk1 ⊢
  norm_num at *
  constructor <;> linarith

/-- A power of a number which is not negative has no sign. -/
theorem vecPow_sign (h : V.Ieee) (hV : IsX86Class V) (hx : IsFin binary32 x) (h0 : 0 ≤ binary32.toReal x)
    (hy : IsFin binary32 y) : ∀ r ∈ vecPow c V x y, binary32.neg r = false := by
  intro r hr
  rcases h0.lt_or_eq with hp | hz
  · obtain ⟨l, hl, hr⟩ := vecPow_cases h hp hr
    have hn := neg_of_toReal hp
    have fl : IsFin binary32 l := (vecLog_error_any h hV (by
      have hd : expField x = binary32.code x / 2 ^ 23 := rfl
      have hc : binary32.code x < 255 * 2 ^ 23 := by
        have := hx
        unfold IsFin Fmt.isFinite at this
        rw [decide_eq_true_eq] at this
        exact this
      omega) hn l hl).1
    refine vecExp_sign h ?_ r hr
    exact (Fmt.mul_rounds hy fl).1
  · have hz : binary32.eqb x V.zero = true := by
      have hu : binary32.units x = 0 := by
        unfold Fmt.toReal at hz
        have h2 : (2 : ℝ) ^ binary32.scale ≠ 0 := by positivity
        rcases div_eq_zero_iff.mp hz.symm with h3 | h3
        · exact_mod_cast h3
        · exact absurd h3 h2
      have hk := binary32.units_eq_zero.mp hu
      rw [h.zero, binary32.eqb_iff]
      exact ⟨binary32.isFinite_not_nan hx, by decide, by rw [show binary32.key 0#32 = 0 by decide, binary32.key_eq_zero]; exact hk⟩
    unfold vecPow at hr
    dsimp only at hr
    simp only [List.mem_flatMap, List.mem_map] at hr
    obtain ⟨l, hl, s, hs, rfl⟩ := hr
    rw [h.eq, hz, h.sel, h.zero, if_pos rfl]
    decide

/-! ## `tanh` -/

theorem vecTanh_le (h : V.Ieee) (hV : IsX86Class V) (hx : IsFin binary32 x) :
    ∀ r ∈ vecTanh c V x, |binary32.toReal r| ≤ 1 := by
  intro r hr
  have hf : IsFin binary32 (binary32.fabs x) := by unfold IsFin; rw [binary32.isFinite_fabs]; exact hx
  have va : binary32.toReal (binary32.fabs x) = |binary32.toReal x| := by rw [binary32.toReal_fabs]
  have ea : x ^^^ signBit (binary32.neg x) = binary32.fabs x := by
    rw [← sign_and]; exact binary32.xor_sign x
  obtain ⟨fr, er⟩ := vecTanh_error h hV hx r hr
  by_cases h1 : |binary32.toReal x| < 0.625
  · have h2 : abs (Real.tanh (|binary32.toReal x|)) ≤ 0.9 := by
      rw [tanh_eq_exp]
      have e0 := Real.one_le_exp (show 0 ≤ 2 * |binary32.toReal x| by positivity)
      have e1 : Real.exp (2 * |binary32.toReal x|) ≤ Real.exp (1 + 1) :=
        Real.exp_le_exp.mpr (by norm_num at *; linarith)
      have e2 : Real.exp (1 + 1) ≤ 9 := by
        rw [Real.exp_add]
        have := Real.exp_one_lt_d9
        nlinarith [Real.exp_pos 1]
      have e3 : 2 / (Real.exp (2 * |binary32.toReal x|) + 1) ≤ 1 := by rw [div_le_one (by linarith)]; linarith
      have e4 : 2 / 10 ≤ 2 / (Real.exp (2 * |binary32.toReal x|) + 1) :=
        div_le_div_of_nonneg_left (by norm_num) (by linarith) (by linarith)
      rw [abs_le]; norm_num at *; constructor <;> linarith
    have h3 : |Real.tanh (binary32.toReal x)| ≤ 0.9 := by
      rcases abs_choice (binary32.toReal x) with e | e
      · rwa [e] at h2
      · rwa [e, Real.tanh_neg, abs_neg] at h2
    have := abs_add_le (binary32.toReal r - Real.tanh (binary32.toReal x)) (Real.tanh (binary32.toReal x))
    rw [sub_add_cancel] at this
    have h0 := abs_nonneg (Real.tanh (binary32.toReal x))
    generalize |Real.tanh (binary32.toReal x)| = u at *
    norm_num at *
    linarith
  rw [not_lt] at h1
  have tl := tanh_lower h1
  have key : ∀ r : BitVec 32, IsFin binary32 r → 0 < binary32.toReal r → binary32.toReal r ≤ 1 + 1 / 2 ^ 24 →
      |binary32.toReal (r ||| signBit (binary32.neg x))| ≤ 1 := by
    intro r fr h0 h2
    have h3 := le_one_of_lt fr h2
    rw [or_signBit (neg_of_toReal h0)]
    have t : Tr r (binary32.toReal r) 0 1 := Tr.exact fr (by rw [abs_of_pos h0]; exact h3)
    have s := (t.signed (binary32.neg x)).abs_le
    rwa [add_zero] at s
  unfold vecTanh at hr
  dsimp only at hr
  simp only [List.mem_flatMap, List.mem_map] at hr
  obtain ⟨E, hE, s, hs', hr⟩ := hr
  rw [h.sign, sign_and, ea] at hE hs'
  rw [h.sign, sign_and, ea, gtHalf h hf (q := 22) (by decide +kernel), ltHalf h hf (q := 625 / 1000) (by decide +kernel),
    h.sel, h.sel, va] at hr
  have e1 : ((625 / 1000 : ℚ) : ℝ) = 0.625 := by norm_num
  have e2 : ((22 : ℚ) : ℝ) = 22 := by norm_num
  rw [e1, e2, h.one] at hr
  simp only [decide_eq_true_eq] at hr
  rw [if_neg (not_lt.mpr h1)] at hr
  rw [← hr]
  by_cases h2 : 22 < |binary32.toReal x|
  · rw [if_pos h2]
    refine key _ (by decide) ?_ ?_ <;> rw [toReal_one32'] <;> norm_num
  rw [if_neg h2]
  rw [not_lt] at h2
  obtain ⟨fd, ed⟩ := double32 hf (by rw [va]; intro h0; rw [h0] at h1; norm_num at h1)
    (by rw [va, abs_abs]; exact h2.trans (by norm_num))
  rw [va] at ed
  have t1 : Tr (litF 1) 1 0 1 := (Tr.const (x := litF 1) 1 1 (by decide +kernel) (by norm_num)).congr (by norm_num)
  have hE' : E ∈ expApprox c V (litF 1) (.reg (binary32.add (binary32.fabs x) (binary32.fabs x))) := by
    rw [← h.add]; exact hE
  obtain ⟨X, hX, n1, n2⟩ := exp_scaled h hV t1 (a := .reg (binary32.add (binary32.fabs x) (binary32.fabs x))) fd fd
    (by change _ ≤ binary32.toReal (binary32.add _ _); rw [ed]; norm_num at *; linarith)
    (by change binary32.toReal (binary32.add _ _) ≤ _; rw [ed]; norm_num at *; linarith)
    (by change |binary32.toReal (binary32.add _ _)| ≤ _; rw [ed, abs_le]; norm_num at *; constructor <;> linarith)
    (by change binary32.toReal (binary32.add _ _) ≤ _; rw [ed]; norm_num at *; linarith) E hE'
  have hX' : X = 2 * |binary32.toReal x| := by
    rcases hX with rfl | ⟨-, rfl⟩
    · exact ed
    · exact ed
  rw [hX', ← va] at n2
  have := tanh_medium_of h (by rw [va]; exact h1) (by rw [va]; exact h2) n1.2 n2
  rw [va, h.one] at this
  refine key _ this.1 ?_ this.2.2
  have h3 := (abs_le.mp this.2.1).1
  norm_num at h3 tl ⊢
  linarith

theorem vecTanh_inf (h : V.Ieee) (s : Bool) :
    ∀ r ∈ vecTanh c V (0x7f800000#32 ||| signBit s), r = 0x3f800000#32 ||| signBit s := by
  intro r hr
  have e0 : binary32.neg (0x7f800000#32 ||| signBit s) = s := by cases s <;> decide
  have e1 : (0x7f800000#32 ||| signBit s) ^^^ signBit s = 0x7f800000#32 := by cases s <;> decide
  unfold vecTanh at hr
  dsimp only at hr
  simp only [List.mem_flatMap, List.mem_map] at hr
  obtain ⟨E, hE, s', hs', hr⟩ := hr
  rw [h.sign, sign_and, e0, e1, h.gt _ _ (by decide +kernel) (by decide +kernel), h.lt, h.sel, h.sel] at hr
  rw [if_neg (by decide +kernel), if_pos (by decide +kernel), h.one] at hr
  exact hr.symm

/-! ## `asin` and `acos` -/

theorem abs_signed_le (s : Bool) {z : BitVec 32} (hz : IsFin binary32 z) :
    |binary32.toReal (z ^^^ signBit s)| ≤ |binary32.toReal z| := by
  have t : Tr z (binary32.toReal z) 0 |binary32.toReal z| := Tr.exact hz le_rfl
  have := (t.signed s).abs_le
  rwa [add_zero] at this

theorem vecAsin_le (h : V.Ieee) (hx : IsFin binary32 x) (h1 : |binary32.toReal x| ≤ 1) :
    ∀ r ∈ vecAsin c V x, |binary32.toReal r| ≤ binary32.toReal 0x3fc90fdb#32 := by
  intro r hr
  rw [halfPi32]
  by_cases hc : 1 / 2 < |binary32.toReal x|
  · obtain ⟨p, hp, rfl⟩ := vecAsin_eq h hx h1 hr rfl
    rw [if_pos hc] at hp ⊢
    have hf : IsFin binary32 (binary32.fabs x) := by unfold IsFin; rw [binary32.isFinite_fabs]; exact hx
    obtain ⟨r1, r2, r3, -⟩ := asin_reduced h hf (by rw [binary32.toReal_fabs]; exact hc)
      (by rw [binary32.toReal_fabs]; exact h1) rfl
    obtain ⟨fp, ep⟩ := asinPoly_error r1 r2 r3 p hp
    obtain ⟨f, e⟩ := asin_large_of h hf (p := p) (by rw [binary32.toReal_fabs]; exact hc)
      (by rw [binary32.toReal_fabs]; exact h1) (fun hy g1 g2 g3 => asinPoly_error g1 g2 g3 p (hy ▸ hp))
    have cv := isVal_value (x := litD 1.57079637050628662109375) (q := 13176795 / 2 ^ 23) (by decide +kernel)
    have cf : IsFin binary32 (litD 1.57079637050628662109375) := isVal_fin (q := 13176795 / 2 ^ 23) (by decide +kernel)
    push_cast at cv
    have q0 := (arcsin_le r2 r3).1
    have q1 := arcsin_half_le r3
    have pi2 := Real.pi_lt_d20
    have hp0 : 0 ≤ binary32.toReal p := by
      have := (abs_le.mp ep).1
      norm_num at *; linarith
    have hp1 : binary32.toReal p ≤ 1 := by
      have := (abs_le.mp ep).2
      norm_num at *; linarith
    rw [h.sub] at f e ⊢
    generalize litD 1.57079637050628662109375 = l at *
    have fs := (sub_near32 cf fp (by rw [cv, abs_le]; norm_num at *; constructor <;> linarith)).1
    have l1 := Fmt.sub_le_left cf fp fs hp0
    have l2 := Fmt.sub_le_left fs fp f hp0
    refine (abs_signed_le _ f).trans ?_
    have q2 : 0 ≤ Real.arcsin (binary32.toReal (binary32.fabs x)) := by
      rw [Real.arcsin_nonneg, binary32.toReal_fabs]; exact abs_nonneg _
    rw [abs_of_nonneg q2] at e
    have b := (abs_le.mp e).1
    rw [cv] at l1
    generalize Real.arcsin (binary32.toReal (binary32.fabs x)) = A at *
    rw [abs_le]
    norm_num at *
    constructor <;> linarith
  · rw [not_lt] at hc
    obtain ⟨f, e⟩ := vecAsin_small h hx hc r hr
    have q1 := arcsin_half_le hc
    have pi2 := Real.pi_lt_d20
    have q2 : |Real.arcsin (binary32.toReal x)| = Real.arcsin |binary32.toReal x| := by
      have : 0 ≤ Real.arcsin |binary32.toReal x| := Real.arcsin_nonneg.mpr (abs_nonneg _)
      rw [← signed_arcsin x]
      cases binary32.neg x
      · exact abs_of_nonneg this
      · rw [if_pos rfl, abs_neg]; exact abs_of_nonneg this
    have := abs_add_le (binary32.toReal r - Real.arcsin (binary32.toReal x)) (Real.arcsin (binary32.toReal x))
    rw [sub_add_cancel, q2] at this
    generalize |binary32.toReal x| = u at *
    norm_num at *
    linarith

/-- Outside its domain the arc sine is a zero. -/
theorem vecAsin_outside (h : V.Ieee) (hx : Num binary32 x) (h1 : binary32.ltb 0x3f800000#32 (binary32.fabs x) = true) :
    ∀ r ∈ vecAsin c V x, r = 0#32 := by
  intro r hr
  unfold vecAsin at hr
  dsimp only at hr
  simp only [List.mem_map] at hr
  obtain ⟨p, -, hr⟩ := hr
  have hn : Num binary32 (binary32.fabs x) := by unfold Num; rw [binary32.isNaN_fabs]; exact hx
  rw [abs_and h, h.one, h.gt (binary32.fabs x) 0x3f800000#32 hn (by decide), h1, h.zero] at hr
  rw [← hr, h.sel, if_pos rfl]

theorem vecAcos_le (h : V.Ieee) (hx : IsFin binary32 x) (h1 : |binary32.toReal x| ≤ 1)
    (hn : binary32.toReal x ≠ -1 / 2) :
    ∀ r ∈ vecAcos c V x, 0 ≤ binary32.toReal r ∧ binary32.toReal r ≤ binary32.toReal 0x40490fdb#32 := by
  intro r hr
  obtain ⟨fr, e⟩ := vecAcos_error h hx h1 hn r hr
  have pi2 := Real.pi_lt_d20
  have a0 := Real.arccos_nonneg (binary32.toReal x)
  obtain ⟨e1, e2⟩ := abs_le.mp e
  refine ⟨by norm_num at *; linarith, ?_⟩
  rw [pi32]
  by_cases hc : -1 / 2 < binary32.toReal x
  · have a1 : Real.arccos (binary32.toReal x) ≤ 2.2 := by
      have q1 := arcsin_half_le (y := (1 : ℝ) / 2) le_rfl
      have q2 : Real.arcsin (-(1 / 2)) ≤ Real.arcsin (binary32.toReal x) := Real.monotone_arcsin (by linarith)
      rw [Real.arcsin_neg] at q2
      have : Real.arccos (binary32.toReal x) = Real.pi / 2 - Real.arcsin (binary32.toReal x) := rfl
      rw [this]
      norm_num at *; linarith
    norm_num at *; linarith
  · rw [not_lt] at hc
    have hX : binary32.toReal x < -1 / 2 := lt_of_le_of_ne hc hn
    have hf : IsFin binary32 (binary32.fabs x) := by unfold IsFin; rw [binary32.isFinite_fabs]; exact hx
    have ha : 1 / 2 < |binary32.toReal x| := by rw [abs_of_neg (by linarith)]; linarith
    unfold vecAcos at hr
    dsimp only at hr
    simp only [List.mem_map] at hr
    obtain ⟨s, hs, hr⟩ := hr
    rw [abs_and h, gtHalf h hf (q := 1 / 2) (by rw [h.half]; decide +kernel), h.sel, binary32.toReal_fabs] at hs
    rw [abs_and h,
      gtHalf h hf (q := 1) (by rw [h.one]; decide +kernel), gtHalf h hx (q := 1 / 2) (by rw [h.half]; decide +kernel),
      gtHalf h hx (q := -1 / 2) (by decide +kernel), h.sel, h.sel, h.sel, binary32.toReal_fabs] at hr
    rw [decide_eq_false (p := ((1 : ℚ) : ℝ) < |binary32.toReal x|) (by push_cast; linarith)] at hr
    simp only [Bool.false_eq_true, if_false, decide_eq_true_eq] at hr hs
    push_cast at hr hs
    rw [if_pos ha] at hs
    rw [if_neg (not_lt.mpr hc)] at hr
    obtain ⟨r1, r2, r3, -⟩ := asin_reduced h hf (by rw [binary32.toReal_fabs]; exact ha)
      (by rw [binary32.toReal_fabs]; exact h1) rfl
    obtain ⟨fs, es⟩ := vecAsin_small h r1 (by rw [abs_of_nonneg r2]; exact r3) s hs
    rw [abs_of_nonneg r2] at es
    have q0 := (arcsin_le r2 r3).1
    have q1 := arcsin_half_le r3
    obtain ⟨s1, s2⟩ := abs_le.mp es
    have hs0 : 0 ≤ binary32.toReal s := by norm_num at *; linarith
    have hs1 : binary32.toReal s ≤ 1 := by norm_num at *; linarith
    obtain ⟨ft, et⟩ := add_near32 fs fs (by rw [abs_le]; norm_num; constructor <;> linarith)
    have ht : 0 ≤ binary32.toReal (binary32.add s s) := by
      rw [abs_of_nonneg (a := binary32.toReal s + binary32.toReal s) (by linarith)] at et
      have := (abs_le.mp et).1
      norm_num at *; linarith
    have cv := isVal_value (x := litD 3.1415927410125732421875) (q := 13176795 / 2 ^ 22) (by decide +kernel)
    have cf : IsFin binary32 (litD 3.1415927410125732421875) := isVal_fin (q := 13176795 / 2 ^ 22) (by decide +kernel)
    push_cast at cv
    rw [h.add, h.sub] at hr
    rw [← hr] at fr ⊢
    have := Fmt.sub_le_left cf ft fr ht
    rwa [cv] at this

theorem vecAcos_outside (h : V.Ieee) (hx : Num binary32 x) (h1 : binary32.ltb 0x3f800000#32 (binary32.fabs x) = true) :
    ∀ r ∈ vecAcos c V x, r = 0#32 := by
  intro r hr
  unfold vecAcos at hr
  dsimp only at hr
  simp only [List.mem_map] at hr
  obtain ⟨p, -, hr⟩ := hr
  have hn : Num binary32 (binary32.fabs x) := by unfold Num; rw [binary32.isNaN_fabs]; exact hx
  rw [abs_and h, h.one, h.gt (binary32.fabs x) 0x3f800000#32 hn (by decide), h1, h.zero] at hr
  rw [← hr, h.sel, if_pos rfl]

/-! ## `atan` -/

theorem arctan_million {v : ℝ} (h : v ≤ 10 ^ 6) : Real.arctan v ≤ Real.pi / 2 - 0.99e-6 := by
  have h1 : Real.arctan v ≤ Real.arctan (10 ^ 6) := Real.arctan_mono h
  have h2 : Real.arctan (10 ^ 6) = Real.pi / 2 - Real.arctan (10 ^ 6)⁻¹ := by
    rw [Real.arctan_inv_of_pos (by norm_num)]; ring
  have h3 : (0.99e-6 : ℝ) ≤ Real.arctan (10 ^ 6)⁻¹ := by
    have e : Real.tan 0.99e-6 ≤ (10 ^ 6)⁻¹ := by
      have c0 := Real.one_sub_sq_div_two_le_cos (x := 0.99e-6)
      have s0 := Real.sin_le (x := 0.99e-6) (by norm_num)
      rw [Real.tan_eq_sin_div_cos, div_le_iff₀ (by norm_num at *; linarith)]
      norm_num at *; linarith
    have pi1 := Real.pi_gt_d20
    have := Real.arctan_mono e
    rwa [Real.arctan_tan (by norm_num at *; linarith) (by norm_num at *; linarith)] at this
  rw [h2] at h1
  linarith

/-- The end of the arc tangent, in the last range. -/
theorem atan_far_tail (h : V.Ieee) {off : BitVec 32} (hx : IsFin binary32 x) (hl : -(1 / 10 ^ 5) ≤ binary32.toReal x)
    (hu : binary32.toReal x ≤ 0) (ho : isVal off (13176795 / 2 ^ 23) = true) (hr : AtanLast c V x off r) :
    binary32.toReal r ≤ 13176795 / 2 ^ 23 := by
  have hX : |binary32.toReal x| ≤ 0.4143 := by rw [abs_le]; norm_num at *; constructor <;> linarith
  obtain ⟨p, hp, hr⟩ := hr
  have hxt : Tr x (binary32.toReal x) 0 0.4143 := Tr.exact hx hX
  have t0 := atanInner_track hxt p hp
  have t1 := Tr.mul (D := 2813/2^14) (E := 1407/2^37) hxt hxt (by norm_num) (by norm_num) (by norm_num)
  have t2 := Tr.mul (D := 0.0712) (E := 0.15/2^24) hxt t1 (by norm_num) (by norm_num) (by norm_num)
  have t3 := Op.mul (D := 0.0266) (E := 0.12/2^24) t2.op t0.op (by norm_num) (by norm_num) (by norm_num)
  rw [h.add] at hr
  have vo := isVal_value ho
  push_cast at vo
  obtain ⟨fs, bs⟩ := atan_base hx hX ho (by norm_num) (by norm_num)
  have ls : binary32.toReal (binary32.add off x) ≤ 13176795 / 2 ^ 23 := by
    have := (Fmt.add_rounds (isVal_fin ho) hx).real_le (Fmt.IsRnd.self (isVal_fin ho)) fs (isVal_fin ho) (by linarith)
    rwa [vo] at this
  obtain ⟨f2, T, e2, e3⟩ := Op.sum_cases hr (Tr.exact fs bs) t3 (by norm_num)
  have hw : binary32.toReal x * (binary32.toReal x * binary32.toReal x) * atanQ (binary32.toReal x * binary32.toReal x) ≤
      1 / 10 ^ 10 := by
    have b0 := t0.bnd
    have b1 : |binary32.toReal x| ≤ 1 / 10 ^ 5 := by rw [abs_le]; constructor <;> linarith
    refine (le_abs_self _).trans ?_
    rw [abs_mul, abs_mul, abs_mul]
    have u0 : 0 ≤ |atanQ (binary32.toReal x * binary32.toReal x)| := abs_nonneg _
    have u1 := abs_nonneg (binary32.toReal x)
    generalize |binary32.toReal x| = u at *
    calc u * (u * u) * |atanQ (binary32.toReal x * binary32.toReal x)|
        ≤ 1 / 10 ^ 5 * (1 / 10 ^ 5 * (1 / 10 ^ 5)) * (3049 / 2 ^ 13) := by gcongr
      _ ≤ _ := by norm_num
  have hT : T ≤ 0.13 / 2 ^ 24 := by
    have := (abs_le.mp e2).2
    norm_num at *; linarith
  have ls' : -(1 : ℝ) ≤ binary32.toReal (binary32.add off x) + T := by
    have e4 := (add_near32 (isVal_fin ho) hx (by rw [vo, abs_le]; norm_num at *; constructor <;> linarith)).2
    rw [vo, abs_of_nonneg (a := 13176795 / 2 ^ 23 + binary32.toReal x) (by norm_num at *; linarith)] at e4
    have e5 := (abs_le.mp e4).1
    have e6 := (abs_le.mp e2).1
    have e7 := t3.bnd
    have e8 := (abs_le.mp e7).1
    norm_num at *; linarith
  refine (le_of_next (c := 0x3fc90fdb#32) 0x3fc90fdc#32 f2 (by decide) (by decide) (by decide) ?_).trans halfPi32.le
  rw [isVal_value (x := 0x3fc90fdc#32) (q := 13176796 / 2 ^ 23) (by decide +kernel)]
  have hs : |binary32.toReal (binary32.add off x) + T| ≤ 13176795 / 2 ^ 23 + 0.13 / 2 ^ 24 := by
    rw [abs_le]; norm_num at *; constructor <;> linarith
  have := (abs_le.mp e3).2
  push_cast
  norm_num at *
  linarith

/-- The last range of the arc tangent, far from its end. -/
theorem atan_far (h : V.Ieee) {a s : BitVec 32} (ha : IsFin binary32 a) (h6 : 10 ^ 6 < binary32.toReal a)
    (hs : s ∈ atanAbs c V a) : binary32.toReal s ≤ 13176795 / 2 ^ 23 := by
  unfold atanAbs at hs
  dsimp only at hs
  simp only [List.mem_flatMap] at hs
  have c1 : isVal (litD 0.41421356237309504880168872420969807856967187537695) (13898701/2^25) = true := by decide +kernel
  have c2 : isVal (litD 2.41421356237309504880168872420969807856967187537698) (5062973/2^21) = true := by decide +kernel
  have c3 : isVal (litD 1.57079632679489661923132169163975144209858469968754) (13176795/2^23) = true := by decide +kernel
  rw [gtHalf h ha c1, gtHalf h ha c2] at hs
  rw [decide_eq_true (p := ((13898701/2^25 : ℚ) : ℝ) < binary32.toReal a) (by push_cast; norm_num at *; linarith),
    decide_eq_true (p := ((5062973/2^21 : ℚ) : ℝ) < binary32.toReal a) (by push_cast; norm_num at *; linarith)] at hs
  simp only [h.sel, if_true] at hs
  have hm1 : IsFin binary32 (V.neg V.one) ∧ binary32.toReal (V.neg V.one) = -1 := by
    rw [h.neg, h.one, binary32.toReal_negate, toReal_one32']; exact ⟨by decide, rfl⟩
  have p0 : 0 < 1 / binary32.toReal a := by positivity
  have p1 : 1 / binary32.toReal a ≤ 1 / 10 ^ 6 := one_div_le_one_div_of_le (by norm_num) h6.le
  obtain ⟨f, e⟩ := div_near32 hm1.1 ha (by linarith) (by
    rw [hm1.2, neg_div, abs_neg, abs_of_pos p0]; exact p1.trans (by norm_num))
  have hd : binary32.toReal (binary32.div (V.neg V.one) a) ≤ 0 := by
    have := (Fmt.div_rounds hm1.1 ha (code_of_real (by linarith))).real_le (Fmt.IsRnd.self (x := 0#32) (by decide)) f (by decide) (by
      rw [hm1.2, neg_div, toReal_posZero32]; linarith)
    rwa [toReal_posZero32] at this
  rw [hm1.2, neg_div, abs_neg, abs_of_pos p0] at e
  rw [← h.div] at f e hd
  refine atan_far_tail h f ?_ hd c3 hs
  have := (abs_le.mp e).1
  norm_num at *; linarith

theorem vecAtan_le (h : V.Ieee) (hx : IsFin binary32 x) :
    ∀ r ∈ vecAtan c V x, |binary32.toReal r| ≤ binary32.toReal 0x3fc90fdb#32 := by
  intro r hr
  rw [halfPi32]
  unfold vecAtan at hr
  dsimp only at hr
  simp only [List.mem_map] at hr
  obtain ⟨s, hs, rfl⟩ := hr
  rw [abs_and h] at hs
  rw [h.sign, sign_and]
  have hf : IsFin binary32 (binary32.fabs x) := by unfold IsFin; rw [binary32.isFinite_fabs]; exact hx
  have h0 : 0 ≤ binary32.toReal (binary32.fabs x) := by rw [binary32.toReal_fabs]; exact abs_nonneg _
  have hs' := hs
  unfold atanAbs at hs'
  dsimp only at hs'
  simp only [List.mem_flatMap] at hs'
  obtain ⟨f, e⟩ := atan_ranges h hf h0 (AtanLast c V) (atan_tail h) (atan_range0 h) hs'
  have a0 : 0 ≤ Real.arctan (binary32.toReal (binary32.fabs x)) := Real.arctan_nonneg.mpr h0
  rw [abs_of_nonneg a0] at e
  obtain ⟨e1, e2⟩ := abs_le.mp e
  refine (abs_signed_le _ f).trans ?_
  have s0 : 0 ≤ binary32.toReal s := by norm_num at *; linarith
  rw [abs_of_nonneg s0]
  by_cases h6 : 10 ^ 6 < binary32.toReal (binary32.fabs x)
  · exact atan_far h hf h6 hs
  · have := arctan_million (not_lt.mp h6)
    have pi2 := Real.pi_lt_d20
    norm_num at *; linarith

theorem vecAtan_inf (h : V.Ieee) (s : Bool) :
    ∀ r ∈ vecAtan c V (0x7f800000#32 ||| signBit s), IsFin binary32 r ∧
      |binary32.toReal r| ≤ binary32.toReal 0x3fc90fdb#32 := by
  intro r hr
  rw [halfPi32]
  have e0 : binary32.neg (0x7f800000#32 ||| signBit s) = s := by cases s <;> decide
  have e1 : binary32.fabs (0x7f800000#32 ||| signBit s) = 0x7f800000#32 := by cases s <;> decide
  unfold vecAtan at hr
  dsimp only at hr
  simp only [List.mem_map] at hr
  obtain ⟨t, ht, rfl⟩ := hr
  rw [abs_and h, e1] at ht
  rw [h.sign, sign_and, e0]
  unfold atanAbs at ht
  dsimp only at ht
  simp only [List.mem_flatMap] at ht
  have c3 : isVal (litD 1.57079632679489661923132169163975144209858469968754) (13176795/2^23) = true := by decide +kernel
  rw [h.gt _ _ (by decide +kernel) (by decide +kernel), h.gt _ _ (by decide +kernel) (by decide +kernel),
    h.sel, h.sel, h.sel, h.sel, if_pos (by decide +kernel), if_pos (by decide +kernel), if_pos (by decide +kernel),
    if_pos (by decide +kernel), h.div, h.neg, h.one,
    show binary32.div (binary32.negate 0x3f800000#32) 0x7f800000#32 = 0x80000000#32 by decide +kernel] at ht
  have z : binary32.toReal 0x80000000#32 = 0 := by
    rw [isVal_value (q := 0) (by decide +kernel)]; norm_num
  obtain ⟨f, e⟩ := atan_tail (v := 0) (K := Real.pi / 2) (δ := 1 / 10 ^ 7) h (x := 0x80000000#32) (by decide) (by norm_num)
    (by rw [z]; norm_num) c3 (by norm_num) (by norm_num) (by
      have pi1 := Real.pi_gt_d20
      have pi2 := Real.pi_lt_d20
      push_cast; rw [abs_le]; norm_num at *; constructor <;> linarith) le_rfl ht
  refine ⟨((Tr.exact f le_rfl).signed s).fin, (abs_signed_le _ f).trans ?_⟩
  have := atan_far_tail h (x := 0x80000000#32) (by decide) (by rw [z]; norm_num) z.le c3 ht
  rw [abs_le]
  refine ⟨?_, this⟩
  have pi1 := Real.pi_gt_d20
  have pi2 := Real.pi_lt_d20
  rw [Real.arctan_zero, add_zero, abs_of_pos (a := Real.pi / 2) (by linarith)] at e
  have := (abs_le.mp e).1
  norm_num at *; linarith

end Contract
end Nova
