import Verif.Lemmas.ContractOdd
import Verif.Lemmas.ContractExp
import Verif.Lemmas.AcosFinal
import Verif.Lemmas.PowFinal

/-!
# `asin`, `acos`, `atan`, `tanh`, `pow` with contraction
-/

namespace Nova
open FP VecMath
namespace Contract
variable {c : Bool} {V : LaneOps 32} {x y r : BitVec 32}

/-! ## `asin` -/

theorem asinPoly_error (hx : IsFin binary32 x) (h0 : 0 ≤ binary32.toReal x) (h1 : binary32.toReal x ≤ 1 / 2) :
    ∀ r ∈ asinPoly c x, IsFin binary32 r ∧
    |binary32.toReal r - Real.arcsin (binary32.toReal x)| ≤ 848 / 10 ^ 10 * binary32.toReal x := by
  intro r hr
  unfold asinPoly at hr
  dsimp only at hr
  simp only [List.mem_flatMap] at hr
  obtain ⟨p, hp, hr⟩ := hr
  have hX : |binary32.toReal x| ≤ 1 / 2 := by rw [abs_of_nonneg h0]; exact h1
  have t0 := asinInner_track (Tr.exact hx hX) p hp
  obtain ⟨f1, e1⟩ := odd_poly (d := 1.3 / 2 ^ 24) hx hx rfl t0 hX (by norm_num) (by norm_num) (by norm_num)
    (by norm_num) r hr
  refine ⟨f1, ?_⟩
  have P := asinP_error h0 h1
  rw [show ∀ z : ℝ, z + z ^ 3 * asinQ (z * z) = asinP z from fun z => rfl, abs_of_nonneg h0] at e1
  generalize binary32.toReal r = R at *
  generalize binary32.toReal x = X at *
  have h4 := abs_add_le (R - asinP X) (asinP X - Real.arcsin X)
  rw [sub_add_sub_cancel] at h4
  norm_num at h4 P e1 ⊢
  linarith

theorem vecAsin_eq (h : V.Ieee) (hx : IsFin binary32 x) (h1 : |binary32.toReal x| ≤ 1) (hr : r ∈ vecAsin c V x)
    {a : BitVec 32} (ha : a = binary32.fabs x) :
    ∃ p ∈ asinPoly c (if 1 / 2 < |binary32.toReal x| then V.sqrt (V.mul (V.sub V.one a) V.half) else a),
      r = (if 1 / 2 < |binary32.toReal x| then V.sub (V.sub (litD 1.57079637050628662109375) p) p else p) ^^^
        signBit (binary32.neg x) := by
  have hf : IsFin binary32 a := by rw [ha]; unfold IsFin; rw [binary32.isFinite_fabs]; exact hx
  unfold vecAsin at hr
  dsimp only at hr
  simp only [List.mem_map] at hr
  obtain ⟨p, hp, hr⟩ := hr
  rw [abs_and h, ← ha, gtHalf h hf (q := 1 / 2) (by decide +kernel), h.sel] at hp
  rw [abs_and h, h.sign, sign_and, ← ha, gtHalf h hf (q := 1 / 2) (by decide +kernel),
    gtHalf h hf (q := 1) (by rw [h.one]; decide +kernel), h.sel, h.sel, ha, binary32.toReal_fabs] at hr
  rw [decide_eq_false (by push_cast; linarith)] at hr
  rw [ha, binary32.toReal_fabs, ← ha] at hp
  simp only [Bool.false_eq_true, if_false, decide_eq_true_eq] at hr hp
  push_cast at hr hp
  exact ⟨p, hp, hr.symm⟩

theorem vecAsin_small (h : V.Ieee) (hx : IsFin binary32 x) (h1 : |binary32.toReal x| ≤ 1 / 2) :
    ∀ r ∈ vecAsin c V x, IsFin binary32 r ∧
    |binary32.toReal r - Real.arcsin (binary32.toReal x)| ≤ 848 / 10 ^ 10 * |binary32.toReal x| := by
  intro r hr
  obtain ⟨p, hp, rfl⟩ := vecAsin_eq h hx (by linarith) hr rfl
  rw [if_neg (not_lt.mpr h1)] at hp ⊢
  have hf : IsFin binary32 (binary32.fabs x) := by unfold IsFin; rw [binary32.isFinite_fabs]; exact hx
  obtain ⟨f, e⟩ := asinPoly_error hf (by rw [binary32.toReal_fabs]; exact abs_nonneg _)
    (by rw [binary32.toReal_fabs]; exact h1) p hp
  rw [binary32.toReal_fabs] at e
  have t : Tr p (Real.arcsin |binary32.toReal x|) _ _ := ⟨f, e, le_rfl⟩
  have s := t.signed (binary32.neg x)
  rw [signed_arcsin] at s
  exact ⟨s.fin, s.err⟩

theorem vecAsin_error (h : V.Ieee) (hx : IsFin binary32 x) (h1 : |binary32.toReal x| ≤ 1) :
    ∀ r ∈ vecAsin c V x, IsFin binary32 r ∧
    |binary32.toReal r - Real.arcsin (binary32.toReal x)| ≤ 5 / 10 ^ 7 * |Real.arcsin (binary32.toReal x)| := by
  intro r hr
  by_cases hc : 1 / 2 < |binary32.toReal x|
  · obtain ⟨p, hp, rfl⟩ := vecAsin_eq h hx h1 hr rfl
    rw [if_pos hc] at hp ⊢
    have hf : IsFin binary32 (binary32.fabs x) := by unfold IsFin; rw [binary32.isFinite_fabs]; exact hx
    obtain ⟨f, e⟩ := asin_large_of h hf (p := p) (by rw [binary32.toReal_fabs]; exact hc)
      (by rw [binary32.toReal_fabs]; exact h1) (fun hy g1 g2 g3 => asinPoly_error g1 g2 g3 p (hy ▸ hp))
    rw [binary32.toReal_fabs] at e
    have t : Tr _ (Real.arcsin |binary32.toReal x|) _ _ := ⟨f, e, le_rfl⟩
    have s := t.signed (binary32.neg x)
    rw [signed_arcsin] at s
    refine ⟨s.fin, s.err.trans (le_of_eq ?_)⟩
    rw [← signed_arcsin x]
    cases binary32.neg x
    · rfl
    · rw [if_pos rfl, abs_neg]
  · rw [not_lt] at hc
    obtain ⟨f, e⟩ := vecAsin_small h hx hc r hr
    refine ⟨f, e.trans ?_⟩
    have : |binary32.toReal x| ≤ |Real.arcsin (binary32.toReal x)| := by
      have := (arcsin_le (abs_nonneg _) hc).1
      refine this.trans ?_
      rw [← signed_arcsin x]
      cases binary32.neg x
      · exact le_abs_self _
      · rw [if_pos rfl, abs_neg]; exact le_abs_self _
    have h3 := abs_nonneg (binary32.toReal x)
    norm_num at this ⊢
    linarith

/-! ## `acos` -/

theorem vecAcos_error (h : V.Ieee) (hx : IsFin binary32 x) (h1 : |binary32.toReal x| ≤ 1)
    (hn : binary32.toReal x ≠ -1 / 2) :
    ∀ r ∈ vecAcos c V x, IsFin binary32 r ∧
    |binary32.toReal r - Real.arccos (binary32.toReal x)| ≤ 25 / 10 ^ 8 * Real.arccos (binary32.toReal x) := by
  intro r hr
  have hf : IsFin binary32 (binary32.fabs x) := by unfold IsFin; rw [binary32.isFinite_fabs]; exact hx
  unfold vecAcos at hr
  dsimp only at hr
  simp only [List.mem_map] at hr
  obtain ⟨s, hs, hr⟩ := hr
  rw [abs_and h, gtHalf h hf (q := 1 / 2) (by rw [h.half]; decide +kernel), h.sel, binary32.toReal_fabs] at hs
  rw [abs_and h,
    gtHalf h hf (q := 1) (by rw [h.one]; decide +kernel), gtHalf h hx (q := 1 / 2) (by rw [h.half]; decide +kernel),
    gtHalf h hx (q := -1 / 2) (by decide +kernel), h.sel, h.sel, h.sel, binary32.toReal_fabs] at hr
  rw [decide_eq_false (p := ((1 : ℚ) : ℝ) < |binary32.toReal x|) (by push_cast; linarith)] at hr
  simp only [Bool.false_eq_true, if_false, decide_eq_true_eq] at hr hs
  push_cast at hr hs
  exact acos_error_of h hx h1 hn (s := s) (fun hy f b => vecAsin_small h f b s (hy ▸ hs)) hr.symm

/-! ## `atan` -/

/-- A sum with a number in a register. -/
theorem Op.sum_cases {s : BitVec 32} {b : Operand 32} {S w f C : ℝ} (hr : r ∈ add c (.reg s) b) (hs : Tr s S 0 4)
    (hb : Op b w f C) (hC : C + f ≤ 4) :
    IsFin binary32 r ∧ ∃ T, |T - w| ≤ f ∧ |binary32.toReal r - (binary32.toReal s + T)| ≤
      1 / 2 ^ 24 * |binary32.toReal s + T| + 1 / 2 ^ 150 := by
  have hs' := hs.abs_le
  have bound : ∀ T, |T - w| ≤ f → |binary32.toReal s + T| ≤ 2 ^ 127 := by
    intro T hT
    have h1 := abs_add_le (binary32.toReal s) T
    have h2 := abs_add_le (T - w) w
    rw [sub_add_cancel] at h2
    have := hb.bnd
    norm_num at *; linarith
  rcases mem_sums hr with rfl | ⟨-, _, _, h, -⟩ | ⟨-, y, q, rfl, rfl⟩
  · obtain ⟨f1, e1⟩ := add_near32 hs.fin hb.tr.fin (bound _ hb.tr.err)
    exact ⟨f1, _, hb.tr.err, e1.trans (le_add_of_nonneg_right (by positivity))⟩
  · exact absurd h (by simp)
  · have b1 := bound _ hb.err
    change |binary32.toReal s + binary32.toReal y * binary32.toReal q| ≤ _ at b1
    rw [add_comm] at b1
    obtain ⟨f1, e1⟩ := fma_near32 hb.fin.1 hb.fin.2 hs.fin b1
    refine ⟨f1, _, hb.err, ?_⟩
    change |_ - (binary32.toReal s + binary32.toReal y * binary32.toReal q)| ≤
      _ * |binary32.toReal s + binary32.toReal y * binary32.toReal q| + _
    rw [add_comm (binary32.toReal s)]
    exact e1

/-- The last line of `vec_atan_float`. -/
def AtanLast (c : Bool) (V : LaneOps 32) (x off r : BitVec 32) : Prop :=
  ∃ p ∈ atanInner c (binary32.mul x x), r ∈ add c (.reg (V.add off x)) (.prod (binary32.mul x (binary32.mul x x)) p)

theorem atan_tail (h : V.Ieee) {off : BitVec 32} {v K δ : ℝ} {O : ℚ} (hx : IsFin binary32 x)
    (hv : |v| ≤ 0.41422) (he : |binary32.toReal x - v| ≤ 1.26 / 2 ^ 24) (ho : isVal off O = true)
    (hO : (O : ℝ) ≤ 1.6) (hO0 : 0 ≤ (O : ℝ)) (hK : |(O : ℝ) - K| ≤ δ) (hδ : δ ≤ 1 / 10 ^ 7)
    (hr : AtanLast c V x off r) :
    IsFin binary32 r ∧ |binary32.toReal r - (K + Real.arctan v)| ≤
      2.01 / 2 ^ 24 * |K + Real.arctan v| + 0.18 / 2 ^ 24 + δ + 84 / 10 ^ 9 := by
  have hX : |binary32.toReal x| ≤ 0.4143 := by
    have := abs_add_le (binary32.toReal x - v) v
    rw [sub_add_cancel] at this
    norm_num at *; linarith
  obtain ⟨p, hp, hr⟩ := hr
  have hxt : Tr x (binary32.toReal x) 0 0.4143 := Tr.exact hx hX
  have t0 := atanInner_track hxt p hp
  have t1 := Tr.mul (D := 2813/2^14) (E := 1407/2^37) hxt hxt (by norm_num) (by norm_num) (by norm_num)
  have t2 := Tr.mul (D := 0.0712) (E := 0.15/2^24) hxt t1 (by norm_num) (by norm_num) (by norm_num)
  have t3 := Op.mul (D := 0.0266) (E := 0.12/2^24) t2.op t0.op (by norm_num) (by norm_num) (by norm_num)
  rw [h.add] at hr
  obtain ⟨fs, bs⟩ := atan_base hx hX ho hO hO0
  obtain ⟨f2, T, e2, e3⟩ := Op.sum_cases hr (Tr.exact fs bs) t3 (by norm_num)
  exact ⟨f2, atan_tail_of hx hv he ho hO hO0 hK hδ e2 t3.bnd e3⟩

theorem atan_range0 (h : V.Ieee) (hx : IsFin binary32 x) (hX : |binary32.toReal x| ≤ 0.4143)
    (hr : AtanLast c V x V.zero r) :
    IsFin binary32 r ∧
    |binary32.toReal r - Real.arctan (binary32.toReal x)| ≤ 45 / 10 ^ 8 * |Real.arctan (binary32.toReal x)| := by
  obtain ⟨p, hp, hr⟩ := hr
  have t0 := atanInner_track (Tr.exact hx hX) p hp
  rw [h.add, h.zero] at hr
  obtain ⟨f0, e0⟩ := zero_add32 hx (y := 0#32) (by decide) (by unfold Fmt.toReal; rw [show binary32.units 0#32 = 0 by decide]; simp)
  obtain ⟨f1, e1⟩ := odd_poly (d := 1.5 / 2 ^ 24) hx f0 e0 t0 hX (by norm_num) (by norm_num) (by norm_num) (by norm_num) r hr
  exact ⟨f1, atan_range0_of hX t0.bnd e1⟩

theorem vecAtan_error (h : V.Ieee) (hx : IsFin binary32 x) :
    ∀ r ∈ vecAtan c V x, IsFin binary32 r ∧
    |binary32.toReal r - Real.arctan (binary32.toReal x)| ≤ 45 / 10 ^ 8 * |Real.arctan (binary32.toReal x)| := by
  intro r hr
  unfold vecAtan at hr
  dsimp only at hr
  simp only [List.mem_map] at hr
  obtain ⟨s, hs, rfl⟩ := hr
  rw [abs_and h] at hs
  rw [h.sign, sign_and]
  have hf : IsFin binary32 (binary32.fabs x) := by unfold IsFin; rw [binary32.isFinite_fabs]; exact hx
  unfold atanAbs at hs
  dsimp only at hs
  simp only [List.mem_flatMap] at hs
  obtain ⟨f, e⟩ := atan_ranges h hf (by rw [binary32.toReal_fabs]; exact abs_nonneg _) (AtanLast c V)
    (atan_tail h) (atan_range0 h) hs
  rw [binary32.toReal_fabs] at e
  have t : Tr s (Real.arctan |binary32.toReal x|) _ _ := ⟨f, e, le_rfl⟩
  have s := t.signed (binary32.neg x)
  have e2 : (if binary32.neg x then -Real.arctan |binary32.toReal x| else Real.arctan |binary32.toReal x|) =
      Real.arctan (binary32.toReal x) := by
    conv_rhs => rw [toReal_eq_signed x]
    cases binary32.neg x
    · rfl
    · rw [if_pos rfl, if_pos rfl, Real.arctan_neg]
  have e3 : abs (Real.arctan |binary32.toReal x|) = abs (Real.arctan (binary32.toReal x)) := by
    rw [← e2]; cases binary32.neg x
    · rfl
    · rw [if_pos rfl, abs_neg]
  rw [e2, e3] at s
  exact ⟨s.fin, s.err⟩

/-! ## `tanh` -/

theorem tanhSmall_error {a : BitVec 32} (hx : IsFin binary32 x)
    (ha : IsFin binary32 a) (hxa : |binary32.toReal a| = |binary32.toReal x|) (hb : |binary32.toReal x| ≤ 0.625) :
    ∀ r ∈ tanhSmall c x a, IsFin binary32 r ∧
    |binary32.toReal r - Real.tanh (binary32.toReal x)| ≤ 13 / 10 ^ 8 * |binary32.toReal x| := by
  intro r hr
  unfold tanhSmall at hr
  dsimp only at hr
  simp only [List.mem_flatMap] at hr
  obtain ⟨q, hq, hr⟩ := hr
  have t := tanhInner_track (Tr.exact ha (B := 5/2^3) (by rw [hxa]; exact hb.trans (by norm_num))) q hq
  have aa : binary32.toReal a * binary32.toReal a = binary32.toReal x * binary32.toReal x := by
    rw [← abs_mul_abs_self, hxa, abs_mul_abs_self]
  rw [aa] at t
  obtain ⟨f, e⟩ := odd_poly_tanh (d := 12 / 10 ^ 8) hx ha hxa t hb (by norm_num) (by norm_num) (by norm_num)
    (by norm_num) r hr
  refine ⟨f, ?_⟩
  have p := tanhP_error hb
  have e2 : binary32.toReal x + binary32.toReal x ^ 3 * tanhQ (binary32.toReal x * binary32.toReal x) =
    tanhP (binary32.toReal x) := rfl
  rw [e2] at e
  have := abs_sub_le (binary32.toReal r) (tanhP (binary32.toReal x)) (Real.tanh (binary32.toReal x))
  have h0 := abs_nonneg (binary32.toReal x)
  refine this.trans ((add_le_add e p).trans ?_)
  norm_num
  linarith

theorem vecTanh_error (h : V.Ieee) (hV : IsX86Class V) (hx : IsFin binary32 x) :
    ∀ r ∈ vecTanh c V x, IsFin binary32 r ∧
    |binary32.toReal r - Real.tanh (binary32.toReal x)| ≤ 5 / 10 ^ 7 * |Real.tanh (binary32.toReal x)| := by
  intro r hr
  have hf : IsFin binary32 (binary32.fabs x) := by unfold IsFin; rw [binary32.isFinite_fabs]; exact hx
  have va : binary32.toReal (binary32.fabs x) = |binary32.toReal x| := by rw [binary32.toReal_fabs]
  have ea : x ^^^ signBit (binary32.neg x) = binary32.fabs x := by
    rw [← sign_and]; exact binary32.xor_sign x
  unfold vecTanh at hr
  dsimp only at hr
  simp only [List.mem_flatMap, List.mem_map] at hr
  obtain ⟨E, hE, s, hs, hr⟩ := hr
  rw [h.sign, sign_and, ea] at hE hs
  rw [h.sign, sign_and, ea, gtHalf h hf (q := 22) (by decide +kernel), ltHalf h hf (q := 625 / 1000) (by decide +kernel),
    h.sel, h.sel, va] at hr
  have e1 : ((625 / 1000 : ℚ) : ℝ) = 0.625 := by norm_num
  have e2 : ((22 : ℚ) : ℝ) = 22 := by norm_num
  rw [e1, e2, h.one] at hr
  simp only [decide_eq_true_eq] at hr
  refine tanh_error_of (s := s) (m := V.sub 0x3f800000#32 (V.div (litF 2) (V.add E 0x3f800000#32)))
    (fun h1 => tanhSmall_error hx hf (by rw [va, abs_abs]) h1.le s hs) (fun h1 h2 => ?_) hr.symm
  obtain ⟨fd, ed⟩ := double32 hf (by rw [va]; intro h0; rw [h0] at h1; norm_num at h1)
    (by rw [va, abs_abs]; exact h2.trans (by norm_num))
  rw [va] at ed
  have t1 : Tr (litF 1) 1 0 1 := (Tr.const (x := litF 1) 1 1 (by decide +kernel) (by norm_num)).congr (by norm_num)
  have hE' : E ∈ expApprox c V (litF 1) (.reg (binary32.add (binary32.fabs x) (binary32.fabs x))) := by
    rw [← h.add]; exact hE
  obtain ⟨X, hX, n1, n2⟩ := exp_scaled h hV t1 (a := .reg (binary32.add (binary32.fabs x) (binary32.fabs x))) fd fd
    (by change _ ≤ binary32.toReal (binary32.add _ _); rw [ed]; norm_num at *; linarith)
    (by change binary32.toReal (binary32.add _ _) ≤ _; rw [ed]; norm_num at *; linarith)
    (by change |binary32.toReal (binary32.add _ _)| ≤ _; rw [ed, abs_le]; norm_num at *; constructor <;> linarith)
    (by change binary32.toReal (binary32.add _ _) ≤ _; rw [ed]; norm_num at *; linarith) E hE'
  have hX' : X = 2 * |binary32.toReal x| := by
    rcases hX with rfl | ⟨-, rfl⟩
    · exact ed
    · exact ed
  rw [hX', ← va] at n2
  have := tanh_medium_of h (by rw [va]; exact h1) (by rw [va]; exact h2) n1.2 n2
  rw [va, h.one] at this
  exact ⟨this.1, this.2.1⟩

/-! ## `pow` -/

theorem vecPow_cases (h : V.Ieee) (hp : 0 < binary32.toReal x) (hr : r ∈ vecPow c V x y) :
    ∃ l ∈ vecLog c V x, r ∈ vecExp c V (.prod y l) := by
  unfold vecPow at hr
  dsimp only at hr
  simp only [List.mem_flatMap, List.mem_map] at hr
  obtain ⟨l, hl, s, hs, hr⟩ := hr
  have h0 : binary32.eqb x V.zero = false := by
    rw [h.zero, Bool.eq_false_iff]
    intro hc
    rw [binary32.eqb_iff] at hc
    have hk := hc.2.2
    rw [show binary32.key 0#32 = 0 by decide, binary32.key_eq_zero] at hk
    have hu := binary32.units_eq_zero.mpr hk
    unfold Fmt.toReal at hp
    rw [hu] at hp
    simp at hp
  rw [h.eq, h0, h.sel] at hr
  exact ⟨l, hl, by rw [← hr]; exact hs⟩

/-- A power of a positive number from any approximation of its logarithm. -/
theorem pow_core (h : V.Ieee) (hV : IsX86Class V) {l : BitVec 32} {L : ℝ} (hy : IsFin binary32 y)
    (f1 : IsFin binary32 l) (e1 : |binary32.toReal l - L| ≤ 1 / 2 ^ 22 * |L|)
    (hlo : -87.3 ≤ binary32.toReal y * L) (hhi : binary32.toReal y * L ≤ 88.7228) :
    ∀ r ∈ vecExp c V (.prod y l), IsNormal r ∧
    |binary32.toReal r - Real.exp (binary32.toReal y * L)| ≤
      (4e-7 + 3.1e-7 * |binary32.toReal y * L|) * Real.exp (binary32.toReal y * L) := by
  intro r hr
  have hL : |binary32.toReal y * L| ≤ 89 := by
    rw [abs_le]; norm_num at *; constructor <;> linarith
  obtain ⟨f2, e2, e3⟩ := pow_product_of hy f1 e1 (hL.trans (by norm_num))
  generalize binary32.toReal y * L = M at *
  have bd : ∀ z : ℝ, |z - M| ≤ 3e-7 * |M| + 1 / 2 ^ 150 → -87.33 ≤ z ∧ z ≤ 88.722832 := by
    intro z hz
    have hd := abs_le.mp hz
    constructor <;> norm_num at hd hL hlo hhi ⊢ <;> linarith
  obtain ⟨b1, b2⟩ := bd _ e2
  obtain ⟨b3, b4⟩ := bd _ e3
  have hv : binary32.value (.prod y l) = binary32.mul y l := rfl
  have he : Operand.exact (.prod y l) = binary32.toReal y * binary32.toReal l := rfl
  have h1 : Tr V.one 1 0 1 := by rw [h.one]; exact one_track
  have m := not_saturated h (a := .prod y l) (by rw [hv]; exact f2) (by rw [hv]; norm_num at *; linarith)
    (by rw [hv]; norm_num at *; linarith) r hr
  obtain ⟨X, hX, n1, n2⟩ := exp_scaled h hV h1 (a := .prod y l) (by rw [hv]; exact f2) ⟨hy, f1⟩
    (by rw [hv]; exact b1) (by rw [hv]; exact b2)
    (by rw [he, abs_le]; norm_num at b3 b4 ⊢; constructor <;> linarith)
    (by rw [he]; norm_num at b4 ⊢; linarith) r m
  refine ⟨n1, pow_error_of hL (M := X) ?_ n2⟩
  rcases hX with rfl | ⟨-, rfl⟩
  · exact e2
  · exact e3

theorem vecPow_error (h : V.Ieee) (hV : IsX86Class V) (hx : IsNormal x)
    (hp : 0 < binary32.toReal x) (hy : IsFin binary32 y)
    (hlo : -87.3 ≤ binary32.toReal y * Real.log (binary32.toReal x))
    (hhi : binary32.toReal y * Real.log (binary32.toReal x) ≤ 88.7228) :
    ∀ r ∈ vecPow c V x y, IsNormal r ∧
    |binary32.toReal r - binary32.toReal x ^ binary32.toReal y| ≤
      (4e-7 + 3.1e-7 * |binary32.toReal y * Real.log (binary32.toReal x)|) * binary32.toReal x ^ binary32.toReal y := by
  intro r hr
  obtain ⟨l, hl, hr⟩ := vecPow_cases h hp hr
  obtain ⟨f1, e1⟩ := vecLog_error h hV hx (neg_of_toReal hp) l hl
  rw [Real.rpow_def_of_pos hp, mul_comm (Real.log _)]
  exact pow_core h hV hy f1 e1 hlo hhi r hr

theorem vecSignedPow_eq (h : V.Ieee) (hr : r ∈ vecSignedPow c V x y) :
    ∃ s ∈ vecPow c V (binary32.fabs x) y, r = signBit (binary32.neg x) ||| s := by
  unfold vecSignedPow at hr
  dsimp only at hr
  simp only [List.mem_map] at hr
  obtain ⟨s, hs, rfl⟩ := hr
  have e : x ^^^ signBit (binary32.neg x) = binary32.fabs x := by
    rw [← sign_and]; exact binary32.xor_sign x
  rw [h.sign, sign_and, e] at hs
  rw [h.sign, sign_and]
  exact ⟨s, hs, rfl⟩

end Contract
end Nova
