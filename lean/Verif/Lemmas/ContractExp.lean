import Verif.Lemmas.ContractReduce
import Verif.Props.C46_Exp

/-!
# The exponential with contraction

The argument may be a product (`vec_pow` computes `exp(y * log(x))`): the reduction then starts from the product or
from its rounded value.
-/

namespace Nova
open FP VecMath
namespace Contract

/-- The argument from which the exponential is computed: the value, or the product before its rounding. -/
def Source (a : Operand 32) (X : ℝ) : Prop := X = binary32.toReal (binary32.value a) ∨ (a.Fin ∧ X = a.exact)

theorem Source.near {a : Operand 32} {X : ℝ} (h : Source a X) (hr : |a.exact| ≤ 90) :
    |X - binary32.toReal (binary32.value a)| ≤ 1 / 10 ^ 5 := by
  rcases h with rfl | ⟨f, rfl⟩
  · rw [sub_self, abs_zero]; positivity
  · cases a with
    | reg x => change |binary32.toReal x - binary32.toReal x| ≤ _; rw [sub_self, abs_zero]; positivity
    | prod x y =>
      obtain ⟨-, e⟩ := mul_near32 f.1 f.2 (hr.trans (by norm_num))
      change |binary32.toReal x * binary32.toReal y| ≤ 90 at hr
      change |binary32.toReal x * binary32.toReal y - binary32.toReal (binary32.mul x y)| ≤ _
      rw [abs_sub_comm]
      norm_num at *
      linarith

theorem expReduce_track {c : Bool} {a : Operand 32} {z : BitVec 32} {k : ℤ} (ha : IsFin binary32 (binary32.value a))
    (hf : a.Fin) (hr : |binary32.toReal (binary32.value a)| ≤ 89) (hr2 : |a.exact| ≤ 89.005)
    (hk3 : |k| ≤ 128) (hk1 : |(k : ℝ) - 12102203 / 2 ^ 23 * binary32.toReal (binary32.value a)| ≤ 0.50001)
    (z1 : IsFin binary32 z) (z3 : binary32.toReal z = k) :
    ∀ r ∈ expReduce c a z, ∃ X, Source a X ∧ Tr r (X - k * Real.log 2) (1/2^24) 0.34667 := by
  intro r hm
  unfold expReduce at hm
  simp only [List.mem_flatMap] at hm
  obtain ⟨p1, m1, m2⟩ := hm
  obtain ⟨hz, t1, t2⟩ := exp_prod hk3 z1 z3
  have f1 : IsFin binary32 (litF 0.693359375) := isVal_fin (q := 355/2^9) (by decide +kernel)
  have o1 := Op.exact_prod z1 f1 t1 t2
  have c2 := Op.const (x := litF (-2.12194440e-4)) (-14581891/2^36) (0.0002123) (by decide +kernel) (by norm_num)
  have p2 := Op.mul (D := 0.0272) (E := 0.0273/2^24) hz.op c2 (by norm_num) (by norm_num) (by norm_num)
  have key : ∃ X, Source a X ∧ |X| ≤ 89.01 ∧ Tr p1 (X - k * (355 / 2 ^ 9)) (0.3741/2^24) 0.374 := by
    have direct : p1 ∈ binary32.diffs c (.reg (binary32.value a)) (.prod z (litF 0.693359375)) →
        ∃ X, Source a X ∧ |X| ≤ 89.01 ∧ Tr p1 (X - k * (355 / 2 ^ 9)) (0.3741/2^24) 0.374 := by
      intro m
      obtain ⟨hred, d1, f, d2⟩ := exp_red_reals hk3 (hr.trans (by norm_num)) (hk1.trans (by norm_num))
      exact ⟨_, .inl rfl, hr.trans (by norm_num),
        Op.sub_of (D := 0.374) (E := 0.3741/2^24) m (Tr.exact ha hr).op o1 d1 (by norm_num) (by norm_num)⟩
    cases a with
    | reg x => exact direct m1
    | prod x y =>
      rcases mem_diffs m1 with g | ⟨hc, x1, y1, g, g'⟩ | ⟨hc, x1, y1, g, g'⟩
      · exact direct (by subst g; unfold Fmt.diffs; exact List.mem_cons_self)
      · cases g
        have hn := (show Source (.prod x y) _ from .inr ⟨hf, rfl⟩).near (hr2.trans (by norm_num))
        obtain ⟨hred, d1, f, d2⟩ := exp_red_reals (X := Operand.exact (.prod x y)) hk3 (hr2.trans (by norm_num)) (by
          rw [abs_le] at hk1 hn ⊢; norm_num at *; constructor <;> linarith)
        refine ⟨Operand.exact (.prod x y), .inr ⟨hf, rfl⟩, hr2.trans (by norm_num), ?_⟩
        subst g'
        have e : binary32.toReal x * binary32.toReal y +
            binary32.toReal (binary32.negate (binary32.value (.prod z (litF 0.693359375)))) =
            Operand.exact (.prod x y) - k * (355 / 2 ^ 9) := by
          have := t1.err
          rw [binary32.toReal_negate]
          change _ + -binary32.toReal (binary32.mul z (litF 0.693359375)) = _
          rw [sub_eq_zero.mp (abs_nonpos_iff.mp this)]
          rfl
        obtain ⟨n1, n2⟩ := fma_near32 (z := binary32.negate (binary32.value (.prod z (litF 0.693359375)))) hf.1 hf.2
          (Op.fin_negate32 t1.fin) (by rw [e]; exact d1.trans (by norm_num))
        rw [e] at n2
        exact Op.rounded (e := 0) n1 n2 (by rw [sub_self, abs_zero]) d1 (by norm_num)
      · cases g
        subst hc
        exact direct (by subst g'; exact List.mem_cons_of_mem _ List.mem_cons_self)
  obtain ⟨X, hX, hb, s1⟩ := key
  refine ⟨X, hX, ?_⟩
  have hn := hX.near (hr2.trans (by norm_num))
  obtain ⟨hred, d1, f, d2⟩ := exp_red_reals (X := X) hk3 hb (by
    rw [abs_le] at hk1 hn ⊢; norm_num at *; constructor <;> linarith)
  have s2 := Op.sub_of (D := 0.3467) (E := 0.7482/2^24) m2 s1.op p2 d2 (by norm_num) (by norm_num)
  exact s2.recenter f (by norm_num) hred

/-- The value which `vec_exp_float` scales. -/
theorem exp_core {c : Bool} {V : LaneOps 32} (h : V.Ieee) {one : BitVec 32} {a : Operand 32} (h1 : Tr one 1 0 1)
    (ha : IsFin binary32 (binary32.value a)) (hf : a.Fin) (hr : |binary32.toReal (binary32.value a)| ≤ 89)
    (hr2 : |a.exact| ≤ 89.005) :
    ∃ k : ℤ, |k| ≤ 128 ∧ (V.truncateToInt (expScale V (binary32.value a))).toInt = k ∧
      |(k : ℝ) - 12102203 / 2 ^ 23 * binary32.toReal (binary32.value a)| ≤ 0.50001 ∧
      ∀ x ∈ expReduce c a (expScale V (binary32.value a)), ∀ q ∈ expPoly c one x, ∃ X, Source a X ∧
      IsNormal q ∧ binary32.neg q = false ∧
      |binary32.toReal q - Real.exp (X - k * Real.log 2)| ≤ (39 / 10 ^ 8) * Real.exp (X - k * Real.log 2) ∧
      |X - k * Real.log 2| ≤ 0.34667 := by
  obtain ⟨k, hk3, k2, hk1, z1, z3⟩ := expScale_value h ha hr
  refine ⟨k, hk3, k2, hk1, fun x hx q hq => ?_⟩
  obtain ⟨X, hX, t⟩ := expReduce_track ha hf hr hr2 hk3 hk1 z1 z3 x hx
  exact ⟨X, hX, exp_core_of t (expPoly_track h1 t q hq)⟩

/-- The scaled polynomial, before the limits are applied. -/
def expApprox (c : Bool) (V : LaneOps 32) (one : BitVec 32) (a : Operand 32) : List (BitVec 32) :=
  let z := expScale V (binary32.value a)
  (expReduce c a z).flatMap fun x => (expPoly c one x).map fun p => ldexp V p (V.truncateToInt z)

theorem exp_scaled {c : Bool} {V : LaneOps 32} (h : V.Ieee) (hV : IsX86Class V) {one : BitVec 32} {a : Operand 32}
    (h1 : Tr one 1 0 1) (ha : IsFin binary32 (binary32.value a)) (hf : a.Fin)
    (hlo : -87.33 ≤ binary32.toReal (binary32.value a)) (hhi : binary32.toReal (binary32.value a) ≤ 88.722832)
    (hr2 : |a.exact| ≤ 89.005) (hhi2 : a.exact ≤ 88.7228356) :
    ∀ r ∈ expApprox c V one a, ∃ X, Source a X ∧
      IsNormal r ∧ |binary32.toReal r - Real.exp X| ≤ (39 / 10 ^ 8) * Real.exp X := by
  intro r hr
  unfold expApprox at hr
  simp only [List.mem_flatMap, List.mem_map] at hr
  obtain ⟨x, hx, p, hp, rfl⟩ := hr
  obtain ⟨k, hk3, k2, hk1, H⟩ := exp_core (c := c) h h1 ha hf (by
    rw [abs_le]; constructor <;> norm_num at * <;> linarith) hr2
  obtain ⟨X, hX, n1, n2, n3, n4⟩ := H x hx p hp
  refine ⟨X, hX, exp_scaled_of hV k2 n1 n2 n3 ?_ ?_⟩
  · have hn := hX.near (hr2.trans (by norm_num))
    rw [abs_le] at hn
    norm_num at *; linarith
  · rcases hX with rfl | ⟨-, rfl⟩
    · norm_num at *; linarith
    · exact hhi2

theorem exp_tiny {c : Bool} {V : LaneOps 32} (h : V.Ieee) {one x : BitVec 32} (h1 : Tr one 1 0 1)
    (hx : IsFin binary32 x) (hlo : -88 ≤ binary32.toReal x) (hhi : binary32.toReal x ≤ -87.33) :
    ∀ r ∈ expApprox c V one (.reg x), binary32.code r < 2 * 2 ^ 23 ∧ binary32.neg r = false := by
  intro r hr
  unfold expApprox at hr
  simp only [List.mem_flatMap, List.mem_map] at hr
  obtain ⟨y, hy, p, hp, rfl⟩ := hr
  have hb : |binary32.toReal x| ≤ 89 := by
    rw [abs_le]; constructor <;> norm_num at * <;> linarith
  obtain ⟨k, hk3, k2, hk1, H⟩ := exp_core (a := .reg x) (c := c) h h1 hx hx hb (hb.trans (by norm_num))
  obtain ⟨X, hX, n1, n2, n3, n4⟩ := H y hy p hp
  have e : X = binary32.toReal x := by
    rcases hX with e | ⟨-, e⟩ <;> exact e
  subst e
  exact exp_tiny_of h k2 n1 n2 n3 n4 (hk1.trans (by norm_num)) (by norm_num at *; linarith) (by norm_num at *; linarith)

attribute [local irreducible] litD litF in
theorem vecExp_cases {c : Bool} {V : LaneOps 32} (h : V.Ieee) {a : Operand 32} (ha : Num binary32 (binary32.value a)) :
    ∀ r ∈ vecExp c V a,
      (binary32.ltb (binary32.value a) 0xc2b00000#32 = true ∧ r = 0#32) ∨
      (binary32.ltb (binary32.value a) 0xc2b00000#32 = false ∧ binary32.ltb 0x42b17218#32 (binary32.value a) = true ∧
        r = 0x7f7fffff#32) ∨
      (binary32.ltb (binary32.value a) 0xc2b00000#32 = false ∧ binary32.ltb 0x42b17218#32 (binary32.value a) = false ∧
        r ∈ expApprox c V V.one a) := by
  intro r hr
  unfold vecExp at hr
  simp only [List.mem_flatMap, List.mem_map] at hr
  obtain ⟨x, hx, p, hp, hr⟩ := hr
  rw [maxlogf_eq, minlogf_eq, h.gt _ _ ha (by decide), h.lt, h.sel, h.sel, h.zero] at hr
  cases h1 : binary32.ltb (binary32.value a) 0xc2b00000#32
  · cases h2 : binary32.ltb 0x42b17218#32 (binary32.value a)
    · refine .inr (.inr ⟨rfl, rfl, ?_⟩)
      rw [h1, h2] at hr
      unfold expApprox
      simp only [List.mem_flatMap, List.mem_map]
      exact ⟨x, hx, p, hp, hr⟩
    · rw [h1, h2] at hr
      exact .inr (.inl ⟨rfl, rfl, hr.symm⟩)
  · rw [h1] at hr
    exact .inl ⟨rfl, hr.symm⟩

theorem not_saturated {c : Bool} {V : LaneOps 32} (h : V.Ieee) {a : Operand 32}
    (ha : IsFin binary32 (binary32.value a)) (hlo : -88 ≤ binary32.toReal (binary32.value a))
    (hhi : binary32.toReal (binary32.value a) ≤ 11629080 / 2 ^ 17) :
    ∀ r ∈ vecExp c V a, r ∈ expApprox c V V.one a := by
  intro r hr
  have := vecExp_cases h (binary32.isFinite_not_nan ha) r hr
  rw [toReal_lt_of_ltb ha (by decide), toReal_lt_of_ltb (by decide) ha, maxlogf_val, minlogf_val,
    decide_eq_false (not_lt.mpr hlo), decide_eq_false (not_lt.mpr hhi)] at this
  simpa using this

end Contract
end Nova
