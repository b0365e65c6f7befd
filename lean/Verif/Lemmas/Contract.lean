import Verif.Model.Contract
import Verif.Lemmas.TrigFinal

/-!
# Error tracking with contraction

`Op a v e B`: the operand `a` is within `e` of `v`, whether its product is rounded or not.  Sums and differences keep
their bounds for every choice of the compiler.
-/

namespace Nova
open FP

/-- The exact value of an operand. -/
noncomputable def Operand.exact : Operand 32 → ℝ
  | .reg x => binary32.toReal x
  | .prod x y => binary32.toReal x * binary32.toReal y

/-- The factors are finite. -/
def Operand.Fin : Operand 32 → Prop
  | .reg x => IsFin binary32 x
  | .prod x y => IsFin binary32 x ∧ IsFin binary32 y

/-- An operand within `e` of `v`, with and without the rounding of its product. -/
structure Op (a : Operand 32) (v e B : ℝ) : Prop where
  tr : Tr (binary32.value a) v e B
  fin : a.Fin
  err : |a.exact - v| ≤ e

namespace Op
variable {a b : Operand 32} {r x y : BitVec 32} {v w e f B C D E : ℝ} {c : Bool}

theorem bnd (h : Op a v e B) : |v| ≤ B := h.tr.bnd
theorem e_nonneg (h : Op a v e B) : 0 ≤ e := h.tr.e_nonneg

theorem congr (h : Op a v e B) (hv : v = w) : Op a w e B := hv ▸ h

theorem mono (h : Op a v e B) (he : e ≤ f) (hb : B ≤ C) : Op a v f C :=
  ⟨h.tr.mono he hb, h.fin, h.err.trans he⟩

theorem mul_of (ha : Op a v e B) (hb : Op b w f C) (hD : |v * w| ≤ D)
    (hE : e * C + f * B + e * f + 1 / 2 ^ 24 * (D + (e * C + f * B + e * f)) + 1 / 2 ^ 150 ≤ E)
    (hr : D + (e * C + f * B + e * f) ≤ 2 ^ 127) :
    Op (.prod (binary32.value a) (binary32.value b)) (v * w) E D := by
  refine ⟨ha.tr.mul_of hb.tr hD hE hr, ⟨ha.tr.fin, hb.tr.fin⟩, ?_⟩
  have a1 := ha.tr.err
  have a2 := hb.tr.err
  have e0 := ha.e_nonneg
  have f0 := hb.e_nonneg
  have D0 : 0 ≤ D := (abs_nonneg _).trans hD
  have C0 : 0 ≤ C := hb.tr.b_nonneg
  have B0 : 0 ≤ B := ha.tr.b_nonneg
  unfold Operand.exact
  dsimp only
  generalize binary32.toReal (binary32.value a) = X at *
  generalize binary32.toReal (binary32.value b) = Y at *
  have h1 : |X * Y - v * w| ≤ e * C + f * B + e * f := by
    rw [show X * Y - v * w = (X - v) * w + v * (Y - w) + (X - v) * (Y - w) by ring]
    refine (abs_add_le _ _).trans (add_le_add ((abs_add_le _ _).trans (add_le_add ?_ ?_)) ?_)
    · rw [abs_mul]; exact mul_le_mul a1 hb.bnd (abs_nonneg _) e0
    · rw [abs_mul, mul_comm]; exact mul_le_mul a2 ha.bnd (abs_nonneg _) f0
    · rw [abs_mul]; exact mul_le_mul a1 a2 (abs_nonneg _) e0
  refine h1.trans (le_trans ?_ hE)
  have : 0 ≤ 1 / 2 ^ 24 * (D + (e * C + f * B + e * f)) := by positivity
  have : (0 : ℝ) ≤ 1 / 2 ^ 150 := by positivity
  linarith

theorem mul (ha : Op a v e B) (hb : Op b w f C) (hD : B * C ≤ D)
    (hE : e * C + f * B + e * f + 1 / 2 ^ 24 * (D + (e * C + f * B + e * f)) + 1 / 2 ^ 150 ≤ E)
    (hr : D + (e * C + f * B + e * f) ≤ 2 ^ 127) :
    Op (.prod (binary32.value a) (binary32.value b)) (v * w) E D :=
  ha.mul_of hb (by
    rw [abs_mul]; exact (mul_le_mul ha.bnd hb.bnd (abs_nonneg _) ha.tr.b_nonneg).trans hD) hE hr

/-- The result of one rounding. -/
theorem rounded {s t : ℝ} (f : IsFin binary32 r) (hr : |binary32.toReal r - s| ≤ 1 / 2 ^ 24 * |s| + 1 / 2 ^ 150)
    (hs : |s - t| ≤ e) (ht : |t| ≤ D) (hE : e + 1 / 2 ^ 24 * (D + e) + 1 / 2 ^ 150 ≤ E) : Tr r t E D := by
  refine ⟨f, ?_, ht⟩
  have h1 := abs_add_le (binary32.toReal r - s) (s - t)
  rw [sub_add_sub_cancel] at h1
  have h2 := abs_add_le (s - t) t
  rw [sub_add_cancel] at h2
  have h3 : 1 / 2 ^ 24 * |s| ≤ 1 / 2 ^ 24 * (D + e) := mul_le_mul_of_nonneg_left (by linarith) (by norm_num)
  linarith

end Op

theorem Tr.op {x : BitVec 32} {v e B : ℝ} (h : Tr x v e B) : Op (.reg x) v e B := ⟨h, h.fin, h.err⟩

/-- A product which needs no rounding. -/
theorem Op.exact_prod {x y : BitVec 32} {v B : ℝ} (hx : IsFin binary32 x) (hy : IsFin binary32 y)
    (h : Tr (binary32.mul x y) v 0 B) (he : binary32.toReal x * binary32.toReal y = v) : Op (.prod x y) v 0 B :=
  ⟨h, ⟨hx, hy⟩, by unfold Operand.exact; dsimp only; rw [he, sub_self, abs_zero]⟩

/-! ## Choices -/

theorem mem_sums {w : ℕ} {F : Fmt w} {c : Bool} {a b : Operand w} {r : BitVec w} (h : r ∈ F.sums c a b) :
    r = F.add (F.value a) (F.value b) ∨
    (c = true ∧ ∃ x y, a = .prod x y ∧ r = F.fma x y (F.value b)) ∨
    (c = true ∧ ∃ x y, b = .prod x y ∧ r = F.fma x y (F.value a)) := by
  unfold Fmt.sums at h
  cases c
  · simp at h; exact .inl h
  · cases a <;> cases b <;> simp at h
    · exact .inl h
    · rcases h with h | h
      · exact .inl h
      · exact .inr (.inr ⟨rfl, _, _, rfl, h⟩)
    · rcases h with h | h
      · exact .inl h
      · exact .inr (.inl ⟨rfl, _, _, rfl, h⟩)
    · rcases h with h | h | h
      · exact .inl h
      · exact .inr (.inl ⟨rfl, _, _, rfl, h⟩)
      · exact .inr (.inr ⟨rfl, _, _, rfl, h⟩)

theorem mem_diffs {w : ℕ} {F : Fmt w} {c : Bool} {a b : Operand w} {r : BitVec w} (h : r ∈ F.diffs c a b) :
    r = F.sub (F.value a) (F.value b) ∨
    (c = true ∧ ∃ x y, a = .prod x y ∧ r = F.fma x y (F.negate (F.value b))) ∨
    (c = true ∧ ∃ x y, b = .prod x y ∧ r = F.fma (F.negate x) y (F.value a)) := by
  unfold Fmt.diffs at h
  cases c
  · simp at h; exact .inl h
  · cases a <;> cases b <;> simp at h
    · exact .inl h
    · rcases h with h | h
      · exact .inl h
      · exact .inr (.inr ⟨rfl, _, _, rfl, h⟩)
    · rcases h with h | h
      · exact .inl h
      · exact .inr (.inl ⟨rfl, _, _, rfl, h⟩)
    · rcases h with h | h | h
      · exact .inl h
      · exact .inr (.inl ⟨rfl, _, _, rfl, h⟩)
      · exact .inr (.inr ⟨rfl, _, _, rfl, h⟩)

namespace Op
variable {a b : Operand 32} {r x y : BitVec 32} {v w e f B C D E : ℝ} {c : Bool}

theorem fin_negate32 {x : BitVec 32} (h : IsFin binary32 x) : IsFin binary32 (binary32.negate x) := by
  unfold IsFin; rw [binary32.isFinite_negate]; exact h

theorem add_of (hr : r ∈ binary32.sums c a b) (ha : Op a v e B) (hb : Op b w f C) (hD : |v + w| ≤ D)
    (hE : e + f + 1 / 2 ^ 24 * (D + e + f) + 1 / 2 ^ 150 ≤ E) (hm : D + e + f ≤ 2 ^ 127) : Tr r (v + w) E D := by
  have key : ∀ s t : ℝ, |s - v| ≤ e → |t - w| ≤ f → |s + t - (v + w)| ≤ e + f ∧ |s + t| ≤ D + e + f := by
    intro s t h1 h2
    have h3 : |s + t - (v + w)| ≤ e + f := by
      rw [show s + t - (v + w) = (s - v) + (t - w) by ring]
      exact (abs_add_le _ _).trans (add_le_add h1 h2)
    refine ⟨h3, ?_⟩
    have := abs_add_le (s + t - (v + w)) (v + w)
    rw [sub_add_cancel] at this
    linarith
  have hE' : (e + f) + 1 / 2 ^ 24 * (D + (e + f)) + 1 / 2 ^ 150 ≤ E := by rw [← add_assoc D]; exact hE
  rcases mem_sums hr with h | ⟨-, x, y, rfl, h⟩ | ⟨-, x, y, rfl, h⟩
  · subst h
    obtain ⟨k1, k2⟩ := key _ _ ha.tr.err hb.tr.err
    obtain ⟨f1, e1⟩ := add_near32 ha.tr.fin hb.tr.fin (k2.trans hm)
    exact rounded f1 (e1.trans (by have : (0 : ℝ) ≤ 1 / 2 ^ 150 := by positivity
                                   linarith)) k1 hD hE'
  · subst h
    obtain ⟨k1, k2⟩ := key _ _ ha.err hb.tr.err
    obtain ⟨f1, e1⟩ := fma_near32 ha.fin.1 ha.fin.2 hb.tr.fin (k2.trans hm)
    exact rounded f1 e1 k1 hD hE'
  · subst h
    obtain ⟨k1, k2⟩ := key _ _ ha.tr.err hb.err
    rw [add_comm (binary32.toReal _)] at k1 k2
    obtain ⟨f1, e1⟩ := fma_near32 hb.fin.1 hb.fin.2 ha.tr.fin (k2.trans hm)
    exact rounded f1 e1 k1 hD hE'

theorem sub_of (hr : r ∈ binary32.diffs c a b) (ha : Op a v e B) (hb : Op b w f C) (hD : |v - w| ≤ D)
    (hE : e + f + 1 / 2 ^ 24 * (D + e + f) + 1 / 2 ^ 150 ≤ E) (hm : D + e + f ≤ 2 ^ 127) : Tr r (v - w) E D := by
  have key : ∀ s t : ℝ, |s - v| ≤ e → |t - w| ≤ f → |s - t - (v - w)| ≤ e + f ∧ |s - t| ≤ D + e + f := by
    intro s t h1 h2
    have h3 : |s - t - (v - w)| ≤ e + f := by
      rw [show s - t - (v - w) = (s - v) - (t - w) by ring]
      exact (abs_sub _ _).trans (add_le_add h1 h2)
    refine ⟨h3, ?_⟩
    have := abs_add_le (s - t - (v - w)) (v - w)
    rw [sub_add_cancel] at this
    linarith
  have hE' : (e + f) + 1 / 2 ^ 24 * (D + (e + f)) + 1 / 2 ^ 150 ≤ E := by rw [← add_assoc D]; exact hE
  rcases mem_diffs hr with h | ⟨-, x, y, rfl, h⟩ | ⟨-, x, y, rfl, h⟩
  · subst h
    obtain ⟨k1, k2⟩ := key _ _ ha.tr.err hb.tr.err
    obtain ⟨f1, e1⟩ := sub_near32 ha.tr.fin hb.tr.fin (k2.trans hm)
    exact rounded f1 (e1.trans (by have : (0 : ℝ) ≤ 1 / 2 ^ 150 := by positivity
                                   linarith)) k1 hD hE'
  · subst h
    obtain ⟨k1, k2⟩ := key _ _ ha.err hb.tr.err
    rw [sub_eq_add_neg (Operand.exact _), ← binary32.toReal_negate] at k1 k2
    obtain ⟨f1, e1⟩ := fma_near32 ha.fin.1 ha.fin.2 (fin_negate32 hb.tr.fin) (k2.trans hm)
    exact rounded f1 e1 k1 hD hE'
  · subst h
    obtain ⟨k1, k2⟩ := key _ _ ha.tr.err hb.err
    have he : ∀ X : ℝ, X - Operand.exact (.prod x y) = binary32.toReal (binary32.negate x) * binary32.toReal y + X := by
      intro X
      rw [binary32.toReal_negate]; unfold Operand.exact; ring
    rw [he] at k1 k2
    obtain ⟨f1, e1⟩ := fma_near32 (fin_negate32 hb.fin.1) hb.fin.2 ha.tr.fin (k2.trans hm)
    exact rounded f1 e1 k1 hD hE'

theorem add (hr : r ∈ binary32.sums c a b) (ha : Op a v e B) (hb : Op b w f C) (hD : B + C ≤ D)
    (hE : e + f + 1 / 2 ^ 24 * (D + e + f) + 1 / 2 ^ 150 ≤ E) (hm : D + e + f ≤ 2 ^ 127) : Op (.reg r) (v + w) E D :=
  (add_of hr ha hb ((abs_add_le _ _).trans ((add_le_add ha.bnd hb.bnd).trans hD)) hE hm).op

theorem sub (hr : r ∈ binary32.diffs c a b) (ha : Op a v e B) (hb : Op b w f C) (hD : B + C ≤ D)
    (hE : e + f + 1 / 2 ^ 24 * (D + e + f) + 1 / 2 ^ 150 ≤ E) (hm : D + e + f ≤ 2 ^ 127) : Op (.reg r) (v - w) E D :=
  (sub_of hr ha hb ((abs_sub _ _).trans ((add_le_add ha.bnd hb.bnd).trans hD)) hE hm).op

theorem const {x : BitVec 32} (q : ℚ) (B : ℝ) (h : isVal x q = true) (hB : |(q : ℝ)| ≤ B) : Op (.reg x) q 0 B :=
  (Tr.const q B h hB).op

end Op

end Nova
