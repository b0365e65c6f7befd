import Verif.Float.Scale
import Verif.Lemmas.Exactly
import Verif.Props.C95_Exchange

/-! # Scaled arguments give scaled results -/

namespace Nova
open FP Spec

variable {w : Nat} {F : Fmt w}

/-! ## Finite results have finite arguments -/

theorem not_fin_of_inf {x : BitVec w} (h : F.isInf x = true) : ¬ IsFin F x := fun hf => by
  rw [F.isFinite_not_inf hf] at h; exact absurd h (by decide)

theorem not_fin_of_nan {x : BitVec w} (h : F.isNaN x = true) : ¬ IsFin F x := fun hf => by
  rw [F.isFinite_not_nan hf] at h; exact absurd h (by decide)

theorem pack_inf_not_fin (s : Bool) : ¬ IsFin F (F.pack s F.infCode) := by
  unfold IsFin Fmt.isFinite
  rw [F.code_pack s F.infCode_lt]
  simp

theorem defaultNaN_not_fin : ¬ IsFin F F.defaultNaN := not_fin_of_nan F.isNaN_defaultNaN

theorem add_fin_args {x y : BitVec w} (h : IsFin F (F.add x y)) : IsFin F x ∧ IsFin F y := by
  obtain ⟨nx, ny⟩ := add_num (F.isFinite_not_nan h)
  have e := h
  unfold Fmt.add at e
  rw [show F.isNaN x = false from nx, show F.isNaN y = false from ny, Bool.or_self, if_neg (by decide)] at e
  by_cases hx : F.isInf x = true
  · rw [if_pos hx] at e
    split at e
    · exact absurd e defaultNaN_not_fin
    · exact absurd e (not_fin_of_inf hx)
  · rw [if_neg hx] at e
    by_cases hy : F.isInf y = true
    · rw [if_pos hy] at e; exact absurd e (not_fin_of_inf hy)
    · exact ⟨F.finite_of nx (by simpa using hx), F.finite_of ny (by simpa using hy)⟩

theorem mul_fin_args {x y : BitVec w} (h : IsFin F (F.mul x y)) : IsFin F x ∧ IsFin F y := by
  obtain ⟨nx, ny⟩ := Fmt.mul_num (F.isFinite_not_nan h)
  have e := h
  unfold Fmt.mul at e
  dsimp only at e
  rw [nx, ny, Bool.or_self, if_neg (by decide)] at e
  by_cases hc : (F.isInf x || F.isInf y) = true
  · rw [if_pos hc] at e
    split at e
    · exact absurd e defaultNaN_not_fin
    · exact absurd e (pack_inf_not_fin _)
  · rw [Bool.not_eq_true, Bool.or_eq_false_iff] at hc
    exact ⟨F.finite_of nx hc.1, F.finite_of ny hc.2⟩

theorem fma_fin_args {x y z : BitVec w} (h : IsFin F (F.fma x y z)) (hz : Num F z) : IsFin F x ∧ IsFin F y := by
  obtain ⟨nx, ny, -⟩ := Fmt.fma_rndE (F.isFinite_not_nan h)
  have e := h
  unfold Fmt.fma at e
  dsimp only at e
  rw [nx, ny, Bool.or_self, if_neg (by decide), show F.isNaN z = false from hz, if_neg (by decide)] at e
  by_cases hc : (F.isInf x || F.isInf y) = true
  · rw [if_pos hc] at e
    split at e
    · exact absurd e defaultNaN_not_fin
    · split at e
      · exact absurd e defaultNaN_not_fin
      · exact absurd e (pack_inf_not_fin _)
  · rw [Bool.not_eq_true, Bool.or_eq_false_iff] at hc
    exact ⟨F.finite_of nx hc.1, F.finite_of ny hc.2⟩

theorem div_fin_nonzero {x y : BitVec w} (hx : IsFin F x) (hy : IsFin F y) (h : IsFin F (F.div x y)) : F.code y ≠ 0 := by
  intro h0
  have e := h
  unfold Fmt.div at e
  dsimp only at e
  rw [F.isFinite_not_nan hx, F.isFinite_not_nan hy, F.isFinite_not_inf hx, F.isFinite_not_inf hy, Bool.or_self,
    if_neg (by decide), if_neg (by decide), if_neg (by decide), if_pos (show F.isZero y = true by simp [Fmt.isZero, h0])] at e
  split at e
  · exact absurd e defaultNaN_not_fin
  · exact absurd e (pack_inf_not_fin _)

/-! ## Single operations -/

theorem posZero_real : F.toReal F.posZero = 0 := by
  have h := F.toEReal_posZero
  rw [F.toEReal_of_finite F.isFinite_posZero] at h
  exact_mod_cast h

theorem isRnd_value {v : ℝ} {r r' : BitVec w} (h : F.IsRnd v r) (h' : F.IsRnd v r') : F.toReal r = F.toReal r' := by
  have k : F.key r = F.key r' := le_antisymm (h.mono h' le_rfl) (h'.mono h le_rfl)
  have : F.units r = F.units r' := by rw [Fmt.units_key, Fmt.units_key, k]
  unfold Fmt.toReal; rw [this]

theorem Spec.NotTiny.regular {v : ℝ} (h : NotTiny F v) : F.Regular v := by
  rcases h with rfl | h
  · exact .inr ⟨0, by simp⟩
  · refine .inl ?_
    unfold smallestNormal at h
    rwa [div_le_iff₀ (by positivity)] at h

theorem regular_sum (x y : BitVec w) : F.Regular (F.toReal x + F.toReal y) :=
  .inr ⟨F.units x + F.units y, by push_cast; rw [Fmt.units_real, Fmt.units_real]; ring⟩

theorem Spec.ScaledBy.of_rnd {k : ℤ} {v v' : ℝ} {r r' : BitVec w} (h : F.IsRnd v r) (h' : F.IsRnd v' r') (e : v' = v * 2 ^ k)
    (c : F.Regular v) (c' : F.Regular v') (f : IsFin F r) (f' : IsFin F r') : ScaledBy F k r r' := by
  subst e
  exact ⟨f, f', h.scale k h' f f' c c'⟩

theorem scaled_add {k : ℤ} {x x' y y' : BitVec w} (hx : ScaledBy F k x x') (hy : ScaledBy F k y y')
    (f : IsFin F (F.add x y)) (f' : IsFin F (F.add x' y')) : ScaledBy F k (F.add x y) (F.add x' y') :=
  .of_rnd (Fmt.add_rounds hx.1 hy.1) (Fmt.add_rounds hx.2.1 hy.2.1) (by rw [hx.2.2, hy.2.2]; ring)
    (regular_sum x y) (regular_sum x' y') f f'

theorem Spec.ScaledBy.negate {k : ℤ} {x x' : BitVec w} (hx : ScaledBy F k x x') : ScaledBy F k (F.negate x) (F.negate x') :=
  ⟨by rw [F.isFinite_negate]; exact hx.1, by rw [F.isFinite_negate]; exact hx.2.1, by
    rw [F.toReal_negate, F.toReal_negate, hx.2.2]; ring⟩

theorem scaled_sub {k : ℤ} {x x' y y' : BitVec w} (hx : ScaledBy F k x x') (hy : ScaledBy F k y y')
    (f : IsFin F (F.sub x y)) (f' : IsFin F (F.sub x' y')) : ScaledBy F k (F.sub x y) (F.sub x' y') := by
  rw [F.sub_num (F.isFinite_not_nan hx.1) (F.isFinite_not_nan hy.1)] at f ⊢
  rw [F.sub_num (F.isFinite_not_nan hx.2.1) (F.isFinite_not_nan hy.2.1)] at f' ⊢
  exact scaled_add hx hy.negate f f'

theorem scaled_div {j k : ℤ} {x x' y y' : BitVec w} (hx : ScaledBy F j x x') (hy : ScaledBy F k y y')
    (c : NotTiny F (F.toReal x / F.toReal y)) (c' : NotTiny F (F.toReal x' / F.toReal y'))
    (f : IsFin F (F.div x y)) (f' : IsFin F (F.div x' y')) : ScaledBy F (j - k) (F.div x y) (F.div x' y') :=
  .of_rnd (Fmt.div_rounds hx.1 hy.1 (div_fin_nonzero hx.1 hy.1 f)) (Fmt.div_rounds hx.2.1 hy.2.1 (div_fin_nonzero hx.2.1 hy.2.1 f'))
    (by rw [hx.2.2, hy.2.2, zpow_sub₀ (by norm_num)]; field_simp) c.regular c'.regular f f'

theorem Spec.ScaledBy.fin {k : ℤ} {x x' : BitVec w} (h : ScaledBy F k x x') : Num F x ∧ Num F x' :=
  ⟨F.isFinite_not_nan h.1, F.isFinite_not_nan h.2.1⟩

theorem scaled_max {f : BitVec w → BitVec w → BitVec w} (M : IsMax F f) {k : ℤ} {x x' y y' : BitVec w} (hx : ScaledBy F k x x')
    (hy : ScaledBy F k y y') : ScaledBy F k (f x y) (f x' y') := by
  have fin : ∀ {x y : BitVec w}, IsFin F x → IsFin F y → IsFin F (f x y) ∧ F.toReal (f x y) = max (F.toReal x) (F.toReal y) := by
    intro x y hx hy
    have nx := F.isFinite_not_nan hx
    have ny := F.isFinite_not_nan hy
    have h : IsFin F (f x y) := by rcases M.mem x y nx ny with e | e <;> rw [e] <;> assumption
    refine ⟨h, ?_⟩
    have := M.val x y nx ny
    rw [F.toEReal_of_finite hx, F.toEReal_of_finite hy, F.toEReal_of_finite h, ← coe_max'] at this
    exact_mod_cast this
  refine ⟨(fin hx.1 hy.1).1, (fin hx.2.1 hy.2.1).1, ?_⟩
  rw [(fin hx.1 hy.1).2, (fin hx.2.1 hy.2.1).2, hx.2.2, hy.2.2, max_mul_of_nonneg _ _ (by positivity)]

theorem scaled_min {f : BitVec w → BitVec w → BitVec w} (M : IsMin F f) {k : ℤ} {x x' y y' : BitVec w} (hx : ScaledBy F k x x')
    (hy : ScaledBy F k y y') : ScaledBy F k (f x y) (f x' y') := by
  have fin : ∀ {x y : BitVec w}, IsFin F x → IsFin F y → IsFin F (f x y) ∧ F.toReal (f x y) = min (F.toReal x) (F.toReal y) := by
    intro x y hx hy
    have nx := F.isFinite_not_nan hx
    have ny := F.isFinite_not_nan hy
    have h : IsFin F (f x y) := by rcases M.mem x y nx ny with e | e <;> rw [e] <;> assumption
    refine ⟨h, ?_⟩
    have := M.val x y nx ny
    rw [F.toEReal_of_finite hx, F.toEReal_of_finite hy, F.toEReal_of_finite h, ← coe_min'] at this
    exact_mod_cast this
  refine ⟨(fin hx.1 hy.1).1, (fin hx.2.1 hy.2.1).1, ?_⟩
  rw [(fin hx.1 hy.1).2, (fin hx.2.1 hy.2.1).2, hx.2.2, hy.2.2, min_mul_of_nonneg _ _ (by positivity)]

/-! ## The functions of a vector class -/

/-- The operations of a class, as far as they are needed here. -/
structure ScaleOps (F : Fmt w) (A : Arith (BitVec w)) : Prop where
  add : A.add = F.add
  sub : A.sub = F.sub
  mul : ∀ x y, IsFin F x → IsFin F y → F.IsRnd (F.toReal x * F.toReal y) (A.mul x y)
  mul_fin : ∀ x y, IsFin F (A.mul x y) → IsFin F x ∧ IsFin F y
  madd : (∀ x y z, A.madd x y z = F.add (F.mul x y) z) ∨ (∀ x y z, A.madd x y z = F.add z (F.mul y x)) ∨
    (∀ x y z, A.madd x y z = F.fma x y z)
  one : A.one = F.ofInt 1
  zero : A.zero = F.posZero
  max : IsMax F A.max_
  min : IsMin F A.min_
  square : ∀ x, A.square x = A.mul x x
  cube : ∀ x, A.cube x = A.mul x (A.mul x x) ∨ A.cube x = A.mul (A.mul x x) x

variable {A : Arith (BitVec w)}

theorem ScaleOps.mul_scaled (O : ScaleOps F A) {j k : ℤ} {x x' y y' : BitVec w} (hx : ScaledBy F j x x') (hy : ScaledBy F k y y')
    (c : NotTiny F (F.toReal x * F.toReal y)) (c' : NotTiny F (F.toReal x' * F.toReal y'))
    (f : IsFin F (A.mul x y)) (f' : IsFin F (A.mul x' y')) : ScaledBy F (j + k) (A.mul x y) (A.mul x' y') :=
  .of_rnd (O.mul x y hx.1 hy.1) (O.mul x' y' hx.2.1 hy.2.1)
    (by rw [hx.2.2, hy.2.2, zpow_add₀ (by norm_num)]; ring) c.regular c'.regular f f'

/-- Fused or not. -/
theorem ScaleOps.madd_scaled (O : ScaleOps F A) {i j : ℤ} {x x' y y' z z' : BitVec w} (hx : ScaledBy F i x x')
    (hy : ScaledBy F j y y') (hz : ScaledBy F (i + j) z z')
    (c : NotTiny F (F.toReal x * F.toReal y)) (c' : NotTiny F (F.toReal x' * F.toReal y'))
    (d : NotTiny F (F.toReal x * F.toReal y + F.toReal z)) (d' : NotTiny F (F.toReal x' * F.toReal y' + F.toReal z'))
    (f : IsFin F (A.madd x y z)) (f' : IsFin F (A.madd x' y' z')) : ScaledBy F (i + j) (A.madd x y z) (A.madd x' y' z') := by
  have ev : F.toReal x' * F.toReal y' = F.toReal x * F.toReal y * 2 ^ (i + j) := by
    rw [hx.2.2, hy.2.2, zpow_add₀ (by norm_num)]; ring
  rcases O.madd with e | e | e
  · simp only [e] at f f' ⊢
    have a := (add_fin_args f).1
    have a' := (add_fin_args f').1
    exact scaled_add (.of_rnd (Fmt.mul_rounds hx.1 hy.1) (Fmt.mul_rounds hx.2.1 hy.2.1) ev c.regular c'.regular a a') hz f f'
  · simp only [e] at f f' ⊢
    have a := (add_fin_args f).2
    have a' := (add_fin_args f').2
    refine scaled_add hz (.of_rnd (v := F.toReal x * F.toReal y) (v' := F.toReal x' * F.toReal y') ?_ ?_ ev c.regular c'.regular a a') f f'
    · rw [mul_comm]; exact Fmt.mul_rounds hy.1 hx.1
    · rw [mul_comm]; exact Fmt.mul_rounds hy.2.1 hx.2.1
  · simp only [e] at f f' ⊢
    exact .of_rnd (Fmt.fma_rounds hx.1 hy.1 hz.1) (Fmt.fma_rounds hx.2.1 hy.2.1 hz.2.1) (by rw [ev, hz.2.2]; ring)
      d.regular d'.regular f f'

theorem ScaleOps.square_scaled (O : ScaleOps F A) {j : ℤ} {x x' : BitVec w} (hx : ScaledBy F j x x')
    (c : UnAbove F .square x) (c' : UnAbove F .square x') (f : IsFin F (A.square x)) (f' : IsFin F (A.square x')) :
    ScaledBy F (2 * j) (A.square x) (A.square x') := by
  simp only [O.square] at f f' ⊢
  rw [two_mul]
  exact O.mul_scaled hx hx c c' f f'

theorem ScaleOps.mul_value (O : ScaleOps F A) {x y : BitVec w} (hx : IsFin F x) (hy : IsFin F y) :
    F.toReal (A.mul x y) = F.toReal (F.mul x y) := isRnd_value (O.mul x y hx hy) (Fmt.mul_rounds hx hy)

theorem ScaleOps.cube_scaled (O : ScaleOps F A) {j : ℤ} {x x' : BitVec w} (hx : ScaledBy F j x x')
    (c : UnAbove F .cube x) (c' : UnAbove F .cube x') (f : IsFin F (A.cube x)) (f' : IsFin F (A.cube x')) :
    ScaledBy F (3 * j) (A.cube x) (A.cube x') := by
  have main : ∀ {y : BitVec w}, IsFin F y → UnAbove F .cube y → IsFin F (A.cube y) → IsFin F (A.mul y y) ∧
      F.IsRnd (F.toReal (A.mul y y) * F.toReal y) (A.cube y) ∧ F.Regular (F.toReal (A.mul y y) * F.toReal y) := by
    intro y hy c f
    have r : NotTiny F (F.toReal (A.mul y y) * F.toReal y) := by rw [O.mul_value hy hy]; exact c.2
    rcases O.cube y with e | e
    · rw [e] at f ⊢
      have a := (O.mul_fin _ _ f).2
      exact ⟨a, by rw [mul_comm]; exact O.mul _ _ hy a, r.regular⟩
    · rw [e] at f ⊢
      have a := (O.mul_fin _ _ f).1
      exact ⟨a, O.mul _ _ a hy, r.regular⟩
  obtain ⟨a, b, d⟩ := main hx.1 c f
  obtain ⟨a', b', d'⟩ := main hx.2.1 c' f'
  have s := O.mul_scaled hx hx c.1 c'.1 a a'
  refine .of_rnd b b' ?_ d d' f f'
  rw [s.2.2, hx.2.2, show 3 * j = j + j + j by ring, zpow_add₀ (by norm_num) (j + j)]
  ring

/-- Comparisons of scaled numbers. -/
theorem scaled_ereal {k : ℤ} {x x' y y' : BitVec w} (hx : ScaledBy F k x x') (hy : ScaledBy F k y y') :
    (F.toEReal x < F.toEReal y ↔ F.toEReal x' < F.toEReal y') ∧ (F.toEReal x = F.toEReal y ↔ F.toEReal x' = F.toEReal y') := by
  rw [F.toEReal_of_finite hx.1, F.toEReal_of_finite hy.1, F.toEReal_of_finite hx.2.1, F.toEReal_of_finite hy.2.1,
    EReal.coe_lt_coe_iff, EReal.coe_lt_coe_iff, EReal.coe_eq_coe_iff, EReal.coe_eq_coe_iff, hx.2.2, hy.2.2]
  have h : (0 : ℝ) < 2 ^ k := by positivity
  exact ⟨(mul_lt_mul_iff_left₀ h).symm, (mul_left_inj' h.ne').symm⟩

theorem Spec.ScaledBy.zero_same {x : BitVec w} (h : IsFin F x) : ScaledBy F 0 x x := ⟨h, h, by simp⟩

/-- The clipping limits of `clip2`. -/
theorem ScaleOps.clip2_scaled (O : ScaleOps F A) {k : ℤ} {x x' y y' : BitVec w} (hx : ScaledBy F k x x') (hy : ScaledBy F k y y') :
    ScaledBy F k (Functor.clip2 A x y) (Functor.clip2 A x' y') := by
  unfold Functor.clip2
  dsimp only
  have key : ∀ {y : BitVec w}, IsFin F y → IsFin F (F.sub F.posZero y) ∧ F.toReal (F.sub F.posZero y) = -F.toReal y := by
    intro y hy
    have fz : IsFin F F.posZero := by unfold IsFin; exact F.isFinite_posZero
    have e := F.sub_num (F.isFinite_not_nan fz) (F.isFinite_not_nan hy)
    have fn : IsFin F (F.negate y) := by unfold IsFin; rw [F.isFinite_negate]; exact hy
    have r := Fmt.add_rounds (F := F) fz fn
    rw [posZero_real, _root_.zero_add] at r
    have s := Fmt.IsRnd.self fn
    have hk : F.key (F.add F.posZero (F.negate y)) = F.key (F.negate y) := le_antisymm (r.mono s le_rfl) (s.mono r le_rfl)
    rw [e]
    refine ⟨?_, by rw [isRnd_value r s, F.toReal_negate]⟩
    have : F.code (F.add F.posZero (F.negate y)) = F.code (F.negate y) := by
      rw [← Fmt.key_natAbs, ← Fmt.key_natAbs, hk]
    unfold IsFin Fmt.isFinite at fn ⊢
    rw [this]; exact fn
  rw [O.sub, O.zero]
  refine scaled_max O.max ⟨(key hy.1).1, (key hy.2.1).1, ?_⟩ (scaled_min O.min hx hy)
  rw [(key hy.1).2, (key hy.2.1).2, hy.2.2]; ring

/-- A function of two arguments that is not a comparison. -/
theorem ScaleOps.binary (O : ScaleOps F A) (op : BinOp) (hd : op = .over → A.div = F.div) {j k d : ℤ} {x x' y y' : BitVec w}
    {one zero : BitVec w} (R : RelOk F A one zero) (h1 : IsFin F one) (h0 : IsFin F zero)
    (h : BinScale op j k d) (hx : ScaledBy F j x x') (hy : ScaledBy F k y y') (c : BinAbove F op x y) (c' : BinAbove F op x' y')
    (f : IsFin F (op.f A x y)) (f' : IsFin F (op.f A x' y')) : ScaledBy F d (op.f A x y) (op.f A x' y') := by
  have cmp : ∀ r : Rel, j = k → (r.Holds F x y ↔ r.Holds F x' y') → ScaledBy F 0 (r.op.f A x y) (r.op.f A x' y') := by
    intro r _ hr
    by_cases hh : r.Holds F x y
    · rw [(R r x y hx.fin.1 hy.fin.1).1 hh, (R r x' y' hx.fin.2 hy.fin.2).1 (hr.mp hh)]; exact .zero_same h1
    · rw [(R r x y hx.fin.1 hy.fin.1).2 hh, (R r x' y' hx.fin.2 hy.fin.2).2 fun q => hh (hr.mpr q)]; exact .zero_same h0
  have lift : ∀ {p q : Prop}, (p ↔ q) → (Num F x ∧ Num F y ∧ p ↔ Num F x' ∧ Num F y' ∧ q) := fun h =>
    ⟨fun a => ⟨hx.fin.2, hy.fin.2, h.mp a.2.2⟩, fun a => ⟨hx.fin.1, hy.fin.1, h.mpr a.2.2⟩⟩
  cases op with
  | plus =>
    obtain ⟨rfl, rfl⟩ := h
    simp only [BinOp.f, O.add] at f f' ⊢
    exact scaled_add hx hy f f'
  | minus =>
    obtain ⟨rfl, rfl⟩ := h
    simp only [BinOp.f, O.sub] at f f' ⊢
    exact scaled_sub hx hy f f'
  | sum =>
    obtain ⟨rfl, rfl⟩ := h
    simp only [BinOp.f, O.add] at f f' ⊢
    exact scaled_add hx hy f f'
  | times => rw [show d = j + k from h]; exact O.mul_scaled hx hy c c' f f'
  | over =>
    rw [show d = j - k from h]
    simp only [BinOp.f, hd rfl] at f f' ⊢
    exact scaled_div hx hy c c' f f'
  | min => obtain ⟨rfl, rfl⟩ := h; exact scaled_min O.min hx hy
  | max => obtain ⟨rfl, rfl⟩ := h; exact scaled_max O.max hx hy
  | clip2 => obtain ⟨rfl, rfl⟩ := h; exact O.clip2_scaled hx hy
  | less => obtain ⟨rfl, rfl⟩ := h; exact cmp .less rfl (lift (scaled_ereal hx hy).1)
  | lessEqual =>
    obtain ⟨rfl, rfl⟩ := h
    exact cmp .lessEqual rfl (lift (by rw [← not_lt, ← not_lt, (scaled_ereal hy hx).1]))
  | greater => obtain ⟨rfl, rfl⟩ := h; exact cmp .greater rfl (lift (scaled_ereal hy hx).1)
  | greaterEqual =>
    obtain ⟨rfl, rfl⟩ := h
    exact cmp .greaterEqual rfl (lift (by rw [ge_iff_le, ge_iff_le, ← not_lt, ← not_lt, (scaled_ereal hx hy).1]))
  | equal => obtain ⟨rfl, rfl⟩ := h; exact cmp .equal rfl (lift (scaled_ereal hx hy).2)
  | notequal => obtain ⟨rfl, rfl⟩ := h; exact cmp .notEqual rfl (not_congr (lift (scaled_ereal hx hy).2))
  | pow => exact h.elim
  | spow => exact h.elim

theorem ScaleOps.ternary (O : ScaleOps F A) (h1 : IsFin F (F.ofInt 1)) (op : TerOp) {i j k d : ℤ} {x x' y y' z z' : BitVec w}
    (h : TerScale op i j k d) (hx : ScaledBy F i x x') (hy : ScaledBy F j y y') (hz : ScaledBy F k z z')
    (c : TerAbove F op x y z) (c' : TerAbove F op x' y' z')
    (f : IsFin F (op.f A x y z)) (f' : IsFin F (op.f A x' y' z')) : ScaledBy F d (op.f A x y z) (op.f A x' y' z') := by
  cases op with
  | muladd =>
    obtain ⟨rfl, rfl⟩ := h
    exact O.madd_scaled hx hy hz c.1 c'.1 c.2 c'.2 f f'
  | sum =>
    obtain ⟨rfl, rfl, rfl⟩ := h
    simp only [TerOp.f, Functor.sum3, O.add] at f f' ⊢
    exact scaled_add (scaled_add hx hy (add_fin_args f).1 (add_fin_args f').1) hz f f'
  | clip =>
    obtain ⟨rfl, rfl, rfl⟩ := h
    exact scaled_max O.max (scaled_min O.min hx hz) hy
  | ampmod =>
    obtain ⟨rfl, rfl⟩ := h
    simp only [TerOp.f, Functor.ampmod, O.add, O.one] at f f' ⊢
    have a := (O.mul_fin _ _ f).2
    have a' := (O.mul_fin _ _ f').2
    have m := (add_fin_args a).2
    have m' := (add_fin_args a').2
    have ev : F.toReal y' * F.toReal z' = F.toReal y * F.toReal z := by
      rw [hy.2.2, hz.2.2, zpow_neg]
      have : (2 : ℝ) ^ j ≠ 0 := by positivity
      field_simp
    have em : F.toReal (A.mul y' z') = F.toReal (A.mul y z) :=
      isRnd_value (by rw [← ev]; exact O.mul y' z' hy.2.1 hz.2.1) (O.mul y z hy.1 hz.1)
    have s : ScaledBy F 0 (F.add (F.ofInt 1) (A.mul y z)) (F.add (F.ofInt 1) (A.mul y' z')) :=
      scaled_add (.zero_same h1) ⟨m, m', by rw [em]; simp⟩ a a'
    have val : ∀ {y z : BitVec w}, IsFin F y → IsFin F z → IsFin F (A.mul y z) →
        F.toReal (F.add (F.ofInt 1) (A.mul y z)) = F.toReal (F.add (F.ofInt 1) (F.mul y z)) := by
      intro y z hy hz m
      have fm : IsFin F (F.mul y z) := by
        have hk : F.key (A.mul y z) = F.key (F.mul y z) :=
          le_antisymm ((O.mul y z hy hz).mono (Fmt.mul_rounds hy hz) le_rfl) ((Fmt.mul_rounds hy hz).mono (O.mul y z hy hz) le_rfl)
        unfold IsFin Fmt.isFinite at m ⊢
        rw [← Fmt.key_natAbs] at m ⊢
        rw [← hk]; exact m
      have r := Fmt.add_rounds (F := F) h1 m
      rw [O.mul_value hy hz] at r
      exact isRnd_value r (Fmt.add_rounds h1 fm)
    have := O.mul_scaled hx s (by rw [val hy.1 hz.1 m]; exact c) (by rw [val hy.2.1 hz.2.1 m']; exact c') f f'
    rwa [_root_.add_zero] at this

theorem ScaleOps.quad (O : ScaleOps F A) (op : QuadOp) {i j k l d : ℤ} {x x' y y' z z' u u' : BitVec w}
    (h : QuadScale op i j k l d) (hx : ScaledBy F i x x') (hy : ScaledBy F j y y') (hz : ScaledBy F k z z') (hu : ScaledBy F l u u')
    (c : QuadAbove F op x y z u) (c' : QuadAbove F op x' y' z' u')
    (f : IsFin F (op.f A x y z u)) (f' : IsFin F (op.f A x' y' z' u')) : ScaledBy F d (op.f A x y z u) (op.f A x' y' z' u') := by
  cases op with
  | mix =>
    obtain ⟨rfl, h⟩ := h
    simp only [QuadOp.f, Functor.mix2, O.add] at f f' ⊢
    refine scaled_add (O.mul_scaled hx hy c.1 c'.1 (add_fin_args f).1 (add_fin_args f').1) ?_ f f'
    rw [← h]
    exact O.mul_scaled hz hu c.2 c'.2 (add_fin_args f).2 (add_fin_args f').2
  | sum =>
    obtain ⟨rfl, rfl, rfl, rfl⟩ := h
    simp only [QuadOp.f, Functor.sum4, O.add] at f f' ⊢
    exact scaled_add (scaled_add hx hy (add_fin_args f).1 (add_fin_args f').1)
      (scaled_add hz hu (add_fin_args f).2 (add_fin_args f').2) f f'

/-! ## The classes -/

theorem fused_form (f : Bool) {m : BitVec w → BitVec w → BitVec w → BitVec w}
    (h : ∀ x y z, m x y z = if f then F.fma x y z else F.add (F.mul x y) z) :
    (∀ x y z, m x y z = F.add (F.mul x y) z) ∨ (∀ x y z, m x y z = F.add z (F.mul y x)) ∨ (∀ x y z, m x y z = F.fma x y z) := by
  cases f
  · exact .inl fun x y z => by rw [h]; rfl
  · exact .inr (.inr fun x y z => by rw [h]; rfl)

theorem lane_scaleOps32 (b : Build32) (P : Platform 32) : ScaleOps binary32 (b.lane P) where
  add := lane_add32 b P
  sub := lane_sub32' b P
  mul x y hx hy := by
    by_cases hb : multiplies b = true
    · rw [lane_mul32' b hb]; exact Fmt.mul_rounds hx hy
    · cases b <;> first | exact absurd rfl hb | skip
      rw [altivec_mul]
      have := Fmt.fma_rounds (F := binary32) hx hy binary32.isFinite_posZero
      rwa [posZero_real, add_zero] at this
  mul_fin x y h := by
    by_cases hb : multiplies b = true
    · rw [lane_mul32' b hb] at h; exact mul_fin_args h
    · cases b <;> first | exact absurd rfl hb | skip
      rw [altivec_mul] at h
      exact fma_fin_args h binary32.isNaN_posZero
  madd := by
    cases b with
    | generic => exact .inl fun _ _ _ => rfl
    | sse s f => exact fused_form f.fma fun _ _ _ => rfl
    | avx f => exact fused_form f fun _ _ _ => rfl
    | neon => exact .inr (.inl fun _ _ _ => rfl)
    | altivec => exact .inr (.inr fun _ _ _ => rfl)
  one := (lane_orderOps32 b P).one
  zero := (lane_orderOps32 b P).zero
  max := isMax_lane32 b P
  min := isMin_lane32 b P
  square := (lane_orderOps32 b P).square
  cube := (lane_orderOps32 b P).cube

theorem lane_scaleOps64 (b : Build64) (P : Platform 64) : ScaleOps binary64 (b.lane P) where
  add := (lane_orderOps64 b P).add
  sub := (lane_orderOps64 b P).sub
  mul x y hx hy := by rw [(lane_math64 b P).mul]; exact Fmt.mul_rounds (F := binary64) hx hy
  mul_fin x y h := by rw [(lane_math64 b P).mul] at h; exact mul_fin_args (F := binary64) h
  madd := by
    cases b with
    | generic => exact .inl fun _ _ _ => rfl
    | sse2 s f => exact fused_form f fun _ _ _ => rfl
    | avx f => exact fused_form f fun _ _ _ => rfl
  one := (lane_orderOps64 b P).one
  zero := (lane_orderOps64 b P).zero
  max := isMax_lane64 b P
  min := isMin_lane64 b P
  square := (lane_orderOps64 b P).square
  cube := (lane_orderOps64 b P).cube

end Nova
