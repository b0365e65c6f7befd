import Verif.SpecOrder
import Verif.Float.Mono
import Verif.Float.Sqrt
import Verif.Lemmas.PolarityLanes
import Mathlib.Data.EReal.Inv

/-! # Rounded operations preserve the order, also of infinite numbers -/

namespace Nova
open FP Spec

namespace FP.Fmt
variable {w : Nat} {F : Fmt w}

theorem num_cases {x : BitVec w} (hx : F.isNaN x = false) :
    (F.isInf x = true ∧ F.neg x = true ∧ F.toEReal x = ⊥) ∨ (F.isInf x = true ∧ F.neg x = false ∧ F.toEReal x = ⊤) ∨
    (F.isFinite x = true ∧ F.isInf x = false ∧ F.toEReal x = (F.toReal x : EReal)) := by
  by_cases hi : F.isInf x = true
  · cases hn : F.neg x
    · exact .inr (.inl ⟨hi, rfl, by unfold toEReal; rw [hi, hn]; rfl⟩)
    · exact .inl ⟨hi, rfl, by unfold toEReal; rw [hi, hn]; rfl⟩
  · rw [Bool.not_eq_true] at hi
    have hf : F.isFinite x = true := by
      simp only [isNaN, isInf, isFinite, decide_eq_false_iff_not, decide_eq_true_eq] at *
      omega
    exact .inr (.inr ⟨hf, hi, F.toEReal_of_finite hf⟩)

theorem toEReal_pos_of {x : BitVec w} (hx : F.isNaN x = false) (hn : F.neg x = false) (h0 : F.isZero x = false) :
    0 < F.toEReal x := by
  rw [← F.key_pos_iff hx, F.key_nonneg hn]
  have : F.code x ≠ 0 := by simpa [isZero] using h0
  omega

theorem toEReal_neg_of {x : BitVec w} (hx : F.isNaN x = false) (hn : F.neg x = true) (h0 : F.isZero x = false) :
    F.toEReal x < 0 := by
  rw [← F.key_neg_iff hx]
  have : F.code x ≠ 0 := by simpa [isZero] using h0
  unfold key; rw [hn, if_pos rfl]; omega

theorem isZero_of_isInf {x : BitVec w} (h : F.isInf x = true) : F.isZero x = false := by
  have := F.infCode_pos
  simp only [isInf, isZero, decide_eq_true_eq, decide_eq_false_iff_not] at *
  omega

/-- The number `r` is the extended real number `e`, rounded. -/
def IsRndE (F : Fmt w) (e : EReal) (r : BitVec w) : Prop :=
  F.isNaN r = false ∧ ((e = ⊤ ∧ F.key r = F.infCode) ∨ (e = ⊥ ∧ F.key r = -F.infCode) ∨ ∃ v : ℝ, e = v ∧ F.IsRnd v r)

theorem key_bounds {r : BitVec w} (h : F.isNaN r = false) : -(F.infCode : ℤ) ≤ F.key r ∧ F.key r ≤ F.infCode := by
  simp only [isNaN, decide_eq_false_iff_not, not_lt] at h
  unfold key; split <;> omega

theorem IsRndE.mono {e e' : EReal} {r r' : BitVec w} (h : F.IsRndE e r) (h' : F.IsRndE e' r') (he : e ≤ e') :
    F.toEReal r ≤ F.toEReal r' := by
  rw [← F.key_le_iff_value h.1 h'.1]
  have b := key_bounds h.1
  have b' := key_bounds h'.1
  obtain ⟨-, h⟩ := h
  obtain ⟨-, h'⟩ := h'
  rcases h with ⟨rfl, k⟩ | ⟨rfl, k⟩ | ⟨v, rfl, k⟩
  · rcases h' with ⟨rfl, k'⟩ | ⟨rfl, k'⟩ | ⟨v', rfl, k'⟩
    · omega
    · exact absurd he (by simp)
    · exact absurd he (by simp)
  · omega
  · rcases h' with ⟨rfl, k'⟩ | ⟨rfl, k'⟩ | ⟨v', rfl, k'⟩
    · omega
    · exact absurd he (by simp)
    · exact IsRnd.mono k k' (by exact_mod_cast he)

theorem IsRndE.top {r : BitVec w} (h : F.isInf r = true) (hn : F.neg r = false) : F.IsRndE ⊤ r := by
  have hc : F.code r = F.infCode := by simpa [isInf] using h
  exact ⟨by simp [isNaN, hc], .inl ⟨rfl, by rw [F.key_nonneg hn, hc]⟩⟩

theorem IsRndE.bot {r : BitVec w} (h : F.isInf r = true) (hn : F.neg r = true) : F.IsRndE ⊥ r := by
  have hc : F.code r = F.infCode := by simpa [isInf] using h
  exact ⟨by simp [isNaN, hc], .inr (.inl ⟨rfl, by unfold key; rw [hn, hc]; rfl⟩)⟩

theorem IsRnd.ereal {v : ℝ} {r : BitVec w} (h : F.IsRnd v r) : F.IsRndE v r := ⟨h.1, .inr (.inr ⟨v, rfl, h⟩)⟩

/-- A representable number is not changed. -/
theorem IsRndE.self {x : BitVec w} (hx : F.isNaN x = false) : F.IsRndE (F.toEReal x) x := by
  rcases num_cases hx with ⟨h1, h2, h3⟩ | ⟨h1, h2, h3⟩ | ⟨h1, -, h3⟩ <;> rw [h3]
  · exact .bot h1 h2
  · exact .top h1 h2
  · exact (IsRnd.self h1).ereal

theorem IsRndE.zero (s : Bool) : F.IsRndE 0 (F.pack s 0) := (IsRnd.zero s).ereal

theorem isInf_pack_inf (s : Bool) : F.isInf (F.pack s F.infCode) = true ∧ F.neg (F.pack s F.infCode) = s := by
  refine ⟨?_, F.neg_pack _ F.infCode_lt⟩
  unfold isInf; rw [F.code_pack _ F.infCode_lt]; simp

theorem IsRndE.inf (s : Bool) : F.IsRndE (if s then ⊥ else ⊤) (F.pack s F.infCode) := by
  obtain ⟨h1, h2⟩ := isInf_pack_inf (F := F) s
  cases s
  · exact .top h1 h2
  · exact .bot h1 h2

theorem add_rndE {x y : BitVec w} (h : F.isNaN (F.add x y) = false) : F.IsRndE (F.toEReal x + F.toEReal y) (F.add x y) := by
  have hx : F.isNaN x = false := by
    by_contra hc; rw [Bool.not_eq_false] at hc
    rw [Opposite.nan_add_l y hc] at h; exact absurd h (by decide)
  have hy : F.isNaN y = false := by
    by_contra hc; rw [Bool.not_eq_false] at hc
    rw [Opposite.nan_add_r x hc] at h; exact absurd h (by decide)
  rcases num_cases hx with ⟨i, n, v⟩ | ⟨i, n, v⟩ | ⟨f, i, v⟩ <;> rcases num_cases hy with ⟨i', n', v'⟩ | ⟨i', n', v'⟩ | ⟨f', i', v'⟩
  case inr.inr.inr.inr => rw [v, v', ← EReal.coe_add]; exact (add_rounds f f').ereal
  all_goals
    revert h
    unfold add
    rw [hx, hy, i, i', v, v']
    simp only [Bool.or_self, Bool.false_eq_true, if_false, if_true, Bool.true_and, Bool.false_and]
    first
      | (rw [n, n']; simp only [bne_self_eq_false, Bool.false_eq_true, if_false]; intro _
         first | exact .bot i n | exact .top i n)
      | (rw [n, n']; intro h; exact absurd h (by rw [if_pos (by decide)]; simp [F.isNaN_defaultNaN]))
      | (intro _; simp; first | exact .bot i n | exact .top i n | exact .bot i' n' | exact .top i' n')

theorem mul_num {x y : BitVec w} (h : F.isNaN (F.mul x y) = false) : F.isNaN x = false ∧ F.isNaN y = false := by
  by_contra hc
  have : (F.isNaN x || F.isNaN y) = true := by
    by_contra h'
    rw [Bool.not_eq_true, Bool.or_eq_false_iff] at h'
    exact hc h'
  rw [Opposite.nan_mul this] at h
  exact absurd h (by decide)

/-- The product with an infinite factor. -/
theorem inf_product {x y : BitVec w} (hx : F.isNaN x = false) (hy : F.isNaN y = false)
    (hi : F.isInf x = true ∨ F.isInf y = true) (zx : F.isZero x = false) (zy : F.isZero y = false) :
    F.toEReal x * F.toEReal y = if (F.neg x != F.neg y) then ⊥ else ⊤ := by
  have key : ∀ {x y : BitVec w}, F.isNaN x = false → F.isNaN y = false → F.isInf x = true → F.isZero y = false →
      F.toEReal x * F.toEReal y = if (F.neg x != F.neg y) then ⊥ else ⊤ := by
    intro x y hx hy hi zy
    rcases num_cases hx with ⟨-, n, v⟩ | ⟨-, n, v⟩ | ⟨-, i, -⟩
    · rw [v, n]
      cases hn : F.neg y
      · rw [EReal.bot_mul_of_pos (toEReal_pos_of hy hn zy)]; rfl
      · rw [EReal.bot_mul_of_neg (toEReal_neg_of hy hn zy)]; rfl
    · rw [v, n]
      cases hn : F.neg y
      · rw [EReal.top_mul_of_pos (toEReal_pos_of hy hn zy)]; rfl
      · rw [EReal.top_mul_of_neg (toEReal_neg_of hy hn zy)]; rfl
    · rw [hi] at i; exact absurd i (by decide)
  rcases hi with hi | hi
  · exact key hx hy hi zy
  · rw [mul_comm, key hy hx hi zx, bne_comm]

theorem mul_rndE {x y : BitVec w} (h : F.isNaN (F.mul x y) = false) : F.IsRndE (F.toEReal x * F.toEReal y) (F.mul x y) := by
  obtain ⟨hx, hy⟩ := mul_num h
  by_cases hi : (F.isInf x || F.isInf y) = true
  · by_cases hz : (F.isZero x || F.isZero y) = true
    · have : F.mul x y = F.defaultNaN := by
        unfold mul; dsimp only; rw [hx, hy, if_neg (by decide), if_pos hi, if_pos hz]
      rw [this, F.isNaN_defaultNaN] at h; exact absurd h (by decide)
    · have e : F.mul x y = F.pack (F.neg x != F.neg y) F.infCode := by
        unfold mul; dsimp only; rw [hx, hy, if_neg (by decide), if_pos hi, if_neg hz]
      rw [Bool.not_eq_true, Bool.or_eq_false_iff] at hz
      rw [e, inf_product hx hy (by simpa using hi) hz.1 hz.2]
      exact .inf _
  · rw [Bool.not_eq_true, Bool.or_eq_false_iff] at hi
    rcases num_cases hx with ⟨i, -⟩ | ⟨i, -⟩ | ⟨f, -, v⟩
    · rw [hi.1] at i; exact absurd i (by decide)
    · rw [hi.1] at i; exact absurd i (by decide)
    · rcases num_cases hy with ⟨i, -⟩ | ⟨i, -⟩ | ⟨f', -, v'⟩
      · rw [hi.2] at i; exact absurd i (by decide)
      · rw [hi.2] at i; exact absurd i (by decide)
      · rw [v, v', ← EReal.coe_mul]; exact (mul_rounds f f').ereal

/-- The fused operation. -/
theorem fma_rndE {x y z : BitVec w} (h : F.isNaN (F.fma x y z) = false) :
    F.isNaN x = false ∧ F.isNaN y = false ∧ F.IsRndE (F.toEReal x * F.toEReal y + F.toEReal z) (F.fma x y z) := by
  by_cases hn : (F.isNaN x || F.isNaN y) = true
  · have e : F.fma x y z = F.nan2 x y := by unfold fma; dsimp only; rw [if_pos hn]
    rw [e, F.isNaN_nan2 hn] at h; exact absurd h (by decide)
  by_cases hz : F.isNaN z = true
  · have e : F.fma x y z = F.quiet z := by unfold fma; dsimp only; rw [if_neg hn, if_pos hz]
    rw [e, F.isNaN_quiet hz] at h; exact absurd h (by decide)
  have hz' : F.isNaN z = false := by simpa using hz
  have hn' : F.isNaN x = false ∧ F.isNaN y = false := by simpa using hn
  refine ⟨hn'.1, hn'.2, ?_⟩
  by_cases hi : (F.isInf x || F.isInf y) = true
  · by_cases h0 : (F.isZero x || F.isZero y) = true
    · have e : F.fma x y z = F.defaultNaN := by
        unfold fma; dsimp only; rw [if_neg hn, if_neg hz, if_pos hi, if_pos h0]
      rw [e, F.isNaN_defaultNaN] at h; exact absurd h (by decide)
    · by_cases hs : (F.isInf z && (F.neg z != (F.neg x != F.neg y))) = true
      · have e : F.fma x y z = F.defaultNaN := by
          unfold fma; dsimp only; rw [if_neg hn, if_neg hz, if_pos hi, if_neg h0, if_pos hs]
        rw [e, F.isNaN_defaultNaN] at h; exact absurd h (by decide)
      · have e : F.fma x y z = F.pack (F.neg x != F.neg y) F.infCode := by
          unfold fma; dsimp only; rw [if_neg hn, if_neg hz, if_pos hi, if_neg h0, if_neg hs]
        have h0' : F.isZero x = false ∧ F.isZero y = false := by simpa using h0
        rw [e, inf_product hn'.1 hn'.2 (by simpa using hi) h0'.1 h0'.2]
        rcases num_cases hz' with ⟨i, n, v⟩ | ⟨i, n, v⟩ | ⟨f, i, v⟩
        · rw [i, n] at hs
          generalize (F.neg x != F.neg y) = s at *
          cases s
          · exact absurd rfl hs
          · rw [v]; exact .inf true
        · rw [i, n] at hs
          generalize (F.neg x != F.neg y) = s at *
          cases s
          · rw [v]; exact .inf false
          · exact absurd rfl hs
        · generalize (F.neg x != F.neg y) = s
          rw [v]
          cases s
          · exact .inf false
          · exact .inf true
  · have hi' : F.isInf x = false ∧ F.isInf y = false := by simpa using hi
    rcases num_cases hn'.1 with ⟨i, -⟩ | ⟨i, -⟩ | ⟨f, -, v⟩
    · rw [hi'.1] at i; exact absurd i (by decide)
    · rw [hi'.1] at i; exact absurd i (by decide)
    · rcases num_cases hn'.2 with ⟨i, -⟩ | ⟨i, -⟩ | ⟨f', -, v'⟩
      · rw [hi'.2] at i; exact absurd i (by decide)
      · rw [hi'.2] at i; exact absurd i (by decide)
      · rcases num_cases hz' with ⟨i, n, u⟩ | ⟨i, n, u⟩ | ⟨g, i, u⟩
        · have e : F.fma x y z = z := by
            unfold fma; dsimp only; rw [if_neg hn, if_neg hz, if_neg hi, if_pos i]
          rw [e, u, EReal.add_bot]; exact .bot i n
        · have e : F.fma x y z = z := by
            unfold fma; dsimp only; rw [if_neg hn, if_neg hz, if_neg hi, if_pos i]
          rw [e, u, v, v', ← EReal.coe_mul, EReal.coe_add_top]; exact .top i n
        · rw [v, v', u, ← EReal.coe_mul, ← EReal.coe_add]; exact (fma_rounds f f' g).ereal

/-- Division by a positive number. -/
theorem div_rndE {x y : BitVec w} (h : F.isNaN (F.div x y) = false) (hp : 0 < F.toEReal y) :
    F.isNaN x = false ∧ F.isNaN y = false ∧ F.IsRndE (F.toEReal x / F.toEReal y) (F.div x y) := by
  by_cases hn : (F.isNaN x || F.isNaN y) = true
  · rw [Opposite.nan_div hn] at h; exact absurd h (by decide)
  have hn' : F.isNaN x = false ∧ F.isNaN y = false := by simpa using hn
  refine ⟨hn'.1, hn'.2, ?_⟩
  have hk : 0 < F.key y := (F.key_pos_iff hn'.2).mpr hp
  have hc : F.code y ≠ 0 := fun h => by rw [F.key_eq_zero.mpr h] at hk; exact absurd hk (by decide)
  have hz : F.isZero y = false := by simpa [isZero] using hc
  have hs : F.neg y = false := by
    cases hb : F.neg y
    · rfl
    · unfold key at hk; rw [hb, if_pos rfl] at hk; omega
  rcases num_cases hn'.1 with ⟨i, n, v⟩ | ⟨i, n, v⟩ | ⟨f, i, v⟩
  · by_cases hi : F.isInf y = true
    · have e : F.div x y = F.defaultNaN := by unfold div; dsimp only; rw [if_neg hn, if_pos i, if_pos hi]
      rw [e, F.isNaN_defaultNaN] at h; exact absurd h (by decide)
    · have e : F.div x y = F.pack true F.infCode := by
        unfold div; dsimp only; rw [if_neg hn, if_pos i, if_neg hi, n, hs]; rfl
      rw [e, v, EReal.bot_div_of_pos_ne_top hp (by
        rcases num_cases hn'.2 with ⟨j, -⟩ | ⟨j, -⟩ | ⟨-, -, u⟩
        · exact absurd j hi
        · exact absurd j hi
        · rw [u]; exact EReal.coe_ne_top _)]
      exact .inf true
  · by_cases hi : F.isInf y = true
    · have e : F.div x y = F.defaultNaN := by unfold div; dsimp only; rw [if_neg hn, if_pos i, if_pos hi]
      rw [e, F.isNaN_defaultNaN] at h; exact absurd h (by decide)
    · have e : F.div x y = F.pack false F.infCode := by
        unfold div; dsimp only; rw [if_neg hn, if_pos i, if_neg hi, n, hs]; rfl
      rw [e, v, EReal.top_div_of_pos_ne_top hp (by
        rcases num_cases hn'.2 with ⟨j, -⟩ | ⟨j, -⟩ | ⟨-, -, u⟩
        · exact absurd j hi
        · exact absurd j hi
        · rw [u]; exact EReal.coe_ne_top _)]
      exact .inf false
  · rcases num_cases hn'.2 with ⟨j, n, u⟩ | ⟨j, n, u⟩ | ⟨g, j, u⟩
    · rw [hs] at n; exact absurd n (by decide)
    · have e : F.div x y = F.pack (F.neg x != F.neg y) 0 := by
        unfold div; dsimp only; rw [if_neg hn, i, if_neg (by decide), if_pos j]
      rw [e, u, EReal.div_top]; exact .zero _
    · rw [v, u, ← EReal.coe_div]; exact (div_rounds f g hc).ereal

end FP.Fmt

/-! ## Classes of functions -/

section generic
variable {w : Nat} {F : Fmt w}

theorem Spec.AtMost.refl {x : BitVec w} (h : Num F x) : AtMost F x x := ⟨h, h, le_rfl⟩

theorem add_rises {x x' y y' : BitVec w} (hx : F.toEReal x ≤ F.toEReal x') (hy : F.toEReal y ≤ F.toEReal y') :
    Rises F (F.add x y) (F.add x' y') := fun h h' => (Fmt.add_rndE h).mono (Fmt.add_rndE h') (add_le_add hx hy)

theorem add_num {x y : BitVec w} (h : Num F (F.add x y)) : Num F x ∧ Num F y := by
  constructor
  · by_contra hc; unfold Num at hc; rw [Bool.not_eq_false] at hc
    unfold Num at h; rw [Opposite.nan_add_l y hc] at h; exact absurd h (by decide)
  · by_contra hc; unfold Num at hc; rw [Bool.not_eq_false] at hc
    unfold Num at h; rw [Opposite.nan_add_r x hc] at h; exact absurd h (by decide)

theorem mul_rises {x x' y y' : BitVec w} (h : F.toEReal x * F.toEReal y ≤ F.toEReal x' * F.toEReal y') :
    Rises F (F.mul x y) (F.mul x' y') := fun a b => (Fmt.mul_rndE a).mono (Fmt.mul_rndE b) h

/-- The operations of a class round, and preserve the order. -/
structure OrderOps (F : Fmt w) (A : Arith (BitVec w)) : Prop where
  add : A.add = F.add
  sub : A.sub = F.sub
  mul : ∀ x y, Num F (A.mul x y) → F.IsRndE (F.toEReal x * F.toEReal y) (A.mul x y)
  madd : ∀ x y z x' y' z', F.toEReal x * F.toEReal y ≤ F.toEReal x' * F.toEReal y' → F.toEReal z ≤ F.toEReal z' →
    Rises F (A.madd x y z) (A.madd x' y' z')
  one : A.one = F.ofInt 1
  zero : A.zero = F.posZero
  max : IsMax F A.max_
  min : IsMin F A.min_
  square : ∀ x, A.square x = A.mul x x
  cube : ∀ x, A.cube x = A.mul x (A.mul x x) ∨ A.cube x = A.mul (A.mul x x) x
  mul_num : ∀ x y, Num F (A.mul x y) → Num F x ∧ Num F y
  mul_ok : ∀ x y, Num F x → Num F y → (IsFin F x ∧ IsFin F y) ∨ (F.code x ≠ 0 ∧ F.code y ≠ 0) → Num F (A.mul x y)

theorem OrderOps.mul_rises {A : Arith (BitVec w)} (O : OrderOps F A) {x x' y y' : BitVec w}
    (h : F.toEReal x * F.toEReal y ≤ F.toEReal x' * F.toEReal y') : Rises F (A.mul x y) (A.mul x' y') :=
  fun a b => (O.mul _ _ a).mono (O.mul _ _ b) h

/-- Moves by which a product rises. -/
theorem product_moves {x x' y y' : BitVec w} {a b : Move}
    (h : (a, b) ∈ ([(.up, .nonneg), (.nonneg, .up), (.down, .nonpos), (.nonpos, .down)] : List (Move × Move)))
    (hx : a.From F x x') (hy : b.From F y y') : F.toEReal x * F.toEReal y ≤ F.toEReal x' * F.toEReal y' := by
  simp only [List.mem_cons, Prod.mk.injEq, List.not_mem_nil, or_false] at h
  rcases h with ⟨rfl, rfl⟩ | ⟨rfl, rfl⟩ | ⟨rfl, rfl⟩ | ⟨rfl, rfl⟩
  · obtain ⟨-, rfl, h0⟩ := hy
    exact mul_le_mul_of_nonneg_right hx.2.2 h0
  · obtain ⟨-, rfl, h0⟩ := hx
    exact mul_le_mul_of_nonneg_left hy.2.2 h0
  · obtain ⟨-, rfl, h0⟩ := hy
    exact EReal.mul_le_mul_of_nonpos_right hx.2.2 h0
  · obtain ⟨-, rfl, h0⟩ := hx
    rw [mul_comm, mul_comm (F.toEReal x')]
    exact EReal.mul_le_mul_of_nonpos_right hy.2.2 h0

theorem quotient_le {x y y' : EReal} (h0 : 0 ≤ x) (hy : y' ≤ y) (hp : 0 < y') : x / y ≤ x / y' := by
  rw [EReal.div_eq_inv_mul, EReal.div_eq_inv_mul]
  refine mul_le_mul_of_nonneg_right ?_ h0
  exact EReal.inv_strictAntiOn.antitoneOn (Set.mem_Ioi.mpr hp) (Set.mem_Ioi.mpr (hp.trans_le hy)) hy

theorem sub_num_iff {x y : BitVec w} (h : Num F (F.sub x y)) : Num F x ∧ Num F y ∧ F.sub x y = F.add x (F.negate y) := by
  have : (F.isNaN x || F.isNaN y) = false := by
    by_contra hc
    rw [Bool.not_eq_false] at hc
    have := Opposite.nan_sub (F := F) hc
    unfold Num at h; rw [this] at h; exact absurd h (by decide)
  rw [Bool.or_eq_false_iff] at this
  exact ⟨this.1, this.2, F.sub_num this.1 this.2⟩

theorem sub_rises {x x' y y' : BitVec w} (hx : F.toEReal x ≤ F.toEReal x') (hy : F.toEReal y' ≤ F.toEReal y) :
    Rises F (F.sub x y) (F.sub x' y') := by
  intro a b
  have e := (sub_num_iff a).2.2
  have e' := (sub_num_iff b).2.2
  rw [e] at a ⊢
  rw [e'] at b ⊢
  refine add_rises hx ?_ a b
  rw [F.toEReal_negate, F.toEReal_negate]
  exact EReal.neg_le_neg_iff.mpr hy

/-- Binary functions. -/
theorem binary_rises {A : Arith (BitVec w)} (O : OrderOps F A) (op : BinOp) {x x' y y' : BitVec w} {a b : Move}
    (h : (a, b) ∈ BinMoves op) (hx : a.From F x x') (hy : b.From F y y') (ho : op = .over → A.div = F.div) :
    Rises F (op.f A x y) (op.f A x' y') := by
  cases op with
  | plus =>
    obtain ⟨rfl, rfl⟩ : a = .up ∧ b = .up := by simpa [BinMoves] using h
    change Rises F (A.add x y) (A.add _ _)
    rw [O.add]; exact add_rises hx.2.2 hy.2.2
  | sum =>
    obtain ⟨rfl, rfl⟩ : a = .up ∧ b = .up := by simpa [BinMoves] using h
    change Rises F (A.add x y) (A.add _ _)
    rw [O.add]; exact add_rises hx.2.2 hy.2.2
  | minus =>
    obtain ⟨rfl, rfl⟩ : a = .up ∧ b = .down := by simpa [BinMoves] using h
    change Rises F (A.sub x y) (A.sub _ _)
    rw [O.sub]; exact sub_rises hx.2.2 hy.2.2
  | times => exact O.mul_rises (product_moves h hx hy)
  | over =>
    change Rises F (A.div x y) (A.div _ _)
    rw [ho rfl]
    obtain ⟨rfl, rfl⟩ | ⟨rfl, rfl⟩ : (a = .up ∧ b = .positive) ∨ (a = .nonneg ∧ b = .downPositive) := by
      simpa [BinMoves] using h
    · obtain ⟨-, rfl, h0⟩ := hy
      intro c d
      exact (Fmt.div_rndE c h0).2.2.mono (Fmt.div_rndE d h0).2.2 (EReal.div_le_div_right_of_nonneg h0.le hx.2.2)
    · obtain ⟨-, rfl, h0⟩ := hx
      obtain ⟨hy, hp⟩ := hy
      intro c d
      exact (Fmt.div_rndE c (hp.trans_le hy.2.2)).2.2.mono (Fmt.div_rndE d hp).2.2 (quotient_le h0 hy.2.2 hp)
  | min =>
    obtain ⟨rfl, rfl⟩ : a = .up ∧ b = .up := by simpa [BinMoves] using h
    intro _ _
    change F.toEReal (A.min_ x y) ≤ F.toEReal (A.min_ x' y')
    rw [O.min.val _ _ hx.1 hy.1, O.min.val _ _ hx.2.1 hy.2.1]
    exact min_le_min hx.2.2 hy.2.2
  | max =>
    obtain ⟨rfl, rfl⟩ : a = .up ∧ b = .up := by simpa [BinMoves] using h
    intro _ _
    change F.toEReal (A.max_ x y) ≤ F.toEReal (A.max_ x' y')
    rw [O.max.val _ _ hx.1 hy.1, O.max.val _ _ hx.2.1 hy.2.1]
    exact max_le_max hx.2.2 hy.2.2
  | clip2 =>
    obtain ⟨rfl, rfl⟩ : a = .up ∧ b = .stay := by simpa [BinMoves] using h
    obtain ⟨ny, rfl⟩ := hy
    intro _ _
    change F.toEReal (Functor.clip2 A x y') ≤ F.toEReal (Functor.clip2 A x' y')
    rw [(clip2_spec F O.max O.min O.zero O.sub hx.1 ny).2, (clip2_spec F O.max O.min O.zero O.sub hx.2.1 ny).2]
    exact max_le_max le_rfl (min_le_min hx.2.2 le_rfl)
  | _ => exact absurd h (by simp [BinMoves])

theorem Spec.Move.From.num {m : Move} {x x' : BitVec w} (h : m.From F x x') : Num F x ∧ Num F x' := by
  cases m with
  | up => exact ⟨h.1, h.2.1⟩
  | down => exact ⟨h.2.1, h.1⟩
  | downPositive => exact ⟨h.1.2.1, h.1.1⟩
  | stay => obtain ⟨h, rfl⟩ := h; exact ⟨h, h⟩
  | nonneg => obtain ⟨h, rfl, -⟩ := h; exact ⟨h, h⟩
  | nonpos => obtain ⟨h, rfl, -⟩ := h; exact ⟨h, h⟩
  | positive => obtain ⟨h, rfl, -⟩ := h; exact ⟨h, h⟩

theorem OrderOps.mul_nonneg {A : Arith (BitVec w)} (O : OrderOps F A) {x y : BitVec w} (h : Num F (A.mul x y))
    (h0 : 0 ≤ F.toEReal x * F.toEReal y) : 0 ≤ F.toEReal (A.mul x y) := by
  have := (Fmt.IsRndE.self F.isNaN_posZero).mono (O.mul _ _ h) (by rw [F.toEReal_posZero]; exact h0)
  rwa [F.toEReal_posZero] at this

/-- Ternary functions. -/
theorem ternary_rises {A : Arith (BitVec w)} (O : OrderOps F A) (h1 : 0 ≤ F.toEReal (F.ofInt 1)) (op : TerOp)
    {x x' y y' z z' : BitVec w} {a b c : Move} (h : (a, b, c) ∈ TerMoves op) (hx : a.From F x x') (hy : b.From F y y')
    (hz : c.From F z z') :
    Rises F (op.f A x y z) (op.f A x' y' z') := by
  cases op with
  | clip =>
    obtain ⟨rfl, rfl, rfl⟩ : a = .up ∧ b = .up ∧ c = .up := by simpa [TerMoves] using h
    intro _ _
    change F.toEReal (Functor.clip A x y z) ≤ F.toEReal (Functor.clip A x' y' z')
    rw [(clip_spec F O.max O.min hx.1 hy.1 hz.1).2, (clip_spec F O.max O.min hx.2.1 hy.2.1 hz.2.1).2]
    exact max_le_max hy.2.2 (min_le_min hx.2.2 hz.2.2)
  | sum =>
    obtain ⟨rfl, rfl, rfl⟩ : a = .up ∧ b = .up ∧ c = .up := by simpa [TerMoves] using h
    change Rises F (A.add (A.add x y) z) (A.add (A.add x' y') z')
    rw [O.add]
    intro p q
    exact add_rises (add_rises hx.2.2 hy.2.2 (add_num p).1 (add_num q).1) hz.2.2 p q
  | muladd =>
    simp only [TerMoves, List.mem_cons, Prod.mk.injEq, List.not_mem_nil, or_false] at h
    refine O.madd x y z x' y' z' (product_moves (a := a) (b := b) ?_ hx hy) ?_
    · simp only [List.mem_cons, Prod.mk.injEq, List.not_mem_nil, or_false]
      tauto
    · obtain rfl : c = .up := by tauto
      exact hz.2.2
  | ampmod =>
    change Rises F (A.mul x (A.add A.one (A.mul y z))) (A.mul x' (A.add A.one (A.mul y' z')))
    rw [O.add, O.one]
    obtain ⟨rfl, hp⟩ : a = .nonneg ∧ F.toEReal y * F.toEReal z ≤ F.toEReal y' * F.toEReal z' := by
      simp only [TerMoves, List.mem_cons, Prod.mk.injEq, List.not_mem_nil, or_false] at h
      refine ⟨by tauto, product_moves (a := b) (b := c) ?_ hy hz⟩
      simp only [List.mem_cons, Prod.mk.injEq, List.not_mem_nil, or_false]
      tauto
    obtain ⟨-, rfl, h0⟩ := hx
    intro p q
    refine O.mul_rises (mul_le_mul_of_nonneg_left ?_ h0) p q
    have p' := (O.mul_num _ _ p).2
    have q' := (O.mul_num _ _ q).2
    exact add_rises le_rfl (O.mul_rises hp (add_num p').2 (add_num q').2) p' q'

/-- Functions of four arguments. -/
theorem quad_rises {A : Arith (BitVec w)} (O : OrderOps F A) (op : QuadOp)
    {x x' y y' z z' u u' : BitVec w} {a b c d : Move} (h : (a, b, c, d) ∈ QuadMoves op) (hx : a.From F x x')
    (hy : b.From F y y') (hz : c.From F z z') (hu : d.From F u u') :
    Rises F (op.f A x y z u) (op.f A x' y' z' u') := by
  cases op with
  | sum =>
    obtain ⟨rfl, rfl, rfl, rfl⟩ : a = .up ∧ b = .up ∧ c = .up ∧ d = .up := by simpa [QuadMoves] using h
    change Rises F (A.add (A.add x y) (A.add z u)) (A.add (A.add x' y') (A.add z' u'))
    rw [O.add]
    intro p q
    exact add_rises (add_rises hx.2.2 hy.2.2 (add_num p).1 (add_num q).1)
      (add_rises hz.2.2 hu.2.2 (add_num p).2 (add_num q).2) p q
  | mix =>
    change Rises F (A.add (A.mul x y) (A.mul z u)) (A.add (A.mul x' y') (A.mul z' u'))
    rw [O.add]
    simp only [QuadMoves, List.mem_cons, Prod.mk.injEq, List.not_mem_nil, or_false] at h
    have h1 : F.toEReal x * F.toEReal y ≤ F.toEReal x' * F.toEReal y' := by
      refine product_moves (a := a) (b := b) ?_ hx hy
      simp only [List.mem_cons, Prod.mk.injEq, List.not_mem_nil, or_false]
      tauto
    have h2 : F.toEReal z * F.toEReal u ≤ F.toEReal z' * F.toEReal u' := by
      refine product_moves (a := c) (b := d) ?_ hz hu
      simp only [List.mem_cons, Prod.mk.injEq, List.not_mem_nil, or_false]
      tauto
    intro p q
    exact add_rises (O.mul_rises h1 (add_num p).1 (add_num q).1) (O.mul_rises h2 (add_num p).2 (add_num q).2) p q

/-- `ampmod` with a rising signal, if the gain is not negative. -/
theorem ampmod_rises {A : Arith (BitVec w)} (O : OrderOps F A) (h1 : F.isFinite (F.ofInt 1) = true)
    (hv : F.toReal (F.ofInt 1) = 1) {x x' y z : BitVec w} (hx : AtMost F x x') (hp : -1 ≤ F.toEReal y * F.toEReal z) :
    Rises F (TerOp.ampmod.f A x y z) (TerOp.ampmod.f A x' y z) := by
  change Rises F (A.mul x (A.add A.one (A.mul y z))) (A.mul x' (A.add A.one (A.mul y z)))
  rw [O.add, O.one]
  intro p q
  refine O.mul_rises (mul_le_mul_of_nonneg_right hx.2.2 ?_) p q
  have p' := (O.mul_num _ _ p).2
  have m := (add_num p').2
  have e1 : F.toEReal (F.ofInt 1) = 1 := by rw [F.toEReal_of_finite h1, hv]; rfl
  have hn : F.isNaN (F.negate (F.ofInt 1)) = false := by rw [F.isNaN_negate]; exact F.isFinite_not_nan h1
  have k : -1 ≤ F.toEReal (A.mul y z) := by
    have := (Fmt.IsRndE.self hn).mono (O.mul _ _ m) (by rw [F.toEReal_negate, e1]; exact hp)
    rwa [F.toEReal_negate, e1] at this
  have := (Fmt.IsRndE.self F.isNaN_posZero).mono (Fmt.add_rndE p') (by
    rw [F.toEReal_posZero, e1]
    have := add_le_add (le_refl (1 : EReal)) k
    refine le_trans ?_ this
    have e : (1 : EReal) + -1 = ((1 + -1 : ℝ) : EReal) := by push_cast; rfl
    rw [e]; norm_num)
  rwa [F.toEReal_posZero] at this

/-! ## Squares and cubes -/

theorem OrderOps.square_rises {A : Arith (BitVec w)} (O : OrderOps F A) {x x' : BitVec w} (hx : IsFin F x) (hx' : IsFin F x')
    (h : |F.toReal x| ≤ |F.toReal x'|) : AtMost F (A.square x) (A.square x') := by
  rw [O.square, O.square]
  have n := O.mul_ok x x (F.isFinite_not_nan hx) (F.isFinite_not_nan hx) (.inl ⟨hx, hx⟩)
  have n' := O.mul_ok x' x' (F.isFinite_not_nan hx') (F.isFinite_not_nan hx') (.inl ⟨hx', hx'⟩)
  refine ⟨n, n', O.mul_rises ?_ n n'⟩
  rw [F.toEReal_of_finite hx, F.toEReal_of_finite hx']
  have : F.toReal x * F.toReal x ≤ F.toReal x' * F.toReal x' := abs_le_iff_mul_self_le.mp h
  exact_mod_cast this

theorem OrderOps.square_zero {A : Arith (BitVec w)} (O : OrderOps F A) {x : BitVec w} (hx : F.code x = 0) (h : Num F (A.mul x x)) :
    F.toEReal (A.mul x x) = 0 := by
  have fx : IsFin F x := by unfold IsFin Fmt.isFinite; rw [hx]; exact decide_eq_true F.infCode_pos
  have v : F.toEReal x = 0 := (F.key_zero_iff (F.isFinite_not_nan fx)).mp (F.key_eq_zero.mpr hx)
  have r := O.mul _ _ h
  rw [v, mul_zero] at r
  have z := Fmt.IsRndE.self (F := F) F.isNaN_posZero
  rw [F.toEReal_posZero] at z
  have a := r.mono z le_rfl
  have b := z.mono r le_rfl
  rw [F.toEReal_posZero] at a b
  exact le_antisymm a b

theorem OrderOps.cube_ok {A : Arith (BitVec w)} (O : OrderOps F A) {x : BitVec w} (hx : IsFin F x) :
    Num F (A.mul x x) ∧ Num F (A.mul x (A.mul x x)) ∧ Num F (A.mul (A.mul x x) x) := by
  have nx := F.isFinite_not_nan hx
  have n := O.mul_ok x x nx nx (.inl ⟨hx, hx⟩)
  have key : (IsFin F (A.mul x x) ∧ IsFin F x) ∨ (F.code (A.mul x x) ≠ 0 ∧ F.code x ≠ 0) := by
    by_cases h0 : F.code x = 0
    · left
      refine ⟨?_, hx⟩
      have v := O.square_zero h0 n
      rcases Fmt.num_cases n with ⟨-, -, u⟩ | ⟨-, -, u⟩ | ⟨f, -⟩
      · rw [u] at v; exact absurd v (by decide)
      · rw [u] at v; exact absurd v (by decide)
      · exact f
    · by_cases hf : IsFin F (A.mul x x)
      · exact .inl ⟨hf, hx⟩
      · right
        refine ⟨fun hc => hf ?_, h0⟩
        unfold IsFin Fmt.isFinite; rw [hc]; exact decide_eq_true F.infCode_pos
  exact ⟨n, O.mul_ok _ _ nx n (key.imp And.symm And.symm), O.mul_ok _ _ n nx key⟩

theorem ereal_cube {x x' s s' : EReal} (h : x ≤ x') (hs : 0 ≤ s) (hs' : 0 ≤ s') (h1 : 0 ≤ x → s ≤ s')
    (h2 : x' ≤ 0 → s' ≤ s) : x * s ≤ x' * s' := by
  rcases le_total 0 x with a | a
  · exact mul_le_mul h (h1 a) hs (a.trans h)
  · rcases le_total x' 0 with b | b
    · have k := mul_le_mul (EReal.neg_le_neg_iff.mpr h) (h2 b) hs' (by simpa using EReal.neg_le_neg_iff.mpr a)
      rw [EReal.neg_mul, EReal.neg_mul] at k
      exact EReal.neg_le_neg_iff.mp k
    · have k1 : x * s ≤ 0 := by
        have := EReal.mul_le_mul_of_nonpos_right hs a
        rw [zero_mul] at this
        rwa [mul_comm]
      exact k1.trans (EReal.mul_nonneg b hs')

theorem OrderOps.cube_rises {A : Arith (BitVec w)} (O : OrderOps F A) {x x' : BitVec w} (hx : IsFin F x) (hx' : IsFin F x')
    (h : F.toReal x ≤ F.toReal x') : AtMost F (A.cube x) (A.cube x') := by
  obtain ⟨n, c1, c2⟩ := O.cube_ok hx
  obtain ⟨n', c1', c2'⟩ := O.cube_ok hx'
  have sq : ∀ {y}, Num F y → Num F (A.mul y y) → 0 ≤ F.toEReal (A.mul y y) := fun {y} _ hn =>
    O.mul_nonneg hn (by
      rcases le_total 0 (F.toEReal y) with a | a
      · exact EReal.mul_nonneg a a
      · have := EReal.mul_le_mul_of_nonpos_right a a
        rwa [zero_mul] at this)
  have cmp : ∀ {y z : BitVec w}, IsFin F y → IsFin F z → Num F (A.mul y y) → Num F (A.mul z z) → |F.toReal y| ≤ |F.toReal z| →
      F.toEReal (A.mul y y) ≤ F.toEReal (A.mul z z) := fun {y z} fy fz ny nz hl => by
    have := (O.square_rises fy fz hl).2.2
    rwa [O.square, O.square] at this
  have main : F.toEReal x * F.toEReal (A.mul x x) ≤ F.toEReal x' * F.toEReal (A.mul x' x') := by
    refine ereal_cube ?_ (sq (F.isFinite_not_nan hx) n) (sq (F.isFinite_not_nan hx') n') (fun a => ?_) (fun a => ?_)
    · rw [F.toEReal_of_finite hx, F.toEReal_of_finite hx']; exact_mod_cast h
    · refine cmp hx hx' n n' ?_
      rw [F.toEReal_of_finite hx] at a
      have a' : 0 ≤ F.toReal x := by exact_mod_cast a
      rw [abs_of_nonneg a', abs_of_nonneg (a'.trans h)]; exact h
    · refine cmp hx' hx n' n ?_
      rw [F.toEReal_of_finite hx'] at a
      have a' : F.toReal x' ≤ 0 := by exact_mod_cast a
      rw [abs_of_nonpos a', abs_of_nonpos (h.trans a')]; linarith
  have p := O.mul _ _ c1
  have p' := O.mul _ _ c1'
  have q := O.mul _ _ c2
  have q' := O.mul _ _ c2'
  rw [mul_comm] at q q'
  rcases O.cube x with e | e <;> rcases O.cube x' with e' | e' <;> rw [e, e']
  · exact ⟨c1, c1', p.mono p' main⟩
  · exact ⟨c1, c2', p.mono q' main⟩
  · exact ⟨c2, c1', q.mono p' main⟩
  · exact ⟨c2, c2', q.mono q' main⟩

end generic
end Nova
