import Verif.Float.Nearest
import Verif.Lemmas.RootScale
import Verif.Props.C97_Scale

/-! # The operations of the classes are correctly rounded -/

namespace Nova
open FP Spec VecMath
variable {w : Nat} {F : Fmt w} {A : Arith (BitVec w)}

theorem sub_isRnd {x y : BitVec w} (hx : IsFin F x) (hy : IsFin F y) : F.IsRnd (F.toReal x - F.toReal y) (F.sub x y) := by
  rw [F.sub_num (F.isFinite_not_nan hx) (F.isFinite_not_nan hy), sub_eq_add_neg, ← F.toReal_negate]
  exact Fmt.add_rounds hx (by simpa using hy)

theorem ScaleOps.binary_rounded (O : ScaleOps F A) (op : BinOp) (hd : op = .over → A.div = F.div) {x y : BitVec w} {v : ℝ}
    (hx : IsFin F x) (hy : IsFin F y) (h : BinRounded op (F.toReal x) (F.toReal y) v) (f : IsFin F (op.f A x y)) :
    CorrectlyRounded F v (op.f A x y) := by
  cases op with
  | plus => rw [h]; simp only [BinOp.f, O.add] at f ⊢; exact (Fmt.add_rounds hx hy).correctly f
  | sum => rw [h]; simp only [BinOp.f, O.add] at f ⊢; exact (Fmt.add_rounds hx hy).correctly f
  | minus => rw [h]; simp only [BinOp.f, O.sub] at f ⊢; exact (sub_isRnd hx hy).correctly f
  | times => rw [h]; exact (O.mul x y hx hy).correctly f
  | over =>
    rw [h]
    simp only [BinOp.f, hd rfl] at f ⊢
    exact (Fmt.div_rounds hx hy (div_fin_nonzero hx hy f)).correctly f
  | _ => exact h.elim

theorem ScaleOps.square_rounded (O : ScaleOps F A) {x : BitVec w} (hx : IsFin F x) (f : IsFin F (A.square x)) :
    CorrectlyRounded F (F.toReal x * F.toReal x) (A.square x) := by
  rw [O.square] at f ⊢
  exact (O.mul x x hx hx).correctly f

theorem reciprocal_rounded (h1 : IsFin F (F.ofInt 1)) (hv : F.toReal (F.ofInt 1) = 1) {x : BitVec w} (hx : IsFin F x)
    (f : IsFin F (F.div (F.ofInt 1) x)) : CorrectlyRounded F (1 / F.toReal x) (F.div (F.ofInt 1) x) := by
  have := (Fmt.div_rounds h1 hx (div_fin_nonzero h1 hx f)).correctly f
  rwa [hv] at this

/-- The square root of a finite number is finite, so nothing has to be assumed of the result. -/
theorem root_rounded (hW : F.Wide) (hm : 2 * (F.mb + 1) ≤ F.scale) {x : BitVec w} (hx : IsFin F x) :
    CorrectlyRounded F (sgn (F.toReal x) * Real.sqrt |F.toReal x|) (signedSqrtResult F x) := by
  obtain ⟨e, hc⟩ := root_code hW hx
  obtain ⟨fin, val⟩ := signedSqrt_value hW hx
  have hS : (0 : ℝ) < 2 ^ F.scale := by positivity
  have ex := F.toReal_eq x
  have ax : |F.toReal x| = (mag F.mb (F.code x) : ℝ) / 2 ^ F.scale := by
    rw [ex, abs_mul, abs_of_nonneg (show (0 : ℝ) ≤ _ / 2 ^ F.scale by positivity)]
    cases F.neg x <;> simp
  have root : Real.sqrt |F.toReal x| * 2 ^ F.scale = √((mag F.mb (F.code x) * 2 ^ F.scale : Nat) : ℝ) := by
    rw [ax, show (((mag F.mb (F.code x) * 2 ^ F.scale : Nat)) : ℝ) = (mag F.mb (F.code x) : ℝ) / 2 ^ F.scale * (2 ^ F.scale) ^ 2 by
      push_cast; field_simp, Real.sqrt_mul (by positivity), Real.sqrt_sq hS.le]
  have code : F.code (signedSqrtResult F x) = rne F.mb (rootDigits (mag F.mb (F.code x) * 2 ^ F.scale)) 2 := by
    unfold signedSqrtResult
    rw [F.code_pack _ (hc.trans F.infCode_lt), e]
  have mv : abs (sgn (F.toReal x) * Real.sqrt |F.toReal x|) = Real.sqrt |F.toReal x| := by
    unfold sgn
    split_ifs with h1 h2
    · rw [one_mul, abs_of_nonneg (Real.sqrt_nonneg _)]
    · simp [h2]
    · rw [neg_one_mul, abs_neg, abs_of_nonneg (Real.sqrt_nonneg _)]
  refine Fmt.correctly_rounded fin ?_ ?_
  · rw [mv, root, code]
    by_cases h0 : F.code x = 0
    · have := rne_cell F.mb 0 (D := 2) (by decide)
      rw [h0, mag_zero, zero_mul, show rootDigits 0 = 0 by decide]
      simpa using this
    · exact root_cell (le_isqrt_units hm h0)
  · have p : (0 : ℝ) ≤ (mag F.mb (F.code x) : ℝ) / 2 ^ F.scale := by positivity
    have q : (0 : ℝ) ≤ (mag F.mb (rne F.mb (rootDigits (mag F.mb (F.code x) * 2 ^ F.scale)) 2) : ℝ) / 2 ^ F.scale := by positivity
    have s0 := Real.sqrt_nonneg |F.toReal x|
    rw [val]
    by_cases hn : F.neg x = true
    · right
      rw [hn] at ex ⊢
      simp only [if_true] at ex ⊢
      refine ⟨?_, by linarith⟩
      have : F.toReal x ≤ 0 := by rw [ex]; linarith
      unfold sgn
      split_ifs <;> linarith
    · left
      rw [Bool.not_eq_true] at hn
      rw [hn] at ex ⊢
      simp only [Bool.false_eq_true, if_false] at ex ⊢
      refine ⟨?_, by linarith⟩
      have : 0 ≤ F.toReal x := by rw [ex]; linarith
      unfold sgn
      split_ifs with h1 h2
      · linarith
      · linarith
      · exact absurd (lt_of_le_of_ne this (Ne.symm h2)) h1

end Nova
