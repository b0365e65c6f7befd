import Verif.SpecOps

/-!
# Real arithmetic

The laws of an element type whose basic operations are those of ℝ, and such a type.  `round` is only
assumed to return a nearest integer, `undenormalize` to flush below its threshold; `pow`, `log` … are only
fixed on their domains.
-/

namespace Nova

/-- The basic operations are exact operations on real numbers. -/
structure Arith.Real (A : Arith ℝ) : Prop where
  zero : A.zero = 0
  one : A.one = 1
  lit : ∀ q : ℚ, A.lit q = q
  add : ∀ a b, A.add a b = a + b
  sub : ∀ a b, A.sub a b = a - b
  mul : ∀ a b, A.mul a b = a * b
  div : ∀ a b, b ≠ 0 → A.div a b = a / b
  madd : ∀ a b c, A.madd a b c = a * b + c
  max_ : ∀ a b, A.max_ a b = max a b
  min_ : ∀ a b, A.min_ a b = min a b
  lt : ∀ a b, a < b → A.lt a b = 1
  lt' : ∀ a b, ¬ a < b → A.lt a b = 0
  le : ∀ a b, a ≤ b → A.le a b = 1
  le' : ∀ a b, ¬ a ≤ b → A.le a b = 0
  gt : ∀ a b, a > b → A.gt a b = 1
  gt' : ∀ a b, ¬ a > b → A.gt a b = 0
  ge : ∀ a b, a ≥ b → A.ge a b = 1
  ge' : ∀ a b, ¬ a ≥ b → A.ge a b = 0
  eq : ∀ a, A.eq a a = 1
  eq' : ∀ a b, a ≠ b → A.eq a b = 0
  ne : ∀ a, A.ne a a = 0
  ne' : ∀ a b, a ≠ b → A.ne a b = 1
  abs : ∀ a, A.abs a = |a|
  sign : ∀ a, A.sign a = Spec.sgn a
  square : ∀ a, A.square a = a * a
  cube : ∀ a, A.cube a = a * a * a
  reciprocal : ∀ a, a ≠ 0 → A.reciprocal a = 1 / a
  undenormalize : ∀ a, A.undenormalize a = a ∨ (A.undenormalize a = 0 ∧ |a| < 2 ^ (-126 : ℤ))
  round : ∀ a, (∃ k : ℤ, A.round a = k) ∧ |A.round a - a| ≤ 1 / 2
  floor : ∀ a, A.floor a = ⌊a⌋
  ceil : ∀ a, A.ceil a = ⌈a⌉
  frac : ∀ a, A.frac a = a - ⌊a⌋
  trunc : ∀ a, |a| < 2 ^ 63 → A.trunc a = .ok (Spec.truncate a)
  sin : ∀ a, A.sin a = _root_.Real.sin a
  cos : ∀ a, A.cos a = _root_.Real.cos a
  tan : ∀ a, _root_.Real.cos a ≠ 0 → A.tan a = _root_.Real.tan a
  asin : ∀ a, |a| ≤ 1 → A.asin a = _root_.Real.arcsin a
  acos : ∀ a, |a| ≤ 1 → A.acos a = _root_.Real.arccos a
  atan : ∀ a, A.atan a = _root_.Real.arctan a
  tanh : ∀ a, A.tanh a = _root_.Real.tanh a
  log : ∀ a, 0 < a → A.log a = _root_.Real.log a
  log2 : ∀ a, 0 < a → A.log2 a = _root_.Real.logb 2 a
  log10 : ∀ a, 0 < a → A.log10 a = _root_.Real.logb 10 a
  exp : ∀ a, A.exp a = _root_.Real.exp a
  signedSqrt : ∀ a, A.signedSqrt a = Spec.sgn a * √|a|
  pow : ∀ a b, 0 < a → A.pow a b = a ^ b
  signedPow : ∀ a b, a ≠ 0 → A.signedPow a b = Spec.sgn a * |a| ^ b
  softclip : ∀ a, A.softclip a = if |a| < 0.5 then a else (|a| - 0.25) / a

open Classical in
/-- Real arithmetic; undefined values are those of Mathlib's total functions. -/
noncomputable def realArith : Arith ℝ where
  zero := 0
  one := 1
  lit q := q
  add a b := a + b
  sub a b := a - b
  mul a b := a * b
  div a b := a / b
  madd a b c := a * b + c
  max_ := max
  min_ := min
  lt a b := if a < b then 1 else 0
  le a b := if a ≤ b then 1 else 0
  gt a b := if a > b then 1 else 0
  ge a b := if a ≥ b then 1 else 0
  eq a b := if a = b then 1 else 0
  ne a b := if a = b then 0 else 1
  less a b := decide (a < b)
  abs a := |a|
  sign := Spec.sgn
  square a := a * a
  cube a := a * a * a
  reciprocal a := 1 / a
  undenormalize a := if |a| < 2 ^ (-126 : ℤ) then 0 else a
  round a := _root_.round a
  floor a := ⌊a⌋
  ceil a := ⌈a⌉
  frac a := a - ⌊a⌋
  trunc a := if |a| < 2 ^ 63 then .ok (Spec.truncate a) else .error .badConv
  sin := Real.sin
  cos := Real.cos
  tan := Real.tan
  asin := Real.arcsin
  acos := Real.arccos
  atan := Real.arctan
  tanh := Real.tanh
  log := Real.log
  log2 := Real.logb 2
  log10 := Real.logb 10
  exp := Real.exp
  signedSqrt a := Spec.sgn a * √|a|
  pow a b := a ^ b
  signedPow a b := Spec.sgn a * |a| ^ b
  softclip a := if |a| < 0.5 then a else (|a| - 0.25) / a

theorem realArith_real : realArith.Real where
  zero := rfl
  one := rfl
  lit _ := rfl
  add _ _ := rfl
  sub _ _ := rfl
  mul _ _ := rfl
  div _ _ _ := rfl
  madd _ _ _ := rfl
  max_ _ _ := rfl
  min_ _ _ := rfl
  lt _ _ h := if_pos h
  lt' _ _ h := if_neg h
  le _ _ h := if_pos h
  le' _ _ h := if_neg h
  gt _ _ h := if_pos h
  gt' _ _ h := if_neg h
  ge _ _ h := if_pos h
  ge' _ _ h := if_neg h
  eq _ := if_pos rfl
  eq' _ _ h := if_neg h
  ne _ := if_pos rfl
  ne' _ _ h := if_neg h
  abs _ := rfl
  sign _ := rfl
  square _ := rfl
  cube _ := rfl
  reciprocal _ _ := rfl
  undenormalize a := by
    by_cases h : |a| < 2 ^ (-126 : ℤ)
    · exact Or.inr ⟨if_pos h, h⟩
    · exact Or.inl (if_neg h)
  round a := ⟨⟨_, rfl⟩, by rw [abs_sub_comm]; exact abs_sub_round a⟩
  floor _ := rfl
  ceil _ := rfl
  frac _ := rfl
  trunc _ h := if_pos h
  sin _ := rfl
  cos _ := rfl
  tan _ _ := rfl
  asin _ _ := rfl
  acos _ _ := rfl
  atan _ := rfl
  tanh _ := rfl
  log _ _ := rfl
  log2 _ _ := rfl
  log10 _ _ := rfl
  exp _ := rfl
  signedSqrt _ := rfl
  pow _ _ _ := rfl
  signedPow _ _ _ := rfl
  softclip _ := rfl

end Nova
