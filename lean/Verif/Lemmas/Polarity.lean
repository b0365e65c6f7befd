import Verif.SpecPolarity
import Verif.Props.C78_Same
import Verif.Props.C87_ExactRamps
import Verif.Props.C73_Tanh

/-! # Arithmetic under a change of sign -/

namespace Nova
open FP Spec

variable {w : Nat} {F : Fmt w}

theorem Spec.Same.symm {a b : BitVec w} (h : Same F a b) : Same F b a := by
  rcases h with rfl | ⟨h1, h2⟩
  · exact .refl F _
  · exact .inr ⟨h2, h1⟩

theorem same_negate {a b : BitVec w} (h : Same F a b) : Same F (F.negate a) (F.negate b) := by
  rcases h with rfl | ⟨h1, h2⟩
  · exact .refl F _
  · exact .inr ⟨by rwa [F.code_negate], by rwa [F.code_negate]⟩

theorem same_nan {a b : BitVec w} (h : Same F a b) (hn : F.isNaN b = true) : F.isNaN a = true := by
  rcases h with rfl | ⟨-, h2⟩
  · exact hn
  · simp [Fmt.isNaN, h2] at hn

theorem bne_flip : ∀ a b : Bool, ((!a) != b) = (!(a != b)) ∧ (a != !b) = (!(a != b)) := by decide

namespace Spec.Opposite

theorem negate (x : BitVec w) : Opposite F x (F.negate x) := .inr (.refl F _)

theorem symm {a b : BitVec w} (h : Opposite F a b) : Opposite F b a := by
  rcases h with ⟨h1, h2⟩ | h
  · exact .inl ⟨h2, h1⟩
  · right
    have := same_negate h
    rw [F.negate_negate] at this
    exact this.symm

theorem same_right {a b c : BitVec w} (h : Opposite F a b) (hc : Same F c b) : Opposite F a c := by
  rcases h with ⟨h1, h2⟩ | h
  · exact .inl ⟨h1, same_nan hc h2⟩
  · exact .inr (hc.trans h)

theorem same_left {a b c : BitVec w} (h : Opposite F a b) (hc : Same F c a) : Opposite F c b :=
  (h.symm.same_right hc).symm

theorem nan {a b : BitVec w} (h : Opposite F a b) : F.isNaN a = F.isNaN b := by
  rcases h with ⟨h1, h2⟩ | h | ⟨h1, h2⟩
  · rw [h1, h2]
  · rw [h, F.isNaN_negate]
  · rw [F.code_negate] at h2
    simp [Fmt.isNaN, h1, h2]

theorem neg {a b : BitVec w} (h : Opposite F a b) : Opposite F (F.negate a) (F.negate b) := by
  rcases h with ⟨h1, h2⟩ | h
  · exact .inl ⟨by rwa [F.isNaN_negate], by rwa [F.isNaN_negate]⟩
  · exact .inr (same_negate h)

theorem zero {a b : BitVec w} (ha : F.code a = 0) (hb : F.code b = 0) : Opposite F a b :=
  .inr (.inr ⟨hb, by rwa [F.code_negate]⟩)

/-! ## Sums -/

theorem nan_add_l {x : BitVec w} (y : BitVec w) (h : F.isNaN x = true) : F.isNaN (F.add x y) = true := by
  unfold Fmt.add
  rw [h, Bool.true_or, if_pos rfl]
  exact F.isNaN_nan2 (by rw [h, Bool.true_or])

theorem nan_add_r (x : BitVec w) {y : BitVec w} (h : F.isNaN y = true) : F.isNaN (F.add x y) = true := by
  unfold Fmt.add
  rw [h, Bool.or_true, if_pos rfl]
  exact F.isNaN_nan2 (by rw [h, Bool.or_true])

theorem add_neg (x y : BitVec w) : Opposite F (F.add x y) (F.add (F.negate x) (F.negate y)) := by
  unfold Fmt.add
  simp only [F.isNaN_negate, F.isInf_negate, F.neg_negate, F.units_negate]
  by_cases h1 : (F.isNaN x || F.isNaN y) = true
  · rw [if_pos h1, if_pos h1]
    exact .inl ⟨F.isNaN_nan2 h1, F.isNaN_nan2 (by simpa using h1)⟩
  · rw [if_neg h1, if_neg h1]
    by_cases h2 : F.isInf x = true
    · rw [if_pos h2, if_pos h2]
      have e : ((!F.neg x) != (!F.neg y)) = (F.neg x != F.neg y) := by cases F.neg x <;> cases F.neg y <;> rfl
      rw [e]
      by_cases h3 : (F.isInf y && (F.neg x != F.neg y)) = true
      · rw [if_pos h3, if_pos h3]; exact .inl ⟨F.isNaN_defaultNaN, F.isNaN_defaultNaN⟩
      · rw [if_neg h3, if_neg h3]; exact negate x
    · rw [if_neg h2, if_neg h2]
      by_cases h3 : F.isInf y = true
      · rw [if_pos h3, if_pos h3]; exact negate y
      · rw [if_neg h3, if_neg h3]
        by_cases h4 : F.units x + F.units y = 0
        · rw [if_pos h4, if_pos (by omega)]
          exact zero (F.code_pack _ (Nat.two_pow_pos _)) (F.code_pack _ (Nat.two_pow_pos _))
        · rw [if_neg h4, if_neg (by omega)]
          right; left
          have e : -F.units x + -F.units y = -(F.units x + F.units y) := by ring
          rw [e, Int.natAbs_neg, F.negate_packRnd]
          congr 1
          rw [Bool.eq_iff_iff]
          simp
          omega

theorem add {a a' b b' : BitVec w} (ha : Opposite F a a') (hb : Opposite F b b') :
    Opposite F (F.add a b) (F.add a' b') := by
  rcases ha with ⟨h1, h2⟩ | ha
  · exact .inl ⟨nan_add_l _ h1, nan_add_l _ h2⟩
  · rcases hb with ⟨h1, h2⟩ | hb
    · exact .inl ⟨nan_add_r _ h1, nan_add_r _ h2⟩
    · exact (add_neg a b).same_right (same_add ha hb)

theorem sub_def (x y : BitVec w) (h : F.isNaN x = false) (h' : F.isNaN y = false) : F.sub x y = F.add x (F.negate y) :=
  F.sub_num h h'

theorem nan_sub {x y : BitVec w} (h : (F.isNaN x || F.isNaN y) = true) : F.isNaN (F.sub x y) = true := by
  unfold Fmt.sub
  rw [if_pos h]
  exact F.isNaN_nan2 h

theorem sub {a a' b b' : BitVec w} (ha : Opposite F a a') (hb : Opposite F b b') :
    Opposite F (F.sub a b) (F.sub a' b') := by
  by_cases h : (F.isNaN a || F.isNaN b) = true
  · have h' := h
    rw [ha.nan, hb.nan] at h'
    exact .inl ⟨nan_sub h, nan_sub h'⟩
  · have h' := h
    rw [ha.nan, hb.nan] at h'
    simp only [Bool.not_eq_true, Bool.or_eq_false_iff] at h h'
    rw [F.sub_num h.1 h.2, F.sub_num h'.1 h'.2]
    exact add ha hb.neg

/-! ## Products -/

theorem nan_mul {x y : BitVec w} (h : (F.isNaN x || F.isNaN y) = true) : F.isNaN (F.mul x y) = true := by
  unfold Fmt.mul
  rw [if_pos h]
  exact F.isNaN_nan2 h

theorem mul_neg_left (x y : BitVec w) : Opposite F (F.mul x y) (F.mul (F.negate x) y) := by
  by_cases h : F.isNaN (F.mul x y) = true
  · refine .inl ⟨h, ?_⟩
    by_contra h'
    rw [Bool.not_eq_true] at h'
    have := F.mul_negate_left h'
    rw [F.negate_negate] at this
    rw [this, F.isNaN_negate] at h
    exact Bool.false_ne_true (h'.symm.trans h)
  · exact .inr (.inl (F.mul_negate_left (by simpa using h)))

/-- The product with a zero is a zero or a NaN, whatever the sign of the zero. -/
theorem mul_zero_left {x x' : BitVec w} (hx : F.code x = 0) (hx' : F.code x' = 0) (y : BitVec w) :
    Opposite F (F.mul x y) (F.mul x' y) := by
  have nx : ∀ x : BitVec w, F.code x = 0 → F.isNaN x = false := fun x h => by simp [Fmt.isNaN, h]
  have ix : ∀ x : BitVec w, F.code x = 0 → F.isInf x = false := fun x h => by
    have := F.infCode_pos
    simp [Fmt.isInf, h]; omega
  have zx : ∀ x : BitVec w, F.code x = 0 → F.isZero x = true := fun x h => by simp [Fmt.isZero, h]
  by_cases hn : F.isNaN y = true
  · exact .inl ⟨nan_mul (by rw [hn, Bool.or_true]), nan_mul (by rw [hn, Bool.or_true])⟩
  · unfold Fmt.mul
    rw [nx x hx, nx x' hx', ix x hx, ix x' hx', zx x hx, zx x' hx', hx, hx']
    simp only [Bool.false_or, Bool.true_or, if_true, mag_zero, Nat.zero_mul]
    rw [if_neg hn, if_neg hn]
    by_cases hi : F.isInf y = true
    · rw [if_pos hi, if_pos hi]; exact .inl ⟨F.isNaN_defaultNaN, F.isNaN_defaultNaN⟩
    · rw [if_neg hi, if_neg hi]
      have e : ∀ s, F.code (F.packRnd s 0 (2 ^ F.scale)) = 0 := fun s => by
        rw [F.packRnd_mag (c := 0) _ (Nat.two_pow_pos _) (Nat.zero_le _) (by simp), F.code_pack _ (Nat.two_pow_pos _)]
      exact zero (e _) (e _)

theorem mul_left {a a' : BitVec w} (ha : Opposite F a a') (y : BitVec w) : Opposite F (F.mul a y) (F.mul a' y) := by
  rcases ha with ⟨h1, h2⟩ | h | ⟨h1, h2⟩
  · exact .inl ⟨nan_mul (by rw [h1, Bool.true_or]), nan_mul (by rw [h2, Bool.true_or])⟩
  · rw [h]; exact mul_neg_left a y
  · rw [F.code_negate] at h2
    exact mul_zero_left h2 h1 y

theorem mul_comm_nan (x y : BitVec w) : F.mul x y = F.mul y x ∨ (F.isNaN (F.mul x y) = true ∧ F.isNaN (F.mul y x) = true) := by
  by_cases hx : F.isNaN x = true
  · exact .inr ⟨nan_mul (by rw [hx, Bool.true_or]), nan_mul (by rw [hx, Bool.or_true])⟩
  · by_cases hy : F.isNaN y = true
    · exact .inr ⟨nan_mul (by rw [hy, Bool.or_true]), nan_mul (by rw [hy, Bool.true_or])⟩
    · exact .inl (mul_comm_not_nan F (by simpa using hx) (by simpa using hy))

theorem mul_right (x : BitVec w) {b b' : BitVec w} (hb : Opposite F b b') : Opposite F (F.mul x b) (F.mul x b') := by
  have h := mul_left hb x
  rcases mul_comm_nan x b with e | ⟨e1, e2⟩
  · rcases mul_comm_nan x b' with e' | ⟨e1', e2'⟩
    · rwa [e, e']
    · rw [e]
      exact .inl ⟨h.nan.trans e2', e1'⟩
  · rcases mul_comm_nan x b' with e' | ⟨e1', e2'⟩
    · rw [e']; exact .inl ⟨e1, h.nan.symm.trans e2⟩
    · exact .inl ⟨e1, e1'⟩

theorem nan_div {x y : BitVec w} (h : (F.isNaN x || F.isNaN y) = true) : F.isNaN (F.div x y) = true := by
  unfold Fmt.div
  rw [if_pos h]
  exact F.isNaN_nan2 h

theorem div_neg (x y x' y' : BitVec w) (h : (x' = F.negate x ∧ y' = y) ∨ (x' = x ∧ y' = F.negate y)) :
    Opposite F (F.div x y) (F.div x' y') := by
  have e1 : F.isNaN x' = F.isNaN x ∧ F.isInf x' = F.isInf x ∧ F.isZero x' = F.isZero x ∧ F.code x' = F.code x := by
    rcases h with ⟨rfl, -⟩ | ⟨rfl, -⟩ <;> simp
  have e2 : F.isNaN y' = F.isNaN y ∧ F.isInf y' = F.isInf y ∧ F.isZero y' = F.isZero y ∧ F.code y' = F.code y := by
    rcases h with ⟨-, rfl⟩ | ⟨-, rfl⟩ <;> simp
  have e3 : (F.neg x' != F.neg y') = !(F.neg x != F.neg y) := by
    rcases h with ⟨rfl, rfl⟩ | ⟨rfl, rfl⟩ <;> rw [F.neg_negate]
    · exact (bne_flip _ _).1
    · exact (bne_flip _ _).2
  by_cases hn : (F.isNaN x || F.isNaN y) = true
  · exact .inl ⟨nan_div hn, nan_div (by rw [e1.1, e2.1]; exact hn)⟩
  · unfold Fmt.div
    rw [e1.1, e1.2.1, e1.2.2.1, e1.2.2.2, e2.1, e2.2.1, e2.2.2.1, e2.2.2.2, e3, if_neg hn, if_neg hn]
    have hp : ∀ s {c}, c < 2 ^ (w - 1) → Opposite F (F.pack s c) (F.pack (!s) c) := fun s c hc =>
      .inr (.inl (F.negate_pack s hc).symm)
    by_cases h1 : F.isInf x = true
    · rw [if_pos h1, if_pos h1]
      by_cases h2 : F.isInf y = true
      · rw [if_pos h2, if_pos h2]; exact .inl ⟨F.isNaN_defaultNaN, F.isNaN_defaultNaN⟩
      · rw [if_neg h2, if_neg h2]; exact hp _ F.infCode_lt
    · rw [if_neg h1, if_neg h1]
      by_cases h2 : F.isInf y = true
      · rw [if_pos h2, if_pos h2]; exact hp _ (Nat.two_pow_pos _)
      · rw [if_neg h2, if_neg h2]
        by_cases h3 : F.isZero y = true
        · rw [if_pos h3, if_pos h3]
          by_cases h4 : F.isZero x = true
          · rw [if_pos h4, if_pos h4]; exact .inl ⟨F.isNaN_defaultNaN, F.isNaN_defaultNaN⟩
          · rw [if_neg h4, if_neg h4]; exact hp _ F.infCode_lt
        · rw [if_neg h3, if_neg h3]; exact .inr (.inl (F.negate_packRnd _ _ _).symm)

/-- The fused operation. -/
theorem fma_neg (x y z x' y' : BitVec w) (h : (x' = F.negate x ∧ y' = y) ∨ (x' = x ∧ y' = F.negate y)) :
    Opposite F (F.fma x y z) (F.fma x' y' (F.negate z)) := by
  have e1 : F.isNaN x' = F.isNaN x ∧ F.isInf x' = F.isInf x ∧ F.isZero x' = F.isZero x := by
    rcases h with ⟨rfl, -⟩ | ⟨rfl, -⟩ <;> simp
  have e2 : F.isNaN y' = F.isNaN y ∧ F.isInf y' = F.isInf y ∧ F.isZero y' = F.isZero y := by
    rcases h with ⟨-, rfl⟩ | ⟨-, rfl⟩ <;> simp
  have e3 : (F.neg x' != F.neg y') = !(F.neg x != F.neg y) := by
    rcases h with ⟨rfl, rfl⟩ | ⟨rfl, rfl⟩ <;> rw [F.neg_negate]
    · exact (bne_flip _ _).1
    · exact (bne_flip _ _).2
  have e4 : F.units x' * F.units y' = -(F.units x * F.units y) := by
    rcases h with ⟨rfl, rfl⟩ | ⟨rfl, rfl⟩ <;> rw [F.units_negate] <;> ring
  unfold Fmt.fma
  rw [e1.1, e1.2.1, e1.2.2, e2.1, e2.2.1, e2.2.2, e3, e4, F.isNaN_negate, F.isInf_negate, F.neg_negate, F.units_negate]
  generalize (F.neg x != F.neg y) = s
  dsimp only
  by_cases hn : (F.isNaN x || F.isNaN y) = true
  · rw [if_pos hn, if_pos hn]
    exact .inl ⟨F.isNaN_nan2 hn, F.isNaN_nan2 (by rw [e1.1, e2.1]; exact hn)⟩
  · rw [if_neg hn, if_neg hn]
    by_cases hz : F.isNaN z = true
    · rw [if_pos hz, if_pos hz]
      exact .inl ⟨F.isNaN_quiet hz, F.isNaN_quiet (by rwa [F.isNaN_negate])⟩
    · rw [if_neg hz, if_neg hz]
      by_cases h1 : (F.isInf x || F.isInf y) = true
      · rw [if_pos h1, if_pos h1]
        by_cases h2 : (F.isZero x || F.isZero y) = true
        · rw [if_pos h2, if_pos h2]; exact .inl ⟨F.isNaN_defaultNaN, F.isNaN_defaultNaN⟩
        · rw [if_neg h2, if_neg h2]
          have e : ((!F.neg z) != !s) = (F.neg z != s) := by cases F.neg z <;> cases s <;> rfl
          rw [e]
          by_cases h3 : (F.isInf z && (F.neg z != s)) = true
          · rw [if_pos h3, if_pos h3]; exact .inl ⟨F.isNaN_defaultNaN, F.isNaN_defaultNaN⟩
          · rw [if_neg h3, if_neg h3]; exact .inr (.inl (F.negate_pack s F.infCode_lt).symm)
      · rw [if_neg h1, if_neg h1]
        by_cases h3 : F.isInf z = true
        · rw [if_pos h3, if_pos h3]; exact negate z
        · rw [if_neg h3, if_neg h3]
          have e : -(F.units x * F.units y) + -F.units z * 2 ^ F.scale =
              -(F.units x * F.units y + F.units z * 2 ^ F.scale) := by ring
          rw [e]
          generalize F.units x * F.units y + F.units z * 2 ^ F.scale = v
          by_cases h4 : v = 0
          · rw [if_pos h4, if_pos (by omega)]
            exact zero (F.code_pack _ (Nat.two_pow_pos _)) (F.code_pack _ (Nat.two_pow_pos _))
          · rw [if_neg h4, if_neg (by omega), Int.natAbs_neg]
            right; left
            rw [F.negate_packRnd]
            congr 1
            rw [Bool.eq_iff_iff]
            simp
            omega

end Spec.Opposite
end Nova
