import Verif.Lemmas.Polarity

/-! # The functions of the vector classes under a change of sign -/

namespace Nova
open FP VecMath Spec

section generic
variable {w : Nat} {F : Fmt w}

theorem same_pack_zero (s t : Bool) : Same F (F.pack s 0) (F.pack t 0) :=
  .inr ⟨F.code_pack _ (by positivity), F.code_pack _ (by positivity)⟩

/-- The sign of a zero summand of a fused operation only matters for the sign of a zero. -/
theorem fma_zero_same (x y : BitVec w) : Same F (F.fma x y F.posZero) (F.fma x y (F.negate F.posZero)) := by
  have hz : F.code F.posZero = 0 := F.code_pack _ (by positivity)
  have h1 : F.isNaN F.posZero = false := by simp [Fmt.isNaN, hz]
  have h2 : F.isInf F.posZero = false := by
    have := F.infCode_pos
    simp [Fmt.isInf, hz]; omega
  have h3 : F.units F.posZero = 0 := by simp [Fmt.units, hz, mag_zero]
  unfold Fmt.fma
  simp only [F.isNaN_negate, F.isInf_negate, F.units_negate, h1, h2, h3, Bool.false_eq_true, if_false, Bool.false_and]
  by_cases n : (F.isNaN x || F.isNaN y) = true
  · rw [if_pos n, if_pos n]; exact .refl F _
  · rw [if_neg n, if_neg n]
    by_cases i : (F.isInf x || F.isInf y) = true
    · rw [if_pos i, if_pos i]; exact .refl F _
    · rw [if_neg i, if_neg i]
      by_cases v : F.units x * F.units y + 0 * 2 ^ F.scale = 0
      · rw [if_pos v, if_pos (by simpa using v)]; exact same_pack_zero _ _
      · rw [if_neg v, if_neg (by simpa using v), neg_zero]; exact .refl F _

/-- The basic operations of a class invert the sign of their results. -/
structure OddOps (F : Fmt w) (A : Arith (BitVec w)) : Prop where
  add : A.add = F.add
  sub : A.sub = F.sub
  mul_l : ∀ x y, Opposite F (A.mul x y) (A.mul (F.negate x) y)
  mul_r : ∀ x y, Opposite F (A.mul x y) (A.mul x (F.negate y))
  madd_l : ∀ x y z, Opposite F (A.madd x y z) (A.madd (F.negate x) y (F.negate z))
  madd_r : ∀ x y z, Opposite F (A.madd x y z) (A.madd x (F.negate y) (F.negate z))

/-- A product and a sum. -/
theorem mul_add_odd (x y z x' y' : BitVec w) (h : (x' = F.negate x ∧ y' = y) ∨ (x' = x ∧ y' = F.negate y)) :
    Opposite F (F.add (F.mul x y) z) (F.add (F.mul x' y') (F.negate z)) := by
  refine Opposite.add ?_ (Opposite.negate z)
  rcases h with ⟨rfl, rfl⟩ | ⟨rfl, rfl⟩
  · exact Opposite.mul_left (Opposite.negate x) _
  · exact Opposite.mul_right _ (Opposite.negate y)

theorem scalar_oddOps (F : Fmt w) (lit : ℚ → BitVec w) (c99 : Bool) (M : Libm w) : OddOps F (Scalar.arith F lit c99 M) where
  add := rfl
  sub := rfl
  mul_l x y := Opposite.mul_left (Opposite.negate x) y
  mul_r x y := Opposite.mul_right x (Opposite.negate y)
  madd_l x y z := mul_add_odd x y z _ _ (.inl ⟨rfl, rfl⟩)
  madd_r x y z := mul_add_odd x y z _ _ (.inr ⟨rfl, rfl⟩)

/-- `fma`, or a product and a sum. -/
theorem fused_odd (f : Bool) (x y z x' y' : BitVec w) (h : (x' = F.negate x ∧ y' = y) ∨ (x' = x ∧ y' = F.negate y)) :
    Opposite F (if f then F.fma x y z else F.add (F.mul x y) z)
      (if f then F.fma x' y' (F.negate z) else F.add (F.mul x' y') (F.negate z)) := by
  cases f
  · exact mul_add_odd x y z x' y' h
  · exact Opposite.fma_neg x y z x' y' h

/-- A product as a fused operation. -/
theorem fma_mul_odd (x y x' y' : BitVec w) (h : (x' = F.negate x ∧ y' = y) ∨ (x' = x ∧ y' = F.negate y)) :
    Opposite F (F.fma x y F.posZero) (F.fma x' y' F.posZero) :=
  (Opposite.fma_neg x y F.posZero x' y' h).same_right (fma_zero_same x' y')

theorem roundInt_odd (m : Fmt.Mode) (hm : m = .nearest ∨ m = .zero ∨ m = .away) {x : BitVec w} (hx : IsFin F x) :
    F.roundInt m (F.negate x) = F.negate (F.roundInt m x) := by
  unfold Fmt.roundInt
  rw [F.isNaN_negate, F.isInf_negate, F.isFinite_not_nan hx, F.isFinite_not_inf hx, if_neg (by decide), if_neg (by decide),
    if_neg (by decide), if_neg (by decide)]
  dsimp only
  rw [F.negate_packRnd, F.neg_negate, F.code_negate]
  rcases hm with rfl | rfl | rfl <;> rfl

theorem mul_self_even {x : BitVec w} (hx : IsFin F x) : F.mul (F.negate x) (F.negate x) = F.mul x x := by
  have hn : F.isFinite (F.negate x) = true := by rw [F.isFinite_negate]; exact hx
  rw [F.mul_finite hn hn, F.mul_finite hx hx]
  simp

theorem trunc_odd {v r r' : ℝ} (h : r = if 0 ≤ v then (⌊v⌋ : ℝ) else ⌈v⌉) (h' : r' = if 0 ≤ -v then (⌊-v⌋ : ℝ) else ⌈-v⌉) :
    r' = -r := by
  rw [h, h', Int.floor_neg, Int.ceil_neg]
  rcases lt_trichotomy v 0 with c | rfl | c
  · rw [if_pos (by linarith), if_neg (by linarith)]; push_cast; ring
  · simp
  · rw [if_neg (by linarith), if_pos (by linarith)]; push_cast; ring

theorem opposite_of_value {a b : BitVec w} (ha : Num F a) (hb : Num F b) (h : F.toEReal b = -F.toEReal a) :
    Opposite F a b :=
  .inr (same_of_value F hb (by unfold Num; rw [F.isNaN_negate]; exact ha) (by rw [h, F.toEReal_negate]))

theorem opposite_of_real {a b : BitVec w} (ha : IsFin F a) (hb : IsFin F b) (h : F.toReal b = -F.toReal a) :
    Opposite F a b :=
  opposite_of_value (F.isFinite_not_nan ha) (F.isFinite_not_nan hb)
    (by rw [F.toEReal_of_finite ha, F.toEReal_of_finite hb, h]; norm_cast)

/-- Patterns of opposite sign with the same magnitude. -/
theorem opposite_of_fabs {a b : BitVec w} (hs : F.neg b = !F.neg a) (hc : F.fabs b = F.fabs a) : Opposite F a b := by
  refine .inr (.inl (F.ext (by rw [hs, F.neg_negate]) ?_))
  rw [F.code_negate, ← F.code_fabs b, hc, F.code_fabs]

end generic

/-! ## The vector classes -/

theorem altivec_mul (P : Platform 32) (x y : BitVec 32) : (Build32.altivec.lane P).mul x y = binary32.fma x y binary32.posZero := by
  have e : (Build32.altivec.lane P).mul x y = binary32.fma x y (binary32.ofInt 0) := rfl
  rw [e, show binary32.ofInt 0 = binary32.posZero by decide +kernel]

theorem lane_oddOps32 (b : Build32) (P : Platform 32) : OddOps binary32 (b.lane P) where
  add := lane_add32 b P
  sub := lane_sub32' b P
  mul_l x y := by
    by_cases hb : multiplies b = true
    · rw [lane_mul32' b hb]; exact Opposite.mul_left (Opposite.negate x) y
    · cases b <;> first | exact absurd rfl hb | skip
      rw [altivec_mul, altivec_mul]
      exact fma_mul_odd x y _ _ (.inl ⟨rfl, rfl⟩)
  mul_r x y := by
    by_cases hb : multiplies b = true
    · rw [lane_mul32' b hb]; exact Opposite.mul_right x (Opposite.negate y)
    · cases b <;> first | exact absurd rfl hb | skip
      rw [altivec_mul, altivec_mul]
      exact fma_mul_odd x y _ _ (.inr ⟨rfl, rfl⟩)
  madd_l x y z := by
    cases b with
    | generic => exact mul_add_odd x y z _ _ (.inl ⟨rfl, rfl⟩)
    | sse s f => exact fused_odd f.fma x y z _ _ (.inl ⟨rfl, rfl⟩)
    | avx f => exact fused_odd f x y z _ _ (.inl ⟨rfl, rfl⟩)
    | neon =>
      exact Opposite.add (F := binary32) (Opposite.negate z) (Opposite.mul_right y (Opposite.negate x))
    | altivec => exact Opposite.fma_neg (F := binary32) x y z _ _ (.inl ⟨rfl, rfl⟩)
  madd_r x y z := by
    cases b with
    | generic => exact mul_add_odd x y z _ _ (.inr ⟨rfl, rfl⟩)
    | sse s f => exact fused_odd f.fma x y z _ _ (.inr ⟨rfl, rfl⟩)
    | avx f => exact fused_odd f x y z _ _ (.inr ⟨rfl, rfl⟩)
    | neon =>
      exact Opposite.add (F := binary32) (Opposite.negate z) (Opposite.mul_left (Opposite.negate y) x)
    | altivec => exact Opposite.fma_neg (F := binary32) x y z _ _ (.inr ⟨rfl, rfl⟩)

theorem lane_oddOps64 (b : Build64) (P : Platform 64) : OddOps binary64 (b.lane P) where
  add := (lane_math64 b P).add
  sub := (lane_math64 b P).sub
  mul_l x y := by rw [(lane_math64 b P).mul]; exact Opposite.mul_left (F := binary64) (Opposite.negate x) y
  mul_r x y := by rw [(lane_math64 b P).mul]; exact Opposite.mul_right (F := binary64) x (Opposite.negate y)
  madd_l x y z := by
    cases b with
    | generic => exact mul_add_odd x y z _ _ (.inl ⟨rfl, rfl⟩)
    | sse2 s f => exact fused_odd f x y z _ _ (.inl ⟨rfl, rfl⟩)
    | avx f => exact fused_odd f x y z _ _ (.inl ⟨rfl, rfl⟩)
  madd_r x y z := by
    cases b with
    | generic => exact mul_add_odd x y z _ _ (.inr ⟨rfl, rfl⟩)
    | sse2 s f => exact fused_odd f x y z _ _ (.inr ⟨rfl, rfl⟩)
    | avx f => exact fused_odd f x y z _ _ (.inr ⟨rfl, rfl⟩)

/-! ## The templates -/

theorem select_opposite {V : LaneOps 32} (h : V.Ieee) (c : Bool) {a a' z z' : BitVec 32} (ha : Opposite binary32 a a')
    (hz : Opposite binary32 z z') : Opposite binary32 (V.select a z (maskOf c)) (V.select a' z' (maskOf c)) := by
  rw [h.sel, h.sel]; cases c
  · exact ha
  · exact hz

attribute [local irreducible] litD litF asinPoly in
theorem vecAsin_flip {V : LaneOps 32} (h : V.Ieee) {x : BitVec 32} (hx : IsFin binary32 x) :
    Opposite binary32 (vecAsin V x) (vecAsin V (binary32.negate x)) := by
  unfold vecAsin
  dsimp only
  rw [h.sign, h.abs, negate32, flip_abs, flip_sign, h.zero]
  have hf : binary32.isNaN (x &&& 0x7fffffff#32) = false := by
    rw [BitVec.and_comm, fabs32, binary32.isNaN_fabs]; exact binary32.isFinite_not_nan hx
  rw [h.gt (x &&& 0x7fffffff#32) V.one hf (by rw [h.one]; decide)]
  refine select_opposite h _ ?_ (Opposite.zero (by decide) (by decide))
  generalize V.select _ _ _ = r
  rw [← BitVec.xor_assoc, ← negate32]
  exact Opposite.negate _

theorem tanhSmall_flip {V : LaneOps 32} (h : V.Ieee) (x a : BitVec 32) :
    Opposite binary32 (tanhSmall V x a) (tanhSmall V (binary32.negate x) a) := by
  unfold tanhSmall
  dsimp only
  rw [h.add, h.mul]
  exact Opposite.add (Opposite.mul_right _ (Opposite.negate x)) (Opposite.negate x)

theorem neg_of_pos {w : Nat} {F : Fmt w} {r : BitVec w} (h : 0 < F.toReal r) : F.neg r = false := by
  cases hn : F.neg r
  · rfl
  · rw [F.toReal_eq, hn] at h
    have h1 : (0 : ℝ) ≤ (mag F.mb (F.code r) : ℝ) / 2 ^ F.scale := by positivity
    rw [if_pos rfl] at h
    have h2 : (0:ℝ) ≤ (mag F.mb (F.code r) : ℝ) := by positivity
    nlinarith

theorem toReal_pos_neg {x : BitVec 32} (h : 0 < binary32.toReal x) : binary32.neg x = false := neg_of_pos h

/-- The sign of the hyperbolic tangent of a positive number. -/
theorem vecTanh_flip_pos (b : Build32) (hb : b.simdMath = true) (P : Platform 32) {x : BitVec 32} (hx : IsFin binary32 x)
    (h0 : 0 < binary32.toReal x) : Opposite binary32 ((b.lane P).tanh x) ((b.lane P).tanh (binary32.negate x)) := by
  have T := b.templates hb P
  have hp := (C73_tanh_range b hb P x hx).2.1 h0
  have hx' : IsFin binary32 (binary32.negate x) := by unfold IsFin; rw [binary32.isFinite_negate]; exact hx
  rw [T.tanh] at hp ⊢
  rw [vecTanh_eq T.ieee hx rfl] at hp ⊢
  rw [vecTanh_eq T.ieee hx' rfl, binary32.fabs_negate, binary32.toReal_negate, abs_neg, binary32.neg_negate]
  rw [neg_of_pos h0] at hp ⊢
  by_cases h1 : |binary32.toReal x| < 0.625
  · rw [if_pos h1, if_pos h1]
    exact tanhSmall_flip T.ieee x _
  · rw [if_neg h1] at hp
    rw [if_neg h1, if_neg h1]
    generalize (if 22 < |binary32.toReal x| then (0x3f800000#32 : BitVec 32) else _) = L at hp ⊢
    have e : L ||| signBit false = L := by simp [signBit]
    rw [e] at hp ⊢
    rw [or_signBit (neg_of_pos hp)]
    refine .inr (.inl ?_)
    rw [negate32]; rfl

theorem vecTanh_flip (b : Build32) (hb : b.simdMath = true) (P : Platform 32) {x : BitVec 32} (hx : IsFin binary32 x) :
    Opposite binary32 ((b.lane P).tanh x) ((b.lane P).tanh (binary32.negate x)) := by
  have hx' : IsFin binary32 (binary32.negate x) := by unfold IsFin; rw [binary32.isFinite_negate]; exact hx
  rcases lt_trichotomy (binary32.toReal x) 0 with h | h | h
  · have := vecTanh_flip_pos b hb P hx' (by rw [binary32.toReal_negate]; linarith)
    rw [binary32.negate_negate] at this
    exact this.symm
  · refine opposite_of_real (C73_tanh b hb P x hx).1 (C73_tanh b hb P _ hx').1 ?_
    rw [(C73_tanh_range b hb P x hx).2.2.1 h, (C73_tanh_range b hb P _ hx').2.2.1 (by rw [binary32.toReal_negate, h]; simp)]
    simp
  · exact vecTanh_flip_pos b hb P hx h

end Nova
