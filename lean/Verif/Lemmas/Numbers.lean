import Verif.SpecNumbers
import Verif.Lemmas.Scale
import Verif.Props.C85_NaN

/-! # Operations that return numbers -/

namespace Nova
open FP VecMath Spec

section generic
variable {w : Nat} {F : Fmt w}

theorem num_of_fin {x : BitVec w} (h : IsFin F x) : Num F x := F.isFinite_not_nan h

theorem fin_or_inf {x : BitVec w} (h : Num F x) : IsFin F x ∨ F.isInf x = true := by
  by_cases hi : F.isInf x = true
  · exact .inr hi
  · exact .inl (F.finite_of h (by simpa using hi))

theorem code_inf {x : BitVec w} (h : F.isInf x = true) : F.code x ≠ 0 := by
  have := F.infCode_pos
  unfold Fmt.isInf at h
  simp only [decide_eq_true_eq] at h
  omega

theorem code_of_real {x : BitVec w} (h : F.toReal x ≠ 0) : F.code x ≠ 0 := fun hc => by
  rw [F.toReal_eq, hc, mag_zero] at h
  simp at h

/-- A sum with a finite operand is a number. -/
theorem num_add {x y : BitVec w} (hx : Num F x) (hy : Num F y) (h : IsFin F x ∨ IsFin F y) : Num F (F.add x y) := by
  rcases fin_or_inf hx with fx | ix <;> rcases fin_or_inf hy with fy | iy
  · exact (Fmt.add_rounds fx fy).1
  · unfold Num Fmt.add
    rw [hx, hy, Bool.or_self, if_neg (by decide), if_neg (by rw [F.isFinite_not_inf fx]; decide), if_pos iy]
    exact hy
  · unfold Num Fmt.add
    rw [hx, hy, Bool.or_self, if_neg (by decide), if_pos ix, F.isFinite_not_inf fy, Bool.false_and, if_neg (by decide)]
    exact hx
  · exact (h.elim (fun h => not_fin_of_inf ix h) fun h => not_fin_of_inf iy h).elim

theorem num_negate {x : BitVec w} (h : Num F x) : Num F (F.negate x) := by
  unfold Num; rw [F.isNaN_negate]; exact h

theorem num_sub_fin {x y : BitVec w} (hx : Num F x) (hy : Num F y) (h : IsFin F x ∨ IsFin F y) : Num F (F.sub x y) := by
  rw [F.sub_num hx hy]
  refine num_add hx (num_negate hy) (h.imp id fun h => ?_)
  unfold IsFin; rw [F.isFinite_negate]; exact h

theorem num_roundInt (m : Fmt.Mode) {x : BitVec w} (hx : Num F x) : Num F (F.roundInt m x) := by
  unfold Num Fmt.roundInt
  rw [hx, if_neg (by decide)]
  split
  · exact hx
  · exact isNaN_packRnd F _ _ _

theorem num_div {x y : BitVec w} (hx : IsFin F x) (hy : IsFin F y) (h : F.toReal y ≠ 0) : Num F (F.div x y) :=
  (Fmt.div_rounds hx hy (code_of_real h)).1

theorem num_ofInt (k : ℤ) : Num F (F.ofInt k) := by
  unfold Num Fmt.ofInt
  split
  · exact F.isNaN_posZero
  · exact isNaN_packRnd F _ _ _

theorem num_fma {x y z : BitVec w} (hx : IsFin F x) (hy : IsFin F y) (hz : IsFin F z) : Num F (F.fma x y z) :=
  (Fmt.fma_rounds hx hy hz).1

theorem num_mul {x y : BitVec w} (hx : IsFin F x) (hy : IsFin F y) : Num F (F.mul x y) := (Fmt.mul_rounds hx hy).1

theorem num_muladd {x y z : BitVec w} (hx : IsFin F x) (hy : IsFin F y) (hz : IsFin F z) : Num F (F.add (F.mul x y) z) :=
  num_add (num_mul hx hy) (num_of_fin hz) (.inr hz)

theorem num_madd (f : Bool) {x y z : BitVec w} (hx : IsFin F x) (hy : IsFin F y) (hz : IsFin F z) :
    Num F (if f then F.fma x y z else F.add (F.mul x y) z) := by
  cases f
  · exact num_muladd hx hy hz
  · exact num_fma hx hy hz

/-- The rounding of a value within the finite numbers is finite. -/
theorem fin_of_rnd {v : ℝ} {r c : BitVec w} (h : F.IsRnd v r) (hc : IsFin F c) (hv : |v| ≤ F.toReal c) : IsFin F r := by
  have hn := num_of_fin (F := F) hc
  rw [abs_le] at hv
  have u := h.ereal.mono (Fmt.IsRndE.self hn) (by rw [F.toEReal_of_finite hc]; exact_mod_cast hv.2)
  have hcn : IsFin F (F.negate c) := by unfold IsFin; rw [F.isFinite_negate]; exact hc
  have l := (Fmt.IsRndE.self (num_negate hn)).mono h.ereal
    (by rw [F.toEReal_of_finite hcn, F.toReal_negate]; exact_mod_cast hv.1)
  rw [F.toEReal_of_finite hc] at u
  rw [F.toEReal_of_finite hcn] at l
  rcases Fmt.num_cases h.1 with ⟨-, -, e⟩ | ⟨-, -, e⟩ | ⟨f, -⟩
  · rw [e] at l; exact absurd l (by simp)
  · rw [e] at u; exact absurd u (by simp)
  · exact f

/-- What the arithmetic of a class makes of finite arguments. -/
structure NumberOps (F : Fmt w) (A : Arith (BitVec w)) (d : Bool) : Prop where
  order : OrderOps F A
  div : d = true → ∀ x y, IsFin F x → IsFin F y → F.toReal y ≠ 0 → Num F (A.div x y)
  madd : ∀ x y z, IsFin F x → IsFin F y → IsFin F z → Num F (A.madd x y z)
  abs : ∀ x, A.abs x = F.fabs x
  sign : ∀ x, IsFin F x → Num F (A.sign x)
  round : ∀ x, IsFin F x → Num F (A.round x)
  floor : ∀ x, IsFin F x → Num F (A.floor x)
  ceil : ∀ x, IsFin F x → Num F (A.ceil x)
  frac : ∀ x, A.frac x = F.sub x (A.floor x)
  trunc : ∀ x y, IsFin F x → A.trunc x = .ok y → Num F y
  undenormalize : ∀ x, IsFin F x → Num F (A.undenormalize x)
  softclip : ∀ x, IsFin F x → Num F (A.softclip x)
  cmp : ∀ r : Rel, ∀ x y, IsFin F x → IsFin F y → Num F (r.op.f A x y)

namespace NumberOps
variable {A : Arith (BitVec w)} {d : Bool} (H : NumberOps F A d)
include H

theorem add {x y : BitVec w} (hx : Num F x) (hy : Num F y) (h : IsFin F x ∨ IsFin F y) : Num F (A.add x y) := by
  rw [H.order.add]; exact num_add hx hy h

theorem sub {x y : BitVec w} (hx : Num F x) (hy : Num F y) (h : IsFin F x ∨ IsFin F y) : Num F (A.sub x y) := by
  rw [H.order.sub]; exact num_sub_fin hx hy h

theorem mul {x y : BitVec w} (hx : IsFin F x) (hy : IsFin F y) : Num F (A.mul x y) :=
  H.order.mul_ok _ _ (num_of_fin hx) (num_of_fin hy) (.inl ⟨hx, hy⟩)

/-- A product with a finite number that is not zero. -/
theorem mul_l {c y : BitVec w} (hc : IsFin F c) (h0 : F.code c ≠ 0) (hy : Num F y) : Num F (A.mul c y) :=
  (fin_or_inf hy).elim (fun f => H.mul hc f) fun i =>
    H.order.mul_ok _ _ (num_of_fin hc) hy (.inr ⟨h0, code_inf i⟩)

theorem mul_r {c y : BitVec w} (hc : IsFin F c) (h0 : F.code c ≠ 0) (hy : Num F y) : Num F (A.mul y c) :=
  (fin_or_inf hy).elim (fun f => H.mul f hc) fun i =>
    H.order.mul_ok _ _ hy (num_of_fin hc) (.inr ⟨code_inf i, h0⟩)

theorem cube {x : BitVec w} (hx : IsFin F x) : Num F (A.cube x) := by
  have h2 := H.mul hx hx
  have key : IsFin F (A.mul x x) ∨ F.code x ≠ 0 := by
    by_cases h0 : F.code x = 0
    · refine .inl ?_
      have r := H.order.mul x x h2
      have e : F.toEReal x = 0 := by
        rw [F.toEReal_of_finite hx, F.toReal_eq, h0, mag_zero]; simp
      rw [e, MulZeroClass.mul_zero] at r
      have z := Fmt.IsRndE.self (F := F) (x := F.posZero) F.isNaN_posZero
      rw [F.toEReal_posZero] at z
      have a := r.mono z le_rfl
      have b := z.mono r le_rfl
      have := le_antisymm a b
      rw [F.toEReal_posZero] at this
      rcases fin_or_inf h2 with f | i
      · exact f
      · rcases Fmt.num_cases h2 with ⟨-, -, e⟩ | ⟨-, -, e⟩ | ⟨f, -⟩
        · rw [e] at this; exact absurd this (by simp)
        · rw [e] at this; exact absurd this (by simp)
        · exact f
    · exact .inr h0
  have both : Num F (A.mul x (A.mul x x)) ∧ Num F (A.mul (A.mul x x) x) := by
    rcases key with f | h0
    · exact ⟨H.mul hx f, H.mul f hx⟩
    · exact ⟨H.mul_l hx h0 h2, H.mul_r hx h0 h2⟩
  rcases H.order.cube x with e | e <;> rw [e]
  · exact both.1
  · exact both.2

theorem max {x y : BitVec w} (hx : Num F x) (hy : Num F y) : Num F (A.max_ x y) := H.order.max.num hx hy
theorem min {x y : BitVec w} (hx : Num F x) (hy : Num F y) : Num F (A.min_ x y) := H.order.min.num hx hy

theorem zero_fin : IsFin F A.zero := by rw [H.order.zero]; exact F.isFinite_posZero

/-- Functions of two arguments. -/
theorem binary {p : Bool} (op : BinOp) {x y : BitVec w} (hx : IsFin F x) (hy : IsFin F y) (h : BinNumber F d p x y op)
    (hp : p = true → ∀ x y, IsFin F x → 0 < F.toReal x → Num F y → Num F (A.pow x y))
    (hs : p = true → ∀ x y, A.signedPow x y = Scalar.signedPow F A.pow x y) : Num F (op.f A x y) := by
  have nx := num_of_fin hx
  have ny := num_of_fin hy
  cases op with
  | plus => exact H.add nx ny (.inl hx)
  | minus => exact H.sub nx ny (.inl hx)
  | times => exact H.mul hx hy
  | over => exact H.div h.1 x y hx hy h.2
  | min => exact H.min nx ny
  | max => exact H.max nx ny
  | less => exact H.cmp .less x y hx hy
  | lessEqual => exact H.cmp .lessEqual x y hx hy
  | greater => exact H.cmp .greater x y hx hy
  | greaterEqual => exact H.cmp .greaterEqual x y hx hy
  | equal => exact H.cmp .equal x y hx hy
  | notequal => exact H.cmp .notEqual x y hx hy
  | clip2 => exact H.max (H.sub (num_of_fin H.zero_fin) ny (.inl H.zero_fin)) (H.min nx ny)
  | pow => exact hp h.1 x y hx h.2 ny
  | spow =>
    change Num F (A.signedPow x y)
    rw [hs h.1]
    unfold Scalar.signedPow
    by_cases h0 : 0 < F.toReal x
    · split
      · exact hp h.1 x y hx h0 ny
      · next hc =>
        refine absurd ?_ hc
        refine F.ltb_iff_value.mpr ⟨F.isNaN_posZero, nx, ?_⟩
        rw [F.toEReal_posZero, F.toEReal_of_finite hx]
        exact_mod_cast h0
    · have hneg : F.toReal x < 0 := lt_of_le_of_ne (not_lt.mp h0) h.2
      split
      · next hc =>
        have hc := (F.ltb_iff_value.mp hc).2.2
        rw [F.toEReal_posZero, F.toEReal_of_finite hx] at hc
        exact absurd (by exact_mod_cast hc) h0
      · refine num_negate (hp h.1 _ _ ?_ ?_ ny)
        · unfold IsFin; rw [F.isFinite_negate]; exact hx
        · rw [F.toReal_negate]; linarith
  | sum => exact H.add nx ny (.inl hx)

/-- Functions of three arguments. -/
theorem ternary (h1 : IsFin F A.one) (op : TerOp) {x y z : BitVec w} (hx : IsFin F x) (hy : IsFin F y) (hz : IsFin F z) (h : TerNumber F x op) :
    Num F (op.f A x y z) := by
  have nx := num_of_fin hx
  have ny := num_of_fin hy
  have nz := num_of_fin hz
  cases op with
  | clip => exact H.max (H.min nx nz) ny
  | muladd => exact H.madd x y z hx hy hz
  | ampmod => exact H.mul_l hx (code_of_real h) (H.add (num_of_fin h1) (H.mul hy hz) (.inl h1))
  | sum => exact H.add (H.add nx ny (.inl hx)) nz (.inr hz)

/-- Functions of four arguments at levels up to `L`. -/
theorem quad {L : ℝ} {c : BitVec w} (hc : IsFin F c) (h2 : 2 * L ≤ F.toReal c) (hL : L * L ≤ F.toReal c) (op : QuadOp)
    {x y z u : BitVec w} (hx : IsFin F x) (hy : IsFin F y) (hz : IsFin F z) (hu : IsFin F u) (h : QuadNumber F L x y z u) :
    Num F (op.f A x y z u) := by
  obtain ⟨a, b, e, f⟩ := h
  have hL0 : 0 ≤ L := (abs_nonneg _).trans a
  have times : ∀ {x y : BitVec w}, IsFin F x → IsFin F y → |F.toReal x| ≤ L → |F.toReal y| ≤ L → IsFin F (A.mul x y) := by
    intro x y hx hy a b
    have r := H.order.mul x y (H.mul hx hy)
    rw [F.toEReal_of_finite hx, F.toEReal_of_finite hy] at r
    rcases r.2 with ⟨e, -⟩ | ⟨e, -⟩ | ⟨v, e, r⟩
    · exact absurd e (by rw [← EReal.coe_mul]; exact EReal.coe_ne_top _)
    · exact absurd e (by rw [← EReal.coe_mul]; exact EReal.coe_ne_bot _)
    · rw [← EReal.coe_mul] at e
      have e' := EReal.coe_injective e
      subst e'
      refine fin_of_rnd r hc (le_trans ?_ hL)
      rw [abs_mul]
      exact mul_le_mul a b (abs_nonneg _) hL0
  have plus : ∀ {x y : BitVec w}, IsFin F x → IsFin F y → |F.toReal x| ≤ L → |F.toReal y| ≤ L → IsFin F (A.add x y) := by
    intro x y hx hy a b
    rw [H.order.add]
    refine fin_of_rnd (Fmt.add_rounds hx hy) hc (le_trans ?_ h2)
    exact (abs_add_le _ _).trans (by linarith)
  cases op with
  | mix => exact H.add (num_of_fin (times hx hy a b)) (num_of_fin (times hz hu e f)) (.inl (times hx hy a b))
  | sum => exact H.add (num_of_fin (plus hx hy a b)) (num_of_fin (plus hz hu e f)) (.inl (plus hx hy a b))

end NumberOps

end generic
end Nova
