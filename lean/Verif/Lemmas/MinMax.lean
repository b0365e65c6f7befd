import Verif.Float.Arith
import Verif.Model.Builds
import Verif.SpecFloat

/-! # Minimum and maximum functions as maxima of values -/

namespace Nova
open FP

variable {w : Nat} (F : Fmt w)

/-- A maximum function on numbers: it returns one of its operands, and the larger value. -/
structure IsMax (f : BitVec w → BitVec w → BitVec w) : Prop where
  val : ∀ x y, Num F x → Num F y → F.toEReal (f x y) = max (F.toEReal x) (F.toEReal y)
  mem : ∀ x y, Num F x → Num F y → f x y = x ∨ f x y = y

/-- A minimum function on numbers. -/
structure IsMin (f : BitVec w → BitVec w → BitVec w) : Prop where
  val : ∀ x y, Num F x → Num F y → F.toEReal (f x y) = min (F.toEReal x) (F.toEReal y)
  mem : ∀ x y, Num F x → Num F y → f x y = x ∨ f x y = y

theorem IsMax.num {F : Fmt w} {f} (h : IsMax F f) {x y : BitVec w} (hx : Num F x) (hy : Num F y) :
    Num F (f x y) := by
  rcases h.mem x y hx hy with e | e <;> rw [e] <;> assumption

theorem IsMin.num {F : Fmt w} {f} (h : IsMin F f) {x y : BitVec w} (hx : Num F x) (hy : Num F y) :
    Num F (f x y) := by
  rcases h.mem x y hx hy with e | e <;> rw [e] <;> assumption

/-- A function that returns the larger operand, any of the two if the values are equal. -/
theorem isMax_of {f : BitVec w → BitVec w → BitVec w}
    (h : ∀ x y, Num F x → Num F y →
      (f x y = x ∧ F.key y ≤ F.key x) ∨ (f x y = y ∧ F.key x ≤ F.key y)) : IsMax F f := by
  constructor
  · intro x y hx hy
    rcases h x y hx hy with ⟨e, hk⟩ | ⟨e, hk⟩
    · rw [e, max_eq_left ((F.key_le_iff_value hy hx).mp hk)]
    · rw [e, max_eq_right ((F.key_le_iff_value hx hy).mp hk)]
  · intro x y hx hy
    rcases h x y hx hy with ⟨e, -⟩ | ⟨e, -⟩
    · exact Or.inl e
    · exact Or.inr e

theorem isMin_of {f : BitVec w → BitVec w → BitVec w}
    (h : ∀ x y, Num F x → Num F y →
      (f x y = x ∧ F.key x ≤ F.key y) ∨ (f x y = y ∧ F.key y ≤ F.key x)) : IsMin F f := by
  constructor
  · intro x y hx hy
    rcases h x y hx hy with ⟨e, hk⟩ | ⟨e, hk⟩
    · rw [e, min_eq_left ((F.key_le_iff_value hx hy).mp hk)]
    · rw [e, min_eq_right ((F.key_le_iff_value hy hx).mp hk)]
  · intro x y hx hy
    rcases h x y hx hy with ⟨e, -⟩ | ⟨e, -⟩
    · exact Or.inl e
    · exact Or.inr e

theorem isMax_maxps : IsMax F F.maxps := isMax_of F fun x y hx hy => by
  unfold Fmt.maxps; rw [F.ltb_of_num hy hx]
  by_cases h : F.key y < F.key x
  · left; simp [h]; omega
  · right; simp [h]; omega

theorem isMin_minps : IsMin F F.minps := isMin_of F fun x y hx hy => by
  unfold Fmt.minps; rw [F.ltb_of_num hx hy]
  by_cases h : F.key x < F.key y
  · left; simp [h]; omega
  · right; simp [h]; omega

theorem isMax_stdMax : IsMax F F.stdMax := isMax_of F fun x y hx hy => by
  unfold Fmt.stdMax; rw [F.ltb_of_num hx hy]
  by_cases h : F.key x < F.key y
  · right; simp [h]; omega
  · left; simp [h]; omega

theorem isMin_stdMin : IsMin F F.stdMin := isMin_of F fun x y hx hy => by
  unfold Fmt.stdMin; rw [F.ltb_of_num hy hx]
  by_cases h : F.key y < F.key x
  · right; simp [h]; omega
  · left; simp [h]; omega

theorem isMax_maxArm : IsMax F F.maxArm := isMax_of F fun x y hx hy => by
  unfold Fmt.maxArm; rw [F.ltb_of_num hy hx, F.eqb_of_num hx hy]
  unfold Num at hx hy
  rw [hx, hy]
  rcases lt_trichotomy (F.key y) (F.key x) with h | h | h
  · left; simp [h]; omega
  · cases F.neg y
    · right; simp [h]
    · left; simp [h]
  · right
    have h1 : ¬ F.key y < F.key x := by omega
    have h2 : F.key x ≠ F.key y := by omega
    simp [h1, h2]; omega

theorem isMin_minArm : IsMin F F.minArm := isMin_of F fun x y hx hy => by
  unfold Fmt.minArm; rw [F.ltb_of_num hx hy, F.eqb_of_num hx hy]
  unfold Num at hx hy
  rw [hx, hy]
  rcases lt_trichotomy (F.key x) (F.key y) with h | h | h
  · left; simp [h]; omega
  · cases F.neg x
    · right; simp [h]
    · left; simp [h]
  · right
    have h1 : ¬ F.key x < F.key y := by omega
    have h2 : F.key x ≠ F.key y := by omega
    simp [h1, h2]; omega

theorem isMax_lane32 (b : Build32) (P : Platform 32) : IsMax binary32 (b.lane P).max_ := by
  cases b
  · exact isMax_stdMax _
  · exact isMax_maxps _
  · exact isMax_maxps _
  · exact isMax_maxArm _
  · exact isMax_maxArm _

theorem isMin_lane32 (b : Build32) (P : Platform 32) : IsMin binary32 (b.lane P).min_ := by
  cases b
  · exact isMin_stdMin _
  · exact isMin_minps _
  · exact isMin_minps _
  · exact isMin_minArm _
  · exact isMin_minArm _

theorem isMax_lane64 (b : Build64) (P : Platform 64) : IsMax binary64 (b.lane P).max_ := by
  cases b
  · exact isMax_stdMax _
  · exact isMax_maxps _
  · exact isMax_maxps _

theorem isMin_lane64 (b : Build64) (P : Platform 64) : IsMin binary64 (b.lane P).min_ := by
  cases b
  · exact isMin_stdMin _
  · exact isMin_minps _
  · exact isMin_minps _

/-- Numbers with the same value are the same pattern unless both are zeros. -/
theorem eq_of_value {x y : BitVec w} (hx : Num F x) (hy : Num F y) (h : F.toEReal x = F.toEReal y)
    (h0 : F.toEReal x ≠ 0) : x = y := by
  have hk := (F.key_eq_iff_value hx hy).mpr h
  have hk0 : F.key x ≠ 0 := fun hh => h0 ((F.key_zero_iff hx).mp hh)
  unfold Fmt.key at *
  apply F.ext
  · revert hk hk0
    cases F.neg x <;> cases F.neg y <;> simp <;> omega
  · revert hk hk0
    cases F.neg x <;> cases F.neg y <;> simp <;> omega

/-! ## clip -/

theorem clip_spec {A : Arith (BitVec w)} (hM : IsMax F A.max_) (hm : IsMin F A.min_)
    {v lo hi : BitVec w} (hv : Num F v) (hl : Num F lo) (hh : Num F hi) :
    Num F (Functor.clip A v lo hi) ∧
    F.toEReal (Functor.clip A v lo hi) = max (F.toEReal lo) (min (F.toEReal v) (F.toEReal hi)) := by
  unfold Functor.clip
  have h1 := hm.num hv hh
  exact ⟨hM.num h1 hl, by rw [hM.val _ _ h1 hl, hm.val _ _ hv hh, max_comm]⟩

theorem clip2_spec {A : Arith (BitVec w)} (hM : IsMax F A.max_) (hm : IsMin F A.min_)
    (hz : A.zero = F.posZero) (hs : A.sub = F.sub) {v lim : BitVec w} (hv : Num F v) (hl : Num F lim) :
    Num F (Functor.clip2 A v lim) ∧
    F.toEReal (Functor.clip2 A v lim) = max (-F.toEReal lim) (min (F.toEReal v) (F.toEReal lim)) := by
  unfold Functor.clip2
  simp only [hz, hs]
  obtain ⟨e, hn⟩ := F.toEReal_zero_sub hl
  have h1 := hm.num hv hl
  exact ⟨hM.num hn h1, by rw [hM.val _ _ hn h1, hm.val _ _ hv hl, e]⟩

end Nova
