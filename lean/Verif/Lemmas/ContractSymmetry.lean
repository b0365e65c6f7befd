import Verif.Lemmas.Ranges
import Verif.Lemmas.PolarityLanes

/-!
# Negated arguments of expressions whose products may be fused into sums

The possible results of an expression are listed in an order which does not depend on the values, so the elements at the
same place are the results of the same choice of fused operations.
-/

namespace Nova
open FP VecMath Spec

section lists
variable {α β γ δ : Type} {R : α → β → Prop} {S : γ → δ → Prop}

theorem forall₂_flatMap_same {l : List α} {f : α → List γ} {g : α → List δ} (h : ∀ a ∈ l, List.Forall₂ S (f a) (g a)) :
    List.Forall₂ S (l.flatMap f) (l.flatMap g) := by
  induction l with
  | nil => exact .nil
  | cons a l ih =>
    rw [List.flatMap_cons, List.flatMap_cons]
    exact List.rel_append (h a List.mem_cons_self) (ih fun b hb => h b (List.mem_cons_of_mem a hb))

theorem forall₂_map_same {l : List α} {f : α → γ} {g : α → δ} (h : ∀ a ∈ l, S (f a) (g a)) :
    List.Forall₂ S (l.map f) (l.map g) := by
  induction l with
  | nil => exact .nil
  | cons a l ih =>
    exact .cons (h a List.mem_cons_self) (ih fun b hb => h b (List.mem_cons_of_mem a hb))

theorem forall₂_map_of {l : List α} {l' : List β} {f : α → γ} {g : β → δ} (hl : List.Forall₂ R l l')
    (h : ∀ a ∈ l, ∀ b, R a b → S (f a) (g b)) : List.Forall₂ S (l.map f) (l'.map g) := by
  induction hl with
  | nil => exact .nil
  | cons hab _ ih =>
    exact .cons (h _ List.mem_cons_self _ hab) (ih fun a ha b hb => h a (List.mem_cons_of_mem _ ha) b hb)

end lists

namespace Contract
variable {c : Bool} {V : LaneOps 32} {x y r : BitVec 32}

section
attribute [local irreducible] litD litF reduceArg cosPoly sinPoly tanPoly atanAbs

theorem vecSin_flip (h : V.Masks) (x : BitVec 32) :
    vecSin c V (binary32.negate x) = (vecSin c V x).map binary32.negate := by
  unfold vecSin
  dsimp only
  rw [h.sign, h.abs, negate32, flip_abs, flip_sign, List.map_flatMap]
  congr 1; funext b
  rw [List.map_flatMap]
  congr 1; funext p
  rw [List.map_map]
  congr 1; funext q
  rw [Function.comp, negate32]
  generalize V.select _ _ _ = r
  generalize (quadrant V _ &&& 4#32) <<< 29 = s
  ac_rfl

theorem vecCos_flip (h : V.Masks) (x : BitVec 32) : vecCos c V (binary32.negate x) = vecCos c V x := by
  unfold vecCos
  simp only [h.abs, negate32, flip_abs]

theorem vecTan_flip (h : V.Masks) (x : BitVec 32) :
    vecTan c V (binary32.negate x) = (vecTan c V x).map binary32.negate := by
  unfold vecTan
  simp only [h.sign, h.abs, negate32, flip_abs, flip_sign, List.map_flatMap, List.map_map]
  congr 1; funext b
  congr 1; funext p
  simp only [Function.comp, negate32]
  ac_rfl

theorem vecAtan_flip (h : V.Masks) (x : BitVec 32) :
    vecAtan c V (binary32.negate x) = (vecAtan c V x).map binary32.negate := by
  unfold vecAtan
  simp only [h.sign, h.abs, negate32, flip_abs, flip_sign, List.map_map]
  congr 1; funext b
  simp only [Function.comp, negate32]
  ac_rfl

end

theorem opposites_of_map {f : BitVec 32 → List (BitVec 32)} (h : f (binary32.negate x) = (f x).map binary32.negate) :
    List.Forall₂ (Opposite binary32) (f x) (f (binary32.negate x)) := by
  rw [h]
  have := forall₂_map_same (l := f x) (S := Opposite binary32) (f := id) (g := binary32.negate)
    fun a _ => Opposite.negate a
  rwa [List.map_id] at this

theorem vecAsin_flip (h : V.Ieee) (hx : IsFin binary32 x) :
    List.Forall₂ (Opposite binary32) (vecAsin c V x) (vecAsin c V (binary32.negate x)) := by
  have hf : binary32.isNaN (x &&& 0x7fffffff#32) = false := by
    rw [BitVec.and_comm, fabs32, binary32.isNaN_fabs]; exact binary32.isFinite_not_nan hx
  unfold vecAsin
  dsimp only
  rw [h.sign, h.abs, negate32, flip_abs, flip_sign, h.zero]
  rw [h.gt (x &&& 0x7fffffff#32) V.one hf (by rw [h.one]; decide)]
  refine forall₂_map_same fun a _ => ?_
  refine select_opposite h _ ?_ (Opposite.zero (by decide) (by decide))
  generalize V.select _ _ _ = r
  rw [← BitVec.xor_assoc, ← negate32]
  exact Opposite.negate _

theorem tanhSmall_flip (x a : BitVec 32) :
    List.Forall₂ (Opposite binary32) (tanhSmall c x a) (tanhSmall c (binary32.negate x) a) := by
  unfold tanhSmall
  refine forall₂_flatMap_same fun p _ => ?_
  unfold add Fmt.sums
  refine .cons (mul_add_odd _ _ _ _ _ (.inr ⟨rfl, rfl⟩)) ?_
  cases c
  · exact .nil
  · exact .cons (Opposite.fma_neg _ _ _ _ _ (.inr ⟨rfl, rfl⟩)) .nil

theorem vecTanh_flip_pos (h : V.Ieee) (hV : IsX86Class V) (hx : IsFin binary32 x)
    (h0 : |binary32.toReal x| < ((625 / 1000 : ℚ) : ℝ) ∨ 0 < binary32.toReal x) :
    List.Forall₂ (Opposite binary32) (vecTanh c V x) (vecTanh c V (binary32.negate x)) := by
  have hf : IsFin binary32 (binary32.fabs x) := by unfold IsFin; rw [binary32.isFinite_fabs]; exact hx
  have va : binary32.toReal (binary32.fabs x) = |binary32.toReal x| := by rw [binary32.toReal_fabs]
  have ea : x ^^^ signBit (binary32.neg x) = binary32.fabs x := by
    rw [← sign_and]; exact binary32.xor_sign x
  have ea' : binary32.negate x ^^^ signBit (binary32.neg (binary32.negate x)) = binary32.fabs x := by
    rw [← sign_and, ← binary32.fabs_negate x]; exact binary32.xor_sign _
  have hp : ∀ r ∈ vecTanh c V x, 0 < binary32.toReal x → 0 < binary32.toReal r := by
    intro r hr h0
    obtain ⟨-, e⟩ := vecTanh_error h hV hx r hr
    have ht : 0 < Real.tanh (binary32.toReal x) := by
      rw [Real.tanh_eq_sinh_div_cosh]
      exact div_pos (Real.sinh_pos_iff.mpr h0) (Real.cosh_pos _)
    rw [abs_of_pos ht] at e
    have := (abs_le.mp e).1
    norm_num at *; linarith
  unfold vecTanh at hp ⊢
  dsimp only at hp ⊢
  rw [h.sign, sign_and, sign_and, ea, ea', gtHalf h hf (q := 22) (by decide +kernel),
    ltHalf h hf (q := 625 / 1000) (by decide +kernel), va, h.one] at *
  simp only [h.sel, decide_eq_true_eq] at hp ⊢
  refine forall₂_flatMap_same fun E hE => ?_
  refine forall₂_map_of (tanhSmall_flip x _) fun a ha b hab => ?_
  have hq := hp _ (List.mem_flatMap.mpr ⟨E, hE, List.mem_map.mpr ⟨a, ha, rfl⟩⟩)
  by_cases h1 : |binary32.toReal x| < ((625 / 1000 : ℚ) : ℝ)
  · rw [if_pos h1, if_pos h1]; exact hab
  · have h0 := h0.resolve_left h1
    have hq := hq h0
    rw [if_neg h1] at hq
    rw [if_neg h1, if_neg h1]
    rw [binary32.neg_negate]
    rw [neg_of_pos h0] at hq ⊢
    generalize (if ((22 : ℚ) : ℝ) < |binary32.toReal x| then (0x3f800000#32 : BitVec 32) else _) = L at hq ⊢
    have e : L ||| signBit false = L := by simp [signBit]
    rw [e] at hq ⊢
    rw [Bool.not_false, or_signBit (neg_of_pos hq)]
    refine .inr (.inl ?_)
    rw [negate32]; rfl

theorem opposites_symm {l l' : List (BitVec 32)} (h : List.Forall₂ (Opposite binary32) l l') :
    List.Forall₂ (Opposite binary32) l' l := by
  induction h with
  | nil => exact .nil
  | cons h _ ih => exact .cons h.symm ih

theorem vecTanh_flip (h : V.Ieee) (hV : IsX86Class V) (hx : IsFin binary32 x) :
    List.Forall₂ (Opposite binary32) (vecTanh c V x) (vecTanh c V (binary32.negate x)) := by
  have hx' : IsFin binary32 (binary32.negate x) := by unfold IsFin; rw [binary32.isFinite_negate]; exact hx
  rcases lt_trichotomy (binary32.toReal x) 0 with h0 | h0 | h0
  · have := vecTanh_flip_pos (c := c) h hV hx' (.inr (by rw [binary32.toReal_negate]; linarith))
    rw [binary32.negate_negate] at this
    exact opposites_symm this
  · exact vecTanh_flip_pos h hV hx (.inl (by rw [h0]; norm_num))
  · exact vecTanh_flip_pos h hV hx (.inr h0)

end Contract
end Nova
