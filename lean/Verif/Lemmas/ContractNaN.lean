import Verif.Lemmas.NaNs
import Verif.Lemmas.Contract

/-!
# NaNs in expressions whose products may be fused into sums
-/

namespace Nova
open FP VecMath

/-- An operand with a NaN in it. -/
def Operand.NaN : Operand 32 → Prop
  | .reg x => binary32.N x
  | .prod x y => binary32.N x ∨ binary32.N y

theorem Operand.NaN.value {a : Operand 32} (h : a.NaN) : binary32.N (binary32.value a) := by
  cases a with
  | reg x => exact h
  | prod x y => rcases h with h | h
                · exact Fmt.N.mul_l h
                · exact Fmt.N.mul_r h

theorem n_negate {x : BitVec 32} (h : binary32.N x) : binary32.N (binary32.negate x) := by
  unfold Fmt.N at *; rw [binary32.isNaN_negate]; exact h

namespace Contract
variable {c : Bool} {V : LaneOps 32} {x y z r : BitVec 32} {a b : Operand 32}

theorem add_nan (h : a.NaN ∨ b.NaN) : ∀ r ∈ add c a b, binary32.N r := by
  intro r hr
  rcases mem_sums hr with rfl | ⟨-, x, y, rfl, rfl⟩ | ⟨-, x, y, rfl, rfl⟩
  · rcases h with h | h
    · exact Fmt.N.add_l h.value
    · exact Fmt.N.add_r h.value
  · rcases h with (h | h) | h
    · exact Fmt.N.fma_1 h
    · exact Fmt.N.fma_2 h
    · exact Fmt.N.fma_3 h.value
  · rcases h with h | (h | h)
    · exact Fmt.N.fma_3 h.value
    · exact Fmt.N.fma_1 h
    · exact Fmt.N.fma_2 h

theorem sub_nan (h : a.NaN ∨ b.NaN) : ∀ r ∈ sub c a b, binary32.N r := by
  intro r hr
  rcases mem_diffs hr with rfl | ⟨-, x, y, rfl, rfl⟩ | ⟨-, x, y, rfl, rfl⟩
  · rcases h with h | h
    · exact Fmt.N.sub_l h.value
    · exact Fmt.N.sub_r h.value
  · rcases h with (h | h) | h
    · exact Fmt.N.fma_1 h
    · exact Fmt.N.fma_2 h
    · exact Fmt.N.fma_3 (n_negate h.value)
  · rcases h with h | (h | h)
    · exact Fmt.N.fma_3 h.value
    · exact Fmt.N.fma_1 (n_negate h)
    · exact Fmt.N.fma_2 h

theorem reg_nan (h : binary32.N x) : (Operand.reg x).NaN := h
theorem prod_nan_l (h : binary32.N x) : (Operand.prod x y).NaN := .inl h
theorem prod_nan_r (h : binary32.N y) : (Operand.prod x y).NaN := .inr h

section
attribute [local irreducible] litD litF Fmt.add Fmt.mul Fmt.div Fmt.sub Fmt.fma Fmt.ltb Fmt.leb Fmt.eqb
  Fmt.roundInt Fmt.toInt32 Fmt.ofInt32 Fmt.sqrt

theorem reduceArg_nan (hx : binary32.N x) : ∀ r ∈ reduceArg c x y, binary32.N r := by
  intro r hr
  unfold reduceArg at hr
  simp only [List.mem_flatMap] at hr
  obtain ⟨p, hp, q, hq, hr⟩ := hr
  exact sub_nan (.inl (reg_nan (sub_nan (.inl (reg_nan (sub_nan (.inl (reg_nan hx)) p hp))) q hq))) r hr

theorem cosPoly_nan (hz : binary32.N z) : ∀ r ∈ cosPoly c z, binary32.N r := by
  intro r hr
  unfold cosPoly at hr
  simp only [List.mem_flatMap] at hr
  obtain ⟨_, _, _, _, q, hq, hr⟩ := hr
  exact add_nan (.inl (reg_nan (sub_nan (.inl (prod_nan_r hz)) q hq))) r hr

theorem sinPoly_nan (hb : binary32.N x) : ∀ r ∈ sinPoly c z x, binary32.N r := by
  intro r hr
  unfold sinPoly at hr
  simp only [List.mem_flatMap] at hr
  obtain ⟨_, _, _, _, hr⟩ := hr
  exact add_nan (.inr (reg_nan hb)) r hr

theorem tanPoly_nan (hx : binary32.N x) : ∀ r ∈ tanPoly c x, binary32.N r := by
  intro r hr
  unfold tanPoly at hr
  simp only [List.mem_flatMap] at hr
  obtain ⟨_, _, _, _, _, _, _, _, _, _, hr⟩ := hr
  exact add_nan (.inl (reg_nan hx)) r hr

theorem vecSin_nan (h : V.Ieee) (hx : binary32.N x) : ∀ r ∈ vecSin c V x, binary32.N r := by
  intro r hr
  unfold vecSin at hr
  simp only [List.mem_flatMap, List.mem_map, h.sign, h.abs] at hr
  obtain ⟨b, hb, p, hp, q, hq, rfl⟩ := hr
  obtain ⟨y, hy⟩ := swap_sign (quadrant V (x &&& 0x7fffffff#32))
  rw [hy, ← BitVec.xor_assoc]
  have hb := reduceArg_nan (nan_and_abs hx) b hb
  exact nan_xor_sign rfl (nan_xor_sign rfl
    (intMaskEq_sel h _ _ (cosPoly_nan hb.mul_l p hp) (sinPoly_nan hb q hq)))

theorem vecCos_nan (h : V.Ieee) (hx : binary32.N x) : ∀ r ∈ vecCos c V x, binary32.N r := by
  intro r hr
  unfold vecCos at hr
  simp only [List.mem_flatMap, List.mem_map, h.intAndnot, h.abs] at hr
  obtain ⟨b, hb, p, hp, q, hq, rfl⟩ := hr
  obtain ⟨y, hy⟩ := swap_sign (~~~(quadrant V (x &&& 0x7fffffff#32) - 2#32))
  rw [hy]
  have hb := reduceArg_nan (nan_and_abs hx) b hb
  exact nan_xor_sign rfl (intMaskEq_sel h _ _ (cosPoly_nan hb.mul_l p hp) (sinPoly_nan hb q hq))

theorem vecTan_nan (h : V.Ieee) (hx : binary32.N x) : ∀ r ∈ vecTan c V x, binary32.N r := by
  intro r hr
  unfold vecTan at hr
  simp only [List.mem_flatMap, List.mem_map, h.sign, h.abs] at hr
  obtain ⟨b, hb, p, hp, rfl⟩ := hr
  have hp := tanPoly_nan (reduceArg_nan (nan_and_abs hx) b hb) p hp
  refine nan_xor_sign rfl (intMaskEq_sel h _ _ ?_ hp)
  rw [h.div]; exact Fmt.N.div_r hp

theorem vecAtan_nan (h : V.Ieee) (hgt : ∀ x y, ∃ c, V.maskGt x y = maskOf c) (hx : binary32.N x) :
    ∀ r ∈ vecAtan c V x, binary32.N r := by
  intro r hr
  unfold vecAtan at hr
  simp only [List.mem_map, h.sign, h.abs] at hr
  obtain ⟨p, hp, rfl⟩ := hr
  refine nan_xor_sign rfl ?_
  have ha := nan_and_abs hx
  generalize x &&& 0x7fffffff#32 = a at ha hp
  unfold atanAbs at hp
  dsimp only at hp
  obtain ⟨c1, e1⟩ := hgt a (litD 0.41421356237309504880168872420969807856967187537695)
  obtain ⟨c2, e2⟩ := hgt a (litD 2.41421356237309504880168872420969807856967187537698)
  rw [e1, e2] at hp
  have hsel : binary32.N (V.select a (V.select (V.div (V.sub a V.one) (V.add a V.one)) (V.div (V.neg V.one) a)
      (maskOf c2)) (maskOf c1)) := by
    refine nan_sel h _ ha (nan_sel h _ ?_ ?_)
    · rw [h.div, h.sub]; exact ha.sub_l.div_l
    · rw [h.div]; exact Fmt.N.div_r ha
  rw [List.mem_flatMap] at hp
  obtain ⟨q, -, hp⟩ := hp
  refine add_nan (.inl ?_) p hp
  rw [h.add] at hsel ⊢
  exact Fmt.N.add_r hsel

theorem asinPoly_nan (hx : binary32.N x) : ∀ r ∈ asinPoly c x, binary32.N r := by
  intro r hr
  unfold asinPoly at hr
  simp only [List.mem_flatMap] at hr
  obtain ⟨_, _, hr⟩ := hr
  exact add_nan (.inl (reg_nan hx)) r hr

theorem vecAsin_nan (h : V.Ieee) (hg : V.GtFalse) (hx : binary32.N x) : ∀ r ∈ vecAsin c V x, binary32.N r := by
  intro r hr
  unfold vecAsin at hr
  have ha := nan_and_abs hx
  simp only [List.mem_map, h.sign, h.abs, hg _ _ ha, h.sel, Bool.false_eq_true, if_false] at hr
  obtain ⟨p, hp, rfl⟩ := hr
  exact nan_xor_sign rfl (asinPoly_nan ha p hp)

theorem vecAcos_nan (h : V.Ieee) (hg : V.GtFalse) (hx : binary32.N x) : ∀ r ∈ vecAcos c V x, binary32.N r := by
  intro r hr
  unfold vecAcos at hr
  have ha := nan_and_abs hx
  simp only [List.mem_map, h.abs, hg _ _ ha, hg _ _ hx, h.sel, Bool.false_eq_true, if_false] at hr
  obtain ⟨p, hp, rfl⟩ := hr
  rw [h.sub, h.add]
  exact Fmt.N.sub_r (vecAsin_nan h hg hx p hp).add_l

theorem expReduce_nan (hx : a.NaN) : ∀ r ∈ expReduce c a z, binary32.N r := by
  intro r hr
  unfold expReduce at hr
  simp only [List.mem_flatMap] at hr
  obtain ⟨p, hp, hr⟩ := hr
  exact sub_nan (.inl (reg_nan (sub_nan (.inl hx) p hp))) r hr

theorem expPoly_nan (hx : binary32.N x) : ∀ r ∈ expPoly c y x, binary32.N r := by
  intro r hr
  unfold expPoly at hr
  simp only [List.mem_flatMap] at hr
  obtain ⟨_, _, _, _, _, _, _, _, _, _, hr⟩ := hr
  exact add_nan (.inr (prod_nan_l hx)) r hr

theorem vecExp_nan (h : V.NaNs) (hg : V.GtFalse) (hx : a.NaN) : ∀ r ∈ vecExp c V a, binary32.N r := by
  intro r hr
  unfold vecExp at hr
  have hv := hx.value
  simp only [List.mem_flatMap, List.mem_map, hg _ _ hv, lt_nan h.toIeee _ hv, h.sel, Bool.false_eq_true, if_false] at hr
  obtain ⟨p, hp, q, hq, rfl⟩ := hr
  exact ldexp_nan h.toIeee (expPoly_nan (expReduce_nan hx p hp) q hq) (expScale_nan h hv)

theorem vecExpTanh_nan (h : V.NaNs) (hx : binary32.N x) : ∀ r ∈ vecExpTanh c V x, binary32.N r := by
  intro r hr
  unfold vecExpTanh at hr
  simp only [List.mem_flatMap, List.mem_map] at hr
  obtain ⟨p, hp, q, hq, rfl⟩ := hr
  exact ldexp_nan h.toIeee (expPoly_nan (expReduce_nan (reg_nan hx) p hp) q hq) (expScale_nan h hx)

theorem vecTanh_nan (h : V.NaNs) (hg : V.GtFalse) (hx : binary32.N x) : ∀ r ∈ vecTanh c V x, binary32.N r := by
  intro r hr
  unfold vecTanh at hr
  have ha := nan_xor_sign (y := x) rfl hx
  simp only [List.mem_flatMap, List.mem_map, h.sign, hg _ _ ha, lt_nan h.toIeee _ ha, h.sel, Bool.false_eq_true,
    if_false] at hr
  obtain ⟨e, he, q, -, rfl⟩ := hr
  refine nan_or_sign rfl ?_
  rw [h.add] at he
  rw [h.sub, h.div, h.add]
  exact Fmt.N.sub_r (Fmt.N.div_r (vecExpTanh_nan h ha.add_l e he).add_l)

theorem vecPow_nan (h : V.NaNs) (hg : V.GtFalse) (hx : binary32.eqb x 0#32 = false) (hy : binary32.N y) :
    ∀ r ∈ vecPow c V x y, binary32.N r := by
  intro r hr
  unfold vecPow at hr
  simp only [List.mem_flatMap, List.mem_map, h.eq, h.zero, hx, h.sel, Bool.false_eq_true, if_false] at hr
  obtain ⟨l, _, s, hs, rfl⟩ := hr
  exact vecExp_nan h hg (prod_nan_l hy) s hs

theorem madd_nan (hm : ∀ x y z, V.madd x y z = binary32.add (binary32.mul x y) z ∨ V.madd x y z = binary32.fma x y z)
    (hx : binary32.N x ∨ binary32.N y ∨ binary32.N z) : ∀ r ∈ madd c V x y z, binary32.N r := by
  intro r hr
  unfold madd at hr
  rcases List.mem_cons.mp hr with rfl | hr
  · rcases hm x y z with e | e <;> rw [e] <;> rcases hx with hx | hx | hx
    · exact hx.mul_l.add_l
    · exact (Fmt.N.mul_r hx).add_l
    · exact Fmt.N.add_r hx
    · exact Fmt.N.fma_1 hx
    · exact Fmt.N.fma_2 hx
    · exact Fmt.N.fma_3 hx
  · cases c
    · cases hr
    · rcases hx with hx | hx | hx
      · exact add_nan (.inl (prod_nan_l hx)) r hr
      · exact add_nan (.inl (prod_nan_r hx)) r hr
      · exact add_nan (.inr (reg_nan hx)) r hr

end
end Contract
end Nova
