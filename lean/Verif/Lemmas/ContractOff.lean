import Verif.Lemmas.ContractInv

/-!
# Without contraction

Without contraction there is one result, the one of the templates; with contraction that result remains possible.
-/

namespace Nova
open FP VecMath

theorem Fmt.sums_false {w : ℕ} (F : Fmt w) (a b : Operand w) : F.sums false a b = [F.add (F.value a) (F.value b)] := rfl
theorem Fmt.diffs_false {w : ℕ} (F : Fmt w) (a b : Operand w) : F.diffs false a b = [F.sub (F.value a) (F.value b)] := rfl

theorem Fmt.sums_sub {w : ℕ} (F : Fmt w) (c : Bool) (a b : Operand w) : F.sums false a b ⊆ F.sums c a b := by
  cases c
  · exact List.Subset.refl _
  · intro r h; rw [Fmt.sums_false, List.mem_singleton] at h; subst h; exact List.mem_cons_self
theorem Fmt.diffs_sub {w : ℕ} (F : Fmt w) (c : Bool) (a b : Operand w) : F.diffs false a b ⊆ F.diffs c a b := by
  cases c
  · exact List.Subset.refl _
  · intro r h; rw [Fmt.diffs_false, List.mem_singleton] at h; subst h; exact List.mem_cons_self

theorem flatMap_sub {α β : Type} {l m : List α} {f g : α → List β} (h : l ⊆ m) (hf : ∀ a, f a ⊆ g a) :
    l.flatMap f ⊆ m.flatMap g := by
  intro r hr
  rw [List.mem_flatMap] at hr ⊢
  obtain ⟨a, h1, h2⟩ := hr
  exact ⟨a, h h1, hf a h2⟩
theorem map_sub {α β : Type} {l m : List α} {f : α → β} (h : l ⊆ m) : l.map f ⊆ m.map f := by
  intro r hr
  rw [List.mem_map] at hr ⊢
  obtain ⟨a, h1, h2⟩ := hr
  exact ⟨a, h h1, h2⟩

namespace Contract

set_option linter.unusedSimpArgs false

section
variable {V : LaneOps 32} (h : V.Ieee)
include h

theorem expReduce_off (a : Operand 32) (z : BitVec 32) : expReduce false a z = [VecMath.expReduce V (binary32.value a) z] := by
  unfold expReduce VecMath.expReduce
  simp only [add, sub, Fmt.sums_false, Fmt.diffs_false, Fmt.value, List.flatMap_cons, List.flatMap_nil, List.append_nil,
    List.map_cons, List.map_nil, h.add, h.sub, h.mul]

theorem expPoly_off (one x : BitVec 32) : expPoly false one x = [VecMath.expPoly V one x] := by
  unfold expPoly VecMath.expPoly
  simp only [add, sub, Fmt.sums_false, Fmt.diffs_false, Fmt.value, List.flatMap_cons, List.flatMap_nil, List.append_nil,
    List.map_cons, List.map_nil, h.add, h.sub, h.mul]

theorem vecExp_off (a : Operand 32) : vecExp false V a = [VecMath.vecExp V (binary32.value a)] := by
  unfold vecExp VecMath.vecExp VecMath.expApprox
  simp only [add, sub, Fmt.sums_false, Fmt.diffs_false, Fmt.value, List.flatMap_cons, List.flatMap_nil, List.append_nil,
    List.map_cons, List.map_nil, h.add, h.sub, h.mul, expReduce_off h, expPoly_off h]

theorem logTail_off (x fe : BitVec 32) : logTail false x fe = [V.add (V.add x (V.sub (V.add (logPoly V x) (V.mul fe (litD (-2.12194440e-4)))) (V.mul (V.mul (litD 0.5) x) x))) (V.mul (litD 0.693359375) fe)] := by
  unfold logTail logHorner logPoly
  simp only [add, sub, Fmt.sums_false, Fmt.diffs_false, Fmt.value, List.flatMap_cons, List.flatMap_nil, List.append_nil,
    List.map_cons, List.map_nil, h.add, h.sub, h.mul]

theorem vecLog_off (x : BitVec 32) : vecLog false V x = [VecMath.vecLog V x] := by
  unfold vecLog VecMath.vecLog
  simp only [add, sub, Fmt.sums_false, Fmt.diffs_false, Fmt.value, List.flatMap_cons, List.flatMap_nil, List.append_nil,
    List.map_cons, List.map_nil, h.add, h.sub, h.mul, logTail_off h]

theorem vecExpTanh_off (x : BitVec 32) : vecExpTanh false V x = [VecMath.vecExpTanh V x] := by
  unfold vecExpTanh VecMath.vecExpTanh
  simp only [add, sub, Fmt.sums_false, Fmt.diffs_false, Fmt.value, List.flatMap_cons, List.flatMap_nil, List.append_nil,
    List.map_cons, List.map_nil, h.add, h.sub, h.mul, expReduce_off h, expPoly_off h]

theorem reduceArg_off (x y : BitVec 32) : reduceArg false x y = [VecMath.reduceArg V x y] := by
  unfold reduceArg VecMath.reduceArg
  simp only [add, sub, Fmt.sums_false, Fmt.diffs_false, Fmt.value, List.flatMap_cons, List.flatMap_nil, List.append_nil,
    List.map_cons, List.map_nil, h.add, h.sub, h.mul]

theorem cosPoly_off (z : BitVec 32) : cosPoly false z = [VecMath.cosPoly V z] := by
  unfold cosPoly VecMath.cosPoly
  simp only [add, sub, Fmt.sums_false, Fmt.diffs_false, Fmt.value, List.flatMap_cons, List.flatMap_nil, List.append_nil,
    List.map_cons, List.map_nil, h.add, h.sub, h.mul]

theorem sinPoly_off (z b : BitVec 32) : sinPoly false z b = [VecMath.sinPoly V z b] := by
  unfold sinPoly VecMath.sinPoly
  simp only [add, sub, Fmt.sums_false, Fmt.diffs_false, Fmt.value, List.flatMap_cons, List.flatMap_nil, List.append_nil,
    List.map_cons, List.map_nil, h.add, h.sub, h.mul]

theorem vecSin_off (x : BitVec 32) : vecSin false V x = [VecMath.vecSin V x] := by
  unfold vecSin VecMath.vecSin VecMath.sinAbs
  simp only [add, sub, Fmt.sums_false, Fmt.diffs_false, Fmt.value, List.flatMap_cons, List.flatMap_nil, List.append_nil,
    List.map_cons, List.map_nil, h.add, h.sub, h.mul, reduceArg_off h, cosPoly_off h, sinPoly_off h]

theorem vecCos_off (x : BitVec 32) : vecCos false V x = [VecMath.vecCos V x] := by
  unfold vecCos VecMath.vecCos
  simp only [add, sub, Fmt.sums_false, Fmt.diffs_false, Fmt.value, List.flatMap_cons, List.flatMap_nil, List.append_nil,
    List.map_cons, List.map_nil, h.add, h.sub, h.mul, reduceArg_off h, cosPoly_off h, sinPoly_off h]

theorem tanPoly_off (x : BitVec 32) : tanPoly false x = [VecMath.tanPoly V x] := by
  unfold tanPoly VecMath.tanPoly
  simp only [add, sub, Fmt.sums_false, Fmt.diffs_false, Fmt.value, List.flatMap_cons, List.flatMap_nil, List.append_nil,
    List.map_cons, List.map_nil, h.add, h.sub, h.mul]

theorem vecTan_off (x : BitVec 32) : vecTan false V x = [VecMath.vecTan V x] := by
  unfold vecTan VecMath.vecTan
  simp only [add, sub, Fmt.sums_false, Fmt.diffs_false, Fmt.value, List.flatMap_cons, List.flatMap_nil, List.append_nil,
    List.map_cons, List.map_nil, h.add, h.sub, h.mul, reduceArg_off h, tanPoly_off h]

theorem asinPoly_off (x : BitVec 32) : asinPoly false x = [VecMath.asinPoly V x] := by
  unfold asinPoly asinInner VecMath.asinPoly
  simp only [add, sub, Fmt.sums_false, Fmt.diffs_false, Fmt.value, List.flatMap_cons, List.flatMap_nil, List.append_nil,
    List.map_cons, List.map_nil, h.add, h.sub, h.mul]

theorem vecAsin_off (x : BitVec 32) : vecAsin false V x = [VecMath.vecAsin V x] := by
  unfold vecAsin VecMath.vecAsin
  simp only [add, sub, Fmt.sums_false, Fmt.diffs_false, Fmt.value, List.flatMap_cons, List.flatMap_nil, List.append_nil,
    List.map_cons, List.map_nil, h.add, h.sub, h.mul, asinPoly_off h]

theorem vecAcos_off (x : BitVec 32) : vecAcos false V x = [VecMath.vecAcos V x] := by
  unfold vecAcos VecMath.vecAcos
  simp only [add, sub, Fmt.sums_false, Fmt.diffs_false, Fmt.value, List.flatMap_cons, List.flatMap_nil, List.append_nil,
    List.map_cons, List.map_nil, h.add, h.sub, h.mul, vecAsin_off h]

theorem vecAtan_off (x : BitVec 32) : vecAtan false V x = [VecMath.vecAtan V x] := by
  unfold vecAtan atanAbs atanInner VecMath.vecAtan VecMath.atanAbs
  simp only [add, sub, Fmt.sums_false, Fmt.diffs_false, Fmt.value, List.flatMap_cons, List.flatMap_nil, List.append_nil,
    List.map_cons, List.map_nil, h.add, h.sub, h.mul]

theorem tanhSmall_off (x y : BitVec 32) : tanhSmall false x y = [VecMath.tanhSmall V x y] := by
  unfold tanhSmall tanhInner VecMath.tanhSmall
  simp only [add, sub, Fmt.sums_false, Fmt.diffs_false, Fmt.value, List.flatMap_cons, List.flatMap_nil, List.append_nil,
    List.map_cons, List.map_nil, h.add, h.sub, h.mul]

theorem vecTanh_off (x : BitVec 32) : vecTanh false V x = [VecMath.vecTanh V x] := by
  unfold vecTanh VecMath.vecTanh
  simp only [add, sub, Fmt.sums_false, Fmt.diffs_false, Fmt.value, List.flatMap_cons, List.flatMap_nil, List.append_nil,
    List.map_cons, List.map_nil, h.add, h.sub, h.mul, vecExpTanh_off h, tanhSmall_off h]

theorem vecPow_off (x y : BitVec 32) : vecPow false V x y = [VecMath.vecPow V x y] := by
  unfold vecPow VecMath.vecPow
  simp only [add, sub, Fmt.sums_false, Fmt.diffs_false, Fmt.value, List.flatMap_cons, List.flatMap_nil, List.append_nil,
    List.map_cons, List.map_nil, h.add, h.sub, h.mul, vecLog_off h, vecExp_off h]

theorem vecSignedPow_off (x y : BitVec 32) : vecSignedPow false V x y = [VecMath.vecSignedPow V x y] := by
  unfold vecSignedPow VecMath.vecSignedPow
  simp only [add, sub, Fmt.sums_false, Fmt.diffs_false, Fmt.value, List.flatMap_cons, List.flatMap_nil, List.append_nil,
    List.map_cons, List.map_nil, h.add, h.sub, h.mul, vecPow_off h]

theorem vecLogBase_off (r x : BitVec 32) : vecLogBase false V r x = [.prod (VecMath.vecLog V x) r] := by
  unfold vecLogBase
  simp only [add, sub, Fmt.sums_false, Fmt.diffs_false, Fmt.value, List.flatMap_cons, List.flatMap_nil, List.append_nil,
    List.map_cons, List.map_nil, h.add, h.sub, h.mul, vecLog_off h]

theorem vecReciprocalNewton_off (x : BitVec 32) : vecReciprocalNewton false V x = [VecMath.vecReciprocalNewton V x] := by
  unfold vecReciprocalNewton VecMath.vecReciprocalNewton madd
  simp only [add, sub, Fmt.sums_false, Fmt.diffs_false, Fmt.value, List.flatMap_cons, List.flatMap_nil, List.append_nil,
    List.map_cons, List.map_nil, h.add, h.sub, h.mul, Bool.false_eq_true, if_false]

end

variable (c : Bool) (V : LaneOps 32)

theorem expReduce_sub (a : Operand 32) (z : BitVec 32) : expReduce false a z ⊆ expReduce c a z := by
  unfold expReduce
  try dsimp only
  repeat first
    | with_reducible exact Fmt.sums_sub _ _ _ _
    | with_reducible exact Fmt.diffs_sub _ _ _ _
    | with_reducible refine flatMap_sub ?_ fun _ => ?_
    | with_reducible refine map_sub ?_

theorem expPoly_sub (one x : BitVec 32) : expPoly false one x ⊆ expPoly c one x := by
  unfold expPoly
  try dsimp only
  repeat first
    | with_reducible exact Fmt.sums_sub _ _ _ _
    | with_reducible exact Fmt.diffs_sub _ _ _ _
    | with_reducible refine flatMap_sub ?_ fun _ => ?_
    | with_reducible refine map_sub ?_

theorem vecExp_sub (a : Operand 32) : vecExp false V a ⊆ vecExp c V a := by
  unfold vecExp
  try dsimp only
  repeat first
    | with_reducible exact Fmt.sums_sub _ _ _ _
    | with_reducible exact Fmt.diffs_sub _ _ _ _
    | with_reducible exact expReduce_sub _ _ _ 
    | with_reducible exact expPoly_sub _ _ _ 
    | with_reducible refine flatMap_sub ?_ fun _ => ?_
    | with_reducible refine map_sub ?_

theorem logTail_sub (x fe : BitVec 32) : logTail false x fe ⊆ logTail c x fe := by
  unfold logTail logHorner
  try dsimp only
  repeat first
    | with_reducible exact Fmt.sums_sub _ _ _ _
    | with_reducible exact Fmt.diffs_sub _ _ _ _
    | with_reducible refine flatMap_sub ?_ fun _ => ?_
    | with_reducible refine map_sub ?_

theorem vecLog_sub (x : BitVec 32) : vecLog false V x ⊆ vecLog c V x := by
  unfold vecLog
  try dsimp only
  repeat first
    | with_reducible exact Fmt.sums_sub _ _ _ _
    | with_reducible exact Fmt.diffs_sub _ _ _ _
    | with_reducible exact logTail_sub _ _ _ 
    | with_reducible refine flatMap_sub ?_ fun _ => ?_
    | with_reducible refine map_sub ?_

theorem vecExpTanh_sub (x : BitVec 32) : vecExpTanh false V x ⊆ vecExpTanh c V x := by
  unfold vecExpTanh
  try dsimp only
  repeat first
    | with_reducible exact Fmt.sums_sub _ _ _ _
    | with_reducible exact Fmt.diffs_sub _ _ _ _
    | with_reducible exact expReduce_sub _ _ _ 
    | with_reducible exact expPoly_sub _ _ _ 
    | with_reducible refine flatMap_sub ?_ fun _ => ?_
    | with_reducible refine map_sub ?_

theorem reduceArg_sub (x y : BitVec 32) : reduceArg false x y ⊆ reduceArg c x y := by
  unfold reduceArg
  try dsimp only
  repeat first
    | with_reducible exact Fmt.sums_sub _ _ _ _
    | with_reducible exact Fmt.diffs_sub _ _ _ _
    | with_reducible refine flatMap_sub ?_ fun _ => ?_
    | with_reducible refine map_sub ?_

theorem cosPoly_sub (z : BitVec 32) : cosPoly false z ⊆ cosPoly c z := by
  unfold cosPoly
  try dsimp only
  repeat first
    | with_reducible exact Fmt.sums_sub _ _ _ _
    | with_reducible exact Fmt.diffs_sub _ _ _ _
    | with_reducible refine flatMap_sub ?_ fun _ => ?_
    | with_reducible refine map_sub ?_

theorem sinPoly_sub (z b : BitVec 32) : sinPoly false z b ⊆ sinPoly c z b := by
  unfold sinPoly
  try dsimp only
  repeat first
    | with_reducible exact Fmt.sums_sub _ _ _ _
    | with_reducible exact Fmt.diffs_sub _ _ _ _
    | with_reducible refine flatMap_sub ?_ fun _ => ?_
    | with_reducible refine map_sub ?_

theorem vecSin_sub (x : BitVec 32) : vecSin false V x ⊆ vecSin c V x := by
  unfold vecSin
  try dsimp only
  repeat first
    | with_reducible exact Fmt.sums_sub _ _ _ _
    | with_reducible exact Fmt.diffs_sub _ _ _ _
    | with_reducible exact reduceArg_sub _ _ _ 
    | with_reducible exact cosPoly_sub _ _ 
    | with_reducible exact sinPoly_sub _ _ _ 
    | with_reducible refine flatMap_sub ?_ fun _ => ?_
    | with_reducible refine map_sub ?_

theorem vecCos_sub (x : BitVec 32) : vecCos false V x ⊆ vecCos c V x := by
  unfold vecCos
  try dsimp only
  repeat first
    | with_reducible exact Fmt.sums_sub _ _ _ _
    | with_reducible exact Fmt.diffs_sub _ _ _ _
    | with_reducible exact reduceArg_sub _ _ _ 
    | with_reducible exact cosPoly_sub _ _ 
    | with_reducible exact sinPoly_sub _ _ _ 
    | with_reducible refine flatMap_sub ?_ fun _ => ?_
    | with_reducible refine map_sub ?_

theorem tanPoly_sub (x : BitVec 32) : tanPoly false x ⊆ tanPoly c x := by
  unfold tanPoly
  try dsimp only
  repeat first
    | with_reducible exact Fmt.sums_sub _ _ _ _
    | with_reducible exact Fmt.diffs_sub _ _ _ _
    | with_reducible refine flatMap_sub ?_ fun _ => ?_
    | with_reducible refine map_sub ?_

theorem vecTan_sub (x : BitVec 32) : vecTan false V x ⊆ vecTan c V x := by
  unfold vecTan
  try dsimp only
  repeat first
    | with_reducible exact Fmt.sums_sub _ _ _ _
    | with_reducible exact Fmt.diffs_sub _ _ _ _
    | with_reducible exact reduceArg_sub _ _ _ 
    | with_reducible exact tanPoly_sub _ _ 
    | with_reducible refine flatMap_sub ?_ fun _ => ?_
    | with_reducible refine map_sub ?_

theorem asinPoly_sub (x : BitVec 32) : asinPoly false x ⊆ asinPoly c x := by
  unfold asinPoly asinInner
  try dsimp only
  repeat first
    | with_reducible exact Fmt.sums_sub _ _ _ _
    | with_reducible exact Fmt.diffs_sub _ _ _ _
    | with_reducible refine flatMap_sub ?_ fun _ => ?_
    | with_reducible refine map_sub ?_

theorem vecAsin_sub (x : BitVec 32) : vecAsin false V x ⊆ vecAsin c V x := by
  unfold vecAsin
  try dsimp only
  repeat first
    | with_reducible exact Fmt.sums_sub _ _ _ _
    | with_reducible exact Fmt.diffs_sub _ _ _ _
    | with_reducible exact asinPoly_sub _ _ 
    | with_reducible refine flatMap_sub ?_ fun _ => ?_
    | with_reducible refine map_sub ?_

theorem vecAcos_sub (x : BitVec 32) : vecAcos false V x ⊆ vecAcos c V x := by
  unfold vecAcos
  try dsimp only
  repeat first
    | with_reducible exact Fmt.sums_sub _ _ _ _
    | with_reducible exact Fmt.diffs_sub _ _ _ _
    | with_reducible exact vecAsin_sub _ V _ 
    | with_reducible refine flatMap_sub ?_ fun _ => ?_
    | with_reducible refine map_sub ?_

theorem vecAtan_sub (x : BitVec 32) : vecAtan false V x ⊆ vecAtan c V x := by
  unfold vecAtan atanAbs atanInner
  try dsimp only
  repeat first
    | with_reducible exact Fmt.sums_sub _ _ _ _
    | with_reducible exact Fmt.diffs_sub _ _ _ _
    | with_reducible refine flatMap_sub ?_ fun _ => ?_
    | with_reducible refine map_sub ?_

theorem tanhSmall_sub (x y : BitVec 32) : tanhSmall false x y ⊆ tanhSmall c x y := by
  unfold tanhSmall tanhInner
  try dsimp only
  repeat first
    | with_reducible exact Fmt.sums_sub _ _ _ _
    | with_reducible exact Fmt.diffs_sub _ _ _ _
    | with_reducible refine flatMap_sub ?_ fun _ => ?_
    | with_reducible refine map_sub ?_

theorem vecTanh_sub (x : BitVec 32) : vecTanh false V x ⊆ vecTanh c V x := by
  unfold vecTanh
  try dsimp only
  repeat first
    | with_reducible exact Fmt.sums_sub _ _ _ _
    | with_reducible exact Fmt.diffs_sub _ _ _ _
    | with_reducible exact vecExpTanh_sub _ V _ 
    | with_reducible exact tanhSmall_sub _ _ _ 
    | with_reducible refine flatMap_sub ?_ fun _ => ?_
    | with_reducible refine map_sub ?_

theorem vecPow_sub (x y : BitVec 32) : vecPow false V x y ⊆ vecPow c V x y := by
  unfold vecPow
  try dsimp only
  repeat first
    | with_reducible exact Fmt.sums_sub _ _ _ _
    | with_reducible exact Fmt.diffs_sub _ _ _ _
    | with_reducible exact vecLog_sub _ V _ 
    | with_reducible exact vecExp_sub _ V _ 
    | with_reducible refine flatMap_sub ?_ fun _ => ?_
    | with_reducible refine map_sub ?_

theorem vecSignedPow_sub (x y : BitVec 32) : vecSignedPow false V x y ⊆ vecSignedPow c V x y := by
  unfold vecSignedPow
  try dsimp only
  repeat first
    | with_reducible exact Fmt.sums_sub _ _ _ _
    | with_reducible exact Fmt.diffs_sub _ _ _ _
    | with_reducible exact vecPow_sub _ V _ _ 
    | with_reducible refine flatMap_sub ?_ fun _ => ?_
    | with_reducible refine map_sub ?_

theorem vecLogBase_sub (r x : BitVec 32) : vecLogBase false V r x ⊆ vecLogBase c V r x := by
  unfold vecLogBase
  try dsimp only
  repeat first
    | with_reducible exact Fmt.sums_sub _ _ _ _
    | with_reducible exact Fmt.diffs_sub _ _ _ _
    | with_reducible exact vecLog_sub _ V _ 
    | with_reducible refine flatMap_sub ?_ fun _ => ?_
    | with_reducible refine map_sub ?_

theorem madd_sub (x y z : BitVec 32) : madd false V x y z ⊆ madd c V x y z := by
  intro r hr
  unfold madd at hr ⊢
  simp only [Bool.false_eq_true, if_false, List.mem_singleton] at hr
  subst hr; exact List.mem_cons_self

theorem vecReciprocalNewton_sub (x : BitVec 32) : vecReciprocalNewton false V x ⊆ vecReciprocalNewton c V x := by
  unfold vecReciprocalNewton
  exact flatMap_sub (Fmt.diffs_sub _ _ _ _) fun _ => madd_sub _ _ _ _ _

end Contract
end Nova
