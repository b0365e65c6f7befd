import Verif.Props.C23_Meters
import Verif.Lemmas.MinMax

/-!
# Maxima and minima of patterns with respect to their values (helper lemmas, no properties)

Several patterns may have the same value (+0 and -0), so the order of the values is only a preorder of patterns.
-/

namespace Nova
open Spec
variable {α : Type}

/-- `r` is one of `T`, and no element of `T` is better. -/
def Best (R : α → α → Prop) (T : Set α) (r : α) : Prop := r ∈ T ∧ ∀ y ∈ T, R y r

/-- `f` selects the better of its arguments. -/
def Sel (R : α → α → Prop) (ok : α → Prop) (f : α → α → α) : Prop :=
  ∀ a b, ok a → ok b → (f a b = a ∧ R b a) ∨ (f a b = b ∧ R a b)

/-- `R` is a preorder. -/
structure Pre (R : α → α → Prop) : Prop where
  refl : ∀ a, R a a
  trans : ∀ {a b c}, R a b → R b c → R a c

variable {R : α → α → Prop} {ok : α → Prop} {f : α → α → α}

namespace Best

theorem isOk {T : Set α} {r : α} (h : Best R T r) (ho : ∀ y ∈ T, ok y) : ok r := ho r h.1

theorem union (hR : Pre R) (hf : Sel R ok f) {T U : Set α} {a b : α} (ha : Best R T a) (hb : Best R U b)
    (hT : ∀ y ∈ T, ok y) (hU : ∀ y ∈ U, ok y) : Best R (T ∪ U) (f a b) := by
  rcases hf a b (hT a ha.1) (hU b hb.1) with ⟨e, h⟩ | ⟨e, h⟩
  · rw [e]
    exact ⟨.inl ha.1, fun y hy => hy.elim (ha.2 y) fun hy => hR.trans (hb.2 y hy) h⟩
  · rw [e]
    exact ⟨.inr hb.1, fun y hy => hy.elim (fun hy => hR.trans (ha.2 y hy) h) (hb.2 y)⟩

theorem single (hR : Pre R) (a : α) : Best R {a} a := ⟨rfl, fun y hy => by rw [hy]; exact hR.refl a⟩

theorem iUnion (hR : Pre R) {ι : Type} {S : ι → α} {T : ι → Set α} {r : α} (hS : ∀ l, Best R (T l) (S l))
    (hr : Best R (Set.range S) r) : Best R (⋃ l, T l) r := by
  constructor
  · obtain ⟨l, rfl⟩ := hr.1
    exact Set.mem_iUnion.mpr ⟨l, (hS l).1⟩
  · intro y hy
    obtain ⟨l, hl⟩ := Set.mem_iUnion.mp hy
    exact hR.trans ((hS l).2 y hl) (hr.2 _ ⟨l, rfl⟩)

theorem foldSeq (hR : Pre R) (hf : Sel R ok f) {c : α} {x : Nat → α} {k : Nat} (hc : ok c) (hx : ∀ i < k, ok (x i)) :
    Best R (insert c {y | ∃ i, i < k ∧ y = x i}) (Nova.foldSeq f c x k) := by
  induction k with
  | zero =>
    have : insert c {y | ∃ i, i < 0 ∧ y = x i} = {c} := by ext; simp
    rw [this]; exact single hR c
  | succ k ih =>
    rw [range_succ_set, Nova.foldSeq, Set.insert_eq, Set.union_comm]
    refine union hR hf (ih fun i hi => hx i (by omega)) (single hR _) ?_ ?_
    · rintro y (rfl | ⟨i, hi, rfl⟩)
      · exact hc
      · exact hx i (by omega)
    · rintro y rfl; exact hx k (by omega)

theorem foldl (hR : Pre R) (hf : Sel R ok f) (l : List α) (b : α) (hb : ok b) (hl : ∀ y ∈ l, ok y) :
    Best R {y | y = b ∨ y ∈ l} (l.foldl f b) := by
  induction l generalizing b with
  | nil =>
    have : {y | y = b ∨ y ∈ ([] : List α)} = {b} := by ext; simp
    rw [this]; exact single hR b
  | cons x xs ih =>
    have hx := hl x List.mem_cons_self
    have h1 : Best R ({b} ∪ {x}) (f b x) :=
      union hR hf (single hR b) (single hR x) (by rintro y rfl; exact hb) (by rintro y rfl; exact hx)
    have hok : ok (f b x) := by rcases h1.1 with e | e <;> rw [e] <;> assumption
    have h2 := ih (f b x) hok fun y hy => hl y (List.mem_cons_of_mem _ hy)
    refine ⟨?_, ?_⟩
    · rcases h2.1 with e | e
      · rw [List.foldl_cons, e]
        rcases h1.1 with e | e
        · exact .inl e
        · exact .inr (by rw [e]; exact List.mem_cons_self)
      · exact .inr (List.mem_cons_of_mem _ e)
    · rintro y (rfl | hy)
      · exact hR.trans (h1.2 y (.inl rfl)) (h2.2 _ (.inl rfl))
      · rcases List.mem_cons.mp hy with rfl | hy
        · exact hR.trans (h1.2 y (.inr rfl)) (h2.2 _ (.inl rfl))
        · exact h2.2 y (.inr hy)

end Best

theorem maxElement_eq (A : Arith α) (b : α) (l : List α) : Base.maxElement A b l = l.foldl (Neon.stdMax A) b := by
  induction l generalizing b with
  | nil => rfl
  | cons x xs ih => rw [Base.maxElement, ih]; rfl

theorem minElement_eq (A : Arith α) (b : α) (l : List α) : Base.minElement A b l = l.foldl (Neon.stdMin A) b := by
  induction l generalizing b with
  | nil => rfl
  | cons x xs ih => rw [Base.minElement, ih]; rfl

theorem best_list (hR : Pre R) (hf : Sel R ok f) {w : Nat} (hw : 0 < w) (v : Vec α w) (hv : ∀ l, ok (v l)) :
    Best R (Set.range v) ((Base.toList v).tail.foldl f (v ⟨0, hw⟩)) := by
  rw [← base_set hw v]
  refine Best.foldl hR hf _ _ (hv _) fun y hy => ?_
  have : y ∈ Set.range v := by rw [← base_set hw v]; exact .inr hy
  obtain ⟨l, rfl⟩ := this
  exact hv l

/-- Two by two. -/
theorem best4 (hR : Pre R) {g : α → α → α} (hf : Sel R ok f) (hg : Sel R ok g) (v : Fin 4 → α) (hv : ∀ l, ok (v l))
    (i j k l : Fin 4) (h : ∀ q : Fin 4, q = i ∨ q = j ∨ q = k ∨ q = l) :
    Best R (Set.range v) (f (g (v i) (v j)) (g (v k) (v l))) := by
  have s : ∀ q, ∀ y ∈ ({v q} : Set α), ok y := fun q y hy => by rw [hy]; exact hv q
  have u : ∀ p q, ∀ y ∈ ({v p} ∪ {v q} : Set α), ok y := fun p q y hy => hy.elim (s p y) (s q y)
  have h1 := Best.union hR hg (Best.single hR (v i)) (Best.single hR (v j)) (s i) (s j)
  have h2 := Best.union hR hg (Best.single hR (v k)) (Best.single hR (v l)) (s k) (s l)
  have h3 := Best.union hR hf h1 h2 (u i j) (u k l)
  have e : Set.range v = {v i} ∪ {v j} ∪ ({v k} ∪ {v l}) := by
    ext y
    constructor
    · rintro ⟨q, rfl⟩
      rcases h q with rfl | rfl | rfl | rfl
      · exact .inl (.inl rfl)
      · exact .inl (.inr rfl)
      · exact .inr (.inl rfl)
      · exact .inr (.inr rfl)
    · rintro ((e | e) | (e | e)) <;> exact ⟨_, e.symm⟩
  rw [e]; exact h3

theorem best2 (hR : Pre R) (hf : Sel R ok f) (v : Fin 2 → α) (hv : ∀ l, ok (v l)) :
    Best R (Set.range v) (f (v 0) (v 1)) := by
  have s : ∀ q, ∀ y ∈ ({v q} : Set α), ok y := fun q y hy => by rw [hy]; exact hv q
  have h1 := Best.union hR hf (Best.single hR (v 0)) (Best.single hR (v 1)) (s 0) (s 1)
  have e : Set.range v = {v 0} ∪ {v 1} := by
    ext y
    constructor
    · rintro ⟨q, rfl⟩
      fin_cases q
      · exact .inl rfl
      · exact .inr rfl
    · rintro (e | e) <;> exact ⟨_, e.symm⟩
  rw [e]; exact h1

/-- `horizontal_max` of every target. -/
theorem hmax_best (hR : Pre R) (t : Target) {E : Env α} (hS : Sel R ok (Neon.stdMax E.S)) (hL : Sel R ok E.L.max_)
    (v : (t.vec E).V) (hv : ∀ l, ok (v l)) : Best R (Set.range v) ((t.vec E).horizontalMax v) := by
  have hb : ∀ {w : Nat} (hw : 0 < w) (v : Vec α w), (∀ l, ok (v l)) → Best R (Set.range v) (Base.horizontalMax E.S hw v) :=
    fun hw v hv => by unfold Base.horizontalMax; rw [maxElement_eq]; exact best_list hR hS hw v hv
  cases t with
  | genericFloat => exact hb _ v hv
  | genericDouble => exact hb _ v hv
  | sse s3 s41 => exact best4 hR hL hL v hv 2 0 3 1 (by decide)
  | sse2 => exact best2 hR hL v hv
  | avxFloat => exact hb _ v hv
  | avxDouble => exact hb _ v hv
  | neon => exact best4 hR hS hL v hv 0 2 1 3 (by decide)
  | altivec => exact hb _ v hv

/-- `horizontal_min` of every target. -/
theorem hmin_best (hR : Pre R) (t : Target) {E : Env α} (hS : Sel R ok (Neon.stdMin E.S)) (hL : Sel R ok E.L.min_)
    (v : (t.vec E).V) (hv : ∀ l, ok (v l)) : Best R (Set.range v) ((t.vec E).horizontalMin v) := by
  have hb : ∀ {w : Nat} (hw : 0 < w) (v : Vec α w), (∀ l, ok (v l)) → Best R (Set.range v) (Base.horizontalMin E.S hw v) :=
    fun hw v hv => by unfold Base.horizontalMin; rw [minElement_eq]; exact best_list hR hS hw v hv
  cases t with
  | genericFloat => exact hb _ v hv
  | genericDouble => exact hb _ v hv
  | sse s3 s41 => exact best4 hR hL hL v hv 2 0 3 1 (by decide)
  | sse2 => exact best2 hR hL v hv
  | avxFloat => exact hb _ v hv
  | avxDouble => exact hb _ v hv
  | neon => exact best4 hR hS hL v hv 0 2 1 3 (by decide)
  | altivec => exact hb _ v hv

theorem range_const_vec (t : Target) (E : Env α) (c : α) : Set.range ((t.vec E).setVec c) = {c} := by
  have hc : (t.vec E).setVec c = fun _ => c := funext ((t.lawful E).setVec c)
  rw [hc]
  have : Nonempty (Fin (t.vec E).size) := ⟨⟨0, (t.vec E).size_pos⟩⟩
  exact Set.range_const

/-- The register loop of the horizontal functions. -/
theorem lanes_best (hR : Pre R) {t : Target} {E : Env α} {m : Mem α} {inp : Nat} {n : BitVec 32} {x : Nat → α}
    (h : SimdInput t m inp n x) {g : α → α → α} (hg : Sel R ok g) {c : α} (hc : ok c) (hx : ∀ i < n.toNat, ok (x i))
    {red : (t.vec E).V → α} (hred : ∀ v, (∀ l, ok (v l)) → Best R (Set.range v) (red v)) :
    Best R (insert c {y | ∃ i, i < n.toNat ∧ y = x i})
      (red (foldSeq (VecImpl.zip g) ((t.vec E).setVec c)
        (fun j l => x (j * (t.vec E).size + l)) (n.toNat / (t.vec E).size))) := by
  have hin : ∀ j < n.toNat / (t.vec E).size, ∀ l : Fin (t.vec E).size, ok (x (j * (t.vec E).size + l)) := by
    intro j hj l
    apply hx
    have h1 := Nat.mul_le_mul_right (t.vec E).size hj
    rw [Nat.succ_mul, h.div_mul E] at h1
    have := l.isLt
    omega
  have hb : ∀ l, Best R (insert ((t.vec E).setVec c l) {y | ∃ j, j < n.toNat / (t.vec E).size ∧ y = x (j * (t.vec E).size + l)})
      (foldSeq (VecImpl.zip g) ((t.vec E).setVec c)
        (fun j l => x (j * (t.vec E).size + l)) (n.toNat / (t.vec E).size) l) := by
    intro l
    refine (congrArg _ (foldSeq_lane g ((t.vec E).setVec c) (fun j l => x (j * (t.vec E).size + l))
      (n.toNat / (t.vec E).size) l)).mpr ?_
    refine Best.foldSeq hR hg ?_ fun j hj => hin j hj l
    rw [(t.lawful E).setVec]; exact hc
  have := Best.iUnion hR hb (hred _ fun l => Best.isOk (hb l) (by
    rintro y (rfl | ⟨j, hj, rfl⟩)
    · rw [(t.lawful E).setVec]; exact hc
    · exact hin j hj l))
  rw [iUnion_lanes (t.vec E).size_pos, h.div_mul E, range_const_vec, Set.singleton_union] at this
  exact this

/-- The register loop of the peak meters. -/
theorem peakReg_best (hR : Pre R) {I : VecImpl α} (hf : Sel R ok I.lane.max_) (f : I.V) (x : Nat → α) (k : Nat)
    (l : Fin I.size) (hv : ok (f l)) (hx : ∀ j < k * 4, ok (I.lane.abs (x (j * I.size + l)))) :
    Best R (insert (f l) {y | ∃ j, j < k * 4 ∧ y = I.lane.abs (x (j * I.size + l))}) (peakReg I f x k l) := by
  induction k with
  | zero =>
    have : insert (f l) {y | ∃ j, j < 0 * 4 ∧ y = I.lane.abs (x (j * I.size + l))} = {f l} := by ext; simp
    rw [this]; exact Best.single hR _
  | succ k ih =>
    have hs := four_blocks (fun i => I.lane.abs (x i)) I.size k l
    have e : ∀ q, k * (4 * I.size) + q * I.size + l = (k * 4 + q) * I.size + l := fun q => by ring
    rw [hs, ← Set.union_insert, Set.union_comm]
    have hq : ∀ q < 4, ok (I.lane.abs (x (k * (4 * I.size) + q * I.size + l))) := fun q hq => by
      rw [e]; exact hx _ (by omega)
    have := best4 hR hf hf ![I.lane.abs (x (k * (4 * I.size) + 0 * I.size + l)),
      I.lane.abs (x (k * (4 * I.size) + 1 * I.size + l)), I.lane.abs (x (k * (4 * I.size) + 2 * I.size + l)),
      I.lane.abs (x (k * (4 * I.size) + 3 * I.size + l))] (by
        intro i; fin_cases i
        · exact hq 0 (by omega)
        · exact hq 1 (by omega)
        · exact hq 2 (by omega)
        · exact hq 3 (by omega)) 0 1 2 3 (by decide)
    have er : ∀ a b c d : α, Set.range ![a, b, c, d] = {a, b, c, d} := by
      intro a b c d
      rw [Matrix.range_cons, Matrix.range_cons, Matrix.range_cons, Matrix.range_cons, Matrix.range_empty, Set.union_empty]
      rfl
    rw [er] at this
    refine Best.union hR hf (ih fun j hj => hx j (by omega)) this ?_ ?_
    · rintro y (rfl | ⟨j, hj, rfl⟩)
      · exact hv
      · exact hx j (by omega)
    · rintro y (rfl | rfl | rfl | rfl)
      · exact hq 0 (by omega)
      · exact hq 1 (by omega)
      · exact hq 2 (by omega)
      · exact hq 3 (by omega)

end Nova
