import Verif.Lemmas.Best
import Verif.Lemmas.BitLanes
import Verif.Lemmas.FloatSums
import Verif.SpecExtrema

/-!
# Extrema and peak meters at the bit level (helper lemmas, no properties)
-/

namespace Nova
open FP Spec

variable {w : Nat} {F : Fmt w} {E : Env (BitVec w)}

/-- What the horizontal functions and the peak meters need of a build. -/
structure Extr (F : Fmt w) (E : Env (BitVec w)) : Prop where
  maxS : IsMax F (Neon.stdMax E.S)
  minS : IsMin F (Neon.stdMin E.S)
  maxL : IsMax F E.L.max_
  minL : IsMin F E.L.min_
  absS : ∀ x, E.S.abs x = F.fabs x
  absL : ∀ x, E.L.abs x = F.fabs x
  zeroL : E.L.zero = F.posZero

theorem Build32.extr (b : Build32) (P : Platform 32) : Extr binary32 (b.env P) where
  maxS := isMax_stdMax binary32
  minS := isMin_stdMin binary32
  maxL := isMax_lane32 b P
  minL := isMin_lane32 b P
  absS _ := rfl
  absL := abs_lane32 b P
  zeroL := by cases b <;> rfl

theorem Build64.extr (b : Build64) (P : Platform 64) : Extr binary64 (b.env P) where
  maxS := isMax_stdMax binary64
  minS := isMin_stdMin binary64
  maxL := isMax_lane64 b P
  minL := isMin_lane64 b P
  absS _ := rfl
  absL := abs_lane64 b P
  zeroL := by cases b <;> rfl

/-- The order of the values. -/
def Below (F : Fmt w) (a b : BitVec w) : Prop := F.toEReal a ≤ F.toEReal b
def Above (F : Fmt w) (a b : BitVec w) : Prop := F.toEReal b ≤ F.toEReal a

theorem below_pre (F : Fmt w) : Pre (Below F) := ⟨fun _ => le_refl _, fun h g => le_trans h g⟩
theorem above_pre (F : Fmt w) : Pre (Above F) := ⟨fun _ => le_refl _, fun h g => le_trans g h⟩

theorem IsMax.sel {f : BitVec w → BitVec w → BitVec w} (h : IsMax F f) : Sel (Below F) (Num F) f := by
  intro a b ha hb
  have hv := h.val a b ha hb
  rcases h.mem a b ha hb with e | e
  · rw [e] at hv; exact .inl ⟨e, max_eq_left_iff.mp hv.symm⟩
  · rw [e] at hv; exact .inr ⟨e, max_eq_right_iff.mp hv.symm⟩

theorem IsMin.sel {f : BitVec w → BitVec w → BitVec w} (h : IsMin F f) : Sel (Above F) (Num F) f := by
  intro a b ha hb
  have hv := h.val a b ha hb
  rcases h.mem a b ha hb with e | e
  · rw [e] at hv; exact .inl ⟨e, min_eq_left_iff.mp hv.symm⟩
  · rw [e] at hv; exact .inr ⟨e, min_eq_right_iff.mp hv.symm⟩

theorem num_fabs {x : BitVec w} (h : Num F x) : Num F (F.fabs x) := by
  unfold Num at *; rw [F.isNaN_fabs]; exact h

theorem num_posZero : Num F F.posZero := by
  unfold Num
  rw [← Bool.not_eq_true]
  intro h
  simp at h

theorem zero_le_fabs {x : BitVec w} (h : Num F x) : 0 ≤ F.toEReal (F.fabs x) := by
  by_contra hc
  have := (F.key_neg_iff (num_fabs h)).mpr (not_le.mp hc)
  rw [F.key_fabs] at this
  omega

/-! ## Horizontal functions -/

theorem hmax_run (hE : Extr F E) (c : BitVec w) {x : Nat → BitVec w} {n : Nat} (hc : Num F c) (hx : ∀ i < n, Num F (x i)) :
    IsMaximum F (insert c (Elems x n)) (foldSeq (Neon.stdMax E.S) c x n) :=
  Best.foldSeq (below_pre F) hE.maxS.sel hc hx

theorem hmin_run (hE : Extr F E) (c : BitVec w) {x : Nat → BitVec w} {n : Nat} (hc : Num F c) (hx : ∀ i < n, Num F (x i)) :
    IsMinimum F (insert c (Elems x n)) (foldSeq (Neon.stdMin E.S) c x n) :=
  Best.foldSeq (above_pre F) hE.minS.sel hc hx

section simd
variable {t : Target} {m : Mem (BitVec w)} {inp : Nat} {n : BitVec 32} {x : Nat → BitVec w}

theorem hmax_simd_run (hE : Extr F E) (h : SimdInput t m inp n x) (c : BitVec w) (hc : Num F c)
    (hx : ∀ i < n.toNat, Num F (x i)) :
    IsMaximum F (insert c (Elems x n.toNat)) ((t.vec E).horizontalMax (foldSeq (VecImpl.zip (t.vec E).lane.max_)
      ((t.vec E).setVec c) (fun j l => x (j * (t.vec E).size + l)) (n.toNat / (t.vec E).size))) :=
  lanes_best (below_pre F) h (by rw [t.lane_eq]; exact hE.maxL.sel) hc hx
    (hmax_best (below_pre F) t hE.maxS.sel hE.maxL.sel)

theorem hmin_simd_run (hE : Extr F E) (h : SimdInput t m inp n x) (c : BitVec w) (hc : Num F c)
    (hx : ∀ i < n.toNat, Num F (x i)) :
    IsMinimum F (insert c (Elems x n.toNat)) ((t.vec E).horizontalMin (foldSeq (VecImpl.zip (t.vec E).lane.min_)
      ((t.vec E).setVec c) (fun j l => x (j * (t.vec E).size + l)) (n.toNat / (t.vec E).size))) :=
  lanes_best (above_pre F) h (by rw [t.lane_eq]; exact hE.minL.sel) hc hx
    (hmin_best (above_pre F) t hE.minS.sel hE.minL.sel)

end simd

/-! ## Peak meters -/

theorem peak_run (hE : Extr F E) {m : Mem (BitVec w)} {inp peak : Nat} {n : BitVec 32} {x : Nat → BitVec w} {p0 : BitVec w}
    (hn : 0 < n.toNat) (hx : Holds m inp n.toNat x) (hp : m peak = some p0) (h0 : Num F p0)
    (hv : ∀ i < n.toNat, Num F (x i)) :
    ∃ P, IsMaximum F (insert p0 (Elems (fun i => F.fabs (x i)) n.toNat)) P ∧
      peakVec E inp peak n m = .ok (F.fabs (x (n.toNat - 1)), overwrite m peak 1 (fun _ => P)) := by
  have hs : (m peak).isSome := by rw [hp]; rfl
  have habs : E.S.abs = F.fabs := funext hE.absS
  refine ⟨foldSeq (Neon.stdMax E.S) p0 (fun i => F.fabs (x i)) n.toNat, hmax_run hE p0 h0 fun i hi => num_fabs (hv i hi), ?_⟩
  unfold peakVec
  rw [Exec.bind_ok (read_ok hp)]
  refine (Exec.bind_ok (peakLoop_ok E p0 hn hx)).trans ?_
  rw [habs]
  exact (Exec.bind_ok (write_one hs)).trans rfl

/-- The maximum of the registers: the contents of the first register and the absolute values. -/
theorem peakReg_run (t : Target) (hE : Extr F E) {x : Nat → BitVec w} {N : Nat} {f : (t.vec E).V} (hf : ∀ l, Num F (f l))
    (hd : 4 * (t.vec E).size ∣ N) (hv : ∀ i < N, Num F (x i)) :
    IsMaximum F (Set.range f ∪ Elems (fun i => F.fabs (x i)) N)
      ((t.vec E).horizontalMax (peakReg (t.vec E) f x (N / (4 * (t.vec E).size)))) := by
  have habs : (t.vec E).lane.abs = F.fabs := by rw [t.lane_eq]; exact funext hE.absL
  have hN : N / (4 * (t.vec E).size) * 4 * (t.vec E).size = N := by rw [Nat.mul_assoc, Nat.div_mul_cancel hd]
  have hin : ∀ (l : Fin (t.vec E).size), ∀ j < N / (4 * (t.vec E).size) * 4,
      Num F ((t.vec E).lane.abs (x (j * (t.vec E).size + l))) := by
    intro l j hj
    rw [habs]
    apply num_fabs
    apply hv
    have h1 := Nat.mul_le_mul_right (t.vec E).size hj
    rw [Nat.succ_mul, hN] at h1
    have := l.isLt
    omega
  have hb := fun l => peakReg_best (below_pre F) (I := t.vec E) (by rw [t.lane_eq]; exact hE.maxL.sel) f x
    (N / (4 * (t.vec E).size)) l (hf l) (hin l)
  have := Best.iUnion (below_pre F) hb (hmax_best (below_pre F) t hE.maxS.sel hE.maxL.sel _ fun l =>
    Best.isOk (hb l) (by
      rintro y (rfl | ⟨j, hj, rfl⟩)
      · exact hf l
      · exact hin l j hj))
  have hu := iUnion_lanes (t.vec E).size_pos f (fun i => (t.vec E).lane.abs (x i)) (N / (4 * (t.vec E).size) * 4)
  rw [hu, hN, habs] at this
  exact this

/-- The lanes that `load_first` sets to zero do not matter. -/
theorem drop_zeros {N w' : Nat} {x : Nat → BitVec w} {p0 r : BitVec w} (hN : 0 < N) (hv : ∀ i < N, Num F (x i))
    (hw : 0 < w')
    (h : IsMaximum F (Set.range (fun l : Fin w' => if l.val = 0 then p0 else F.posZero) ∪
      Elems (fun i => F.fabs (x i)) N) r) :
    IsMaximum F (insert p0 (Elems (fun i => F.fabs (x i)) N)) r := by
  have hle : ∀ y ∈ insert p0 (Elems (fun i => F.fabs (x i)) N), F.toEReal y ≤ F.toEReal r := by
    rintro y (rfl | hy)
    · exact h.2 _ (.inl ⟨⟨0, hw⟩, if_pos rfl⟩)
    · exact h.2 _ (.inr hy)
  refine ⟨?_, hle⟩
  rcases h.1 with ⟨l, hl⟩ | hr
  · by_cases h0 : l.val = 0
    · rw [← hl]; simp only [h0, if_true]; exact .inl rfl
    · simp only [h0, if_false] at hl
      right
      have h1 := hle _ (.inr ⟨0, hN, rfl⟩)
      have h2 := zero_le_fabs (hv 0 hN)
      rw [← hl, F.toEReal_posZero] at h1
      have hk := (F.key_zero_iff (num_fabs (hv 0 hN))).mpr (le_antisymm h1 h2)
      rw [F.key_fabs] at hk
      refine ⟨0, hN, ?_⟩
      rw [← hl]
      apply F.ext
      · simp
      · simp only [F.code_fabs]; simp; omega
  · exact .inr hr

theorem peak_simd_run (t : Target) (ht : t ≠ .avxFloat ∧ t ≠ .avxDouble) (hE : Extr F E) {m : Mem (BitVec w)}
    {inp peak : Nat} {n : BitVec 32} {x : Nat → BitVec w} {p0 : BitVec w} (hn : 0 < n.toNat) (hd : 4 * t.size ∣ n.toNat)
    (hal : t.align ∣ inp) (hx : Holds m inp n.toNat x) (hp : m peak = some p0) (h0 : Num F p0)
    (hv : ∀ i < n.toNat, Num F (x i)) :
    ∃ P, IsMaximum F (insert p0 (Elems (fun i => F.fabs (x i)) n.toNat)) P ∧
      peakVecSimd (t.vec E) inp peak n m = .ok (F.fabs (x (n.toNat - 1)), overwrite m peak 1 (fun _ => P)) := by
  have hs : (m peak).isSome := by rw [hp]; rfl
  have hd' : 4 * (t.vec E).size ∣ n.toNat := by rw [t.vec_size]; exact hd
  have habs : (t.vec E).lane.abs = F.fabs := by rw [t.lane_eq]; exact funext hE.absL
  have h := peakSimd_ok (t.lawful E) hal (t.four_size_small E) (Nat.le_of_dvd hn hd') hx (C32_load_first_partial t E ht hp)
    hs (t.get_last E)
  rw [Nat.div_mul_cancel hd', habs] at h
  refine ⟨_, drop_zeros hn hv (t.vec E).size_pos ?_, h⟩
  have := peakReg_run t hE (f := fun l => if l.val = 0 then p0 else E.L.zero) (x := x) (N := n.toNat) (by
    intro l
    by_cases hl : l.val = 0
    · simp only [hl, if_true]; exact h0
    · simp only [hl, if_false, hE.zeroL]; exact num_posZero) hd' hv
  have e : (fun l : Fin (t.vec E).size => if l.val = 0 then p0 else F.posZero) =
      fun l => if l.val = 0 then p0 else E.L.zero := by rw [hE.zeroL]
  rw [e]; exact this

end Nova
