import Mathlib.Algebra.Order.Ring.Abs
import Mathlib.Tactic.IntervalCases
import Mathlib.Tactic.Ring
import Verif.Props.C27_Horizontal

/-!
# C23, C24, C25, C26: peak and RMS meters

`Elems (fun i => |x i|) n` is the set of absolute values of the buffer; the new peak is compared with the
largest element of that set together with the old peak.
-/

namespace Nova
open Spec
variable {α : Type}

theorem write_one {m : Mem α} {p : Nat} {v : α} (h : (m p).isSome) :
    write p v m = .ok ((), overwrite m p 1 (fun _ => v)) := by
  rw [write_ok h]
  congr 2
  funext a
  unfold overwrite
  by_cases e : a = p
  · subst e; simp
  · rw [if_neg e, if_neg (by omega)]

/-! ## Scalar loops -/

theorem peakLoop_ok (E : Env α) {m : Mem α} {inp : Nat} {n : BitVec 32} {x : Nat → α} (p0 : α)
    (hn : 0 < n.toNat) (hx : Holds m inp n.toNat x) :
    doWhile (fun (s : Nat × Option α × α) => (do
      let (inp, _, localPeak) := s
      let x ← read inp
      let last := E.S.abs x
      pure (inp + 1, some last, Neon.stdMax E.S localPeak last) : Exec α (Nat × Option α × α)))
      n (inp, none, p0) m
    = .ok ((inp + n.toNat, some (E.S.abs (x (n.toNat - 1))),
        foldSeq (Neon.stdMax E.S) p0 (fun i => E.S.abs (x i)) n.toNat), m) := by
  rw [doWhile_eq_iterM, tripCount_of_pos hn]
  refine (iterM_seq (fun k => (inp + k, (if k = 0 then none else some (E.S.abs (x (k - 1)))),
    foldSeq (Neon.stdMax E.S) p0 (fun i => E.S.abs (x i)) k)) (fun _ => m) n.toNat
    (fun k hk => ?_)).trans ?_
  · refine (Exec.bind_ok (read_ok (hx k hk))).trans ?_
    rfl
  · rw [if_neg (by omega)]

/-- The register-level loop of `peak_vec_simd`. -/
def peakReg (I : VecImpl α) (f : I.V) (x : Nat → α) : Nat → I.V
  | 0 => f
  | k + 1 => fun l =>
    let a := fun q => I.lane.abs (x (k * (4 * I.size) + q * I.size + l))
    I.lane.max_ (peakReg I f x k l) (I.lane.max_ (I.lane.max_ (a 0) (a 1)) (I.lane.max_ (a 2) (a 3)))

/-- The register-level sum of squares of `peak_rms_vec_simd`. -/
def sqrReg (I : VecImpl α) (f : I.V) (x : Nat → α) : Nat → I.V
  | 0 => f
  | k + 1 => fun l =>
    let a := fun q => I.lane.square (x (k * (4 * I.size) + q * I.size + l))
    I.lane.add (sqrReg I f x k l) (I.lane.add (I.lane.add (I.lane.add (a 0) (a 1)) (a 2)) (a 3))

section step
variable {I : VecImpl α} {al : Nat} (hI : I.Lawful al) {m : Mem α} {inp k : Nat} {x : Nat → α} {N : Nat}
  (hal : al ∣ inp) (hx : Holds m inp N x) (hk : (k + 1) * (4 * I.size) ≤ N)
include hI hal hx hk

theorem load_quarter (q : Nat) (hq : q < 4) :
    I.loadAligned (inp + k * (4 * I.size) + q * I.size) m
      = .ok (fun l => x (k * (4 * I.size) + q * I.size + l), m) := by
  have h1 : al ∣ inp + k * (4 * I.size) + q * I.size :=
    Nat.dvd_add (Nat.dvd_add hal (Dvd.dvd.mul_left (Dvd.dvd.mul_left hI.al_dvd _) _))
      (Dvd.dvd.mul_left hI.al_dvd _)
  rw [hI.loadAligned _ h1, Nat.add_assoc]
  apply reg_holds hx
  have h2 : (q + 1) * I.size ≤ 4 * I.size := Nat.mul_le_mul_right _ hq
  rw [Nat.succ_mul] at hk h2
  omega

theorem peakStep_ok (f : I.V) :
    peakStep I (inp + k * (4 * I.size)) (peakReg I f x k) m
      = .ok ((peakReg I f x (k + 1),
          fun l => I.lane.abs (x (k * (4 * I.size) + 3 * I.size + l))), m) := by
  have h0 := load_quarter hI hal hx hk 0 (by decide)
  have h1 := load_quarter hI hal hx hk 1 (by decide)
  have h2 := load_quarter hI hal hx hk 2 (by decide)
  have h3 := load_quarter hI hal hx hk 3 (by decide)
  rw [Nat.zero_mul, Nat.add_zero] at h0
  rw [Nat.one_mul] at h1
  unfold peakStep
  rw [Exec.bind_ok h0, Exec.bind_ok h1, Exec.bind_ok h2, Exec.bind_ok h3]
  show Except.ok ((_, _), m) = _
  congr 3
  funext l
  show I.lane.max_ _ _ = I.lane.max_ _ _
  simp only [Nat.zero_mul, Nat.add_zero, Nat.one_mul]
  rfl

theorem peakRmsStep_ok (f g : I.V) :
    peakRmsStep I (inp + k * (4 * I.size)) (peakReg I f x k) (sqrReg I g x k) m
      = .ok ((peakReg I f x (k + 1), sqrReg I g x (k + 1)), m) := by
  have h0 := load_quarter hI hal hx hk 0 (by decide)
  have h1 := load_quarter hI hal hx hk 1 (by decide)
  have h2 := load_quarter hI hal hx hk 2 (by decide)
  have h3 := load_quarter hI hal hx hk 3 (by decide)
  rw [Nat.zero_mul, Nat.add_zero] at h0
  rw [Nat.one_mul] at h1
  unfold peakRmsStep
  rw [Exec.bind_ok h0, Exec.bind_ok h1, Exec.bind_ok h2, Exec.bind_ok h3]
  show Except.ok ((_, _), m) = _
  congr 3
  · funext l
    show I.lane.max_ _ _ = I.lane.max_ _ _
    simp only [Nat.zero_mul, Nat.add_zero, Nat.one_mul]
    rfl
  · funext l
    show I.lane.add _ _ = I.lane.add _ _
    simp only [Nat.zero_mul, Nat.add_zero, Nat.one_mul]
    rfl

end step

section simdLoop
variable {I : VecImpl α} {al : Nat} (hI : I.Lawful al) {m : Mem α} {inp : Nat} {n : BitVec 32}
  {x : Nat → α} (hal : al ∣ inp) (hsmall : 4 * I.size < 2 ^ 32) (hn : 4 * I.size ≤ n.toNat)
  (hx : Holds m inp n.toNat x)
include hI hal hsmall hn hx

omit hI hal hsmall hn hx in
theorem unroll_le {k : Nat} (hk : k < n.toNat / (4 * I.size)) : (k + 1) * (4 * I.size) ≤ n.toNat :=
  (Nat.mul_le_mul_right _ hk).trans (Nat.div_mul_le_self _ _)

theorem peakSimd_ok {peak : Nat} {f : I.V} (hf : I.loadFirst peak m = .ok (f, m))
    (hp : (m peak).isSome) (hget : ∀ v : I.V, I.get v (I.size - 1)
      = .ok (v ⟨I.size - 1, Nat.sub_lt I.size_pos Nat.one_pos⟩)) :
    peakVecSimd I inp peak n m
      = .ok (I.lane.abs (x (n.toNat / (4 * I.size) * (4 * I.size) - 1)),
          overwrite m peak 1 (fun _ => I.horizontalMax (peakReg I f x (n.toNat / (4 * I.size))))) := by
  unfold peakVecSimd
  rw [Exec.bind_ok hf]
  have hpos : 0 < 4 * I.size := by have := I.size_pos; omega
  have hK : 0 < n.toNat / (4 * I.size) := Nat.div_pos hn hpos
  have hloop := iterM_seq (body := fun (s : Nat × I.V × Option I.V) => (do
      let (inp, maximum, _) := s
      let (maximum, abs3) ← peakStep I inp maximum
      pure (inp + 4 * I.size, maximum, some abs3) : Exec α (Nat × I.V × Option I.V)))
    (fun k => (inp + k * (4 * I.size), peakReg I f x k,
      (if k = 0 then none else some fun l : Fin I.size =>
        I.lane.abs (x ((k - 1) * (4 * I.size) + 3 * I.size + l)))))
    (fun _ => m) (n.toNat / (4 * I.size)) (fun k hk => by
      show (peakStep I (inp + k * (4 * I.size)) (peakReg I f x k) >>= _) m = _
      rw [Exec.bind_ok (peakStep_ok hI hal hx (unroll_le hk) f)]
      have e : inp + k * (4 * I.size) + 4 * I.size = inp + (k + 1) * (4 * I.size) := by ring
      show Except.ok ((inp + k * (4 * I.size) + 4 * I.size, _, _), m) = Except.ok ((_, _, _), m)
      rw [e, if_neg (Nat.succ_ne_zero k)]
      rfl)
  rw [if_pos rfl, Nat.zero_mul, Nat.add_zero] at hloop
  show (doWhile _ _ _ >>= _) m = _
  rw [doWhile_eq_iterM, tripCount_div hpos hsmall hn]
  refine (Exec.bind_ok hloop).trans ?_
  show (write peak _ >>= _) m = _
  rw [Exec.bind_ok (write_one hp), if_neg (by omega)]
  show Exec.lift (I.get _ _) _ = _
  rw [hget]
  show Except.ok (_, _) = Except.ok (_, _)
  congr 4
  show (n.toNat / (4 * I.size) - 1) * (4 * I.size) + 3 * I.size + (I.size - 1)
    = n.toNat / (4 * I.size) * (4 * I.size) - 1
  generalize n.toNat / (4 * I.size) = K at hK
  obtain ⟨K, rfl⟩ : ∃ K', K = K' + 1 := ⟨K - 1, by omega⟩
  have := I.size_pos
  have e : (K + 1) * (4 * I.size) = K * (4 * I.size) + 4 * I.size := Nat.succ_mul _ _
  rw [Nat.add_sub_cancel, e]
  generalize K * (4 * I.size) = Z
  omega

theorem peakRmsSimd_ok {peak sq : Nat} {f g : I.V} (hf : I.loadFirst peak m = .ok (f, m))
    (hg : I.loadFirst sq m = .ok (g, m)) (hp : (m peak).isSome) (hs : (m sq).isSome) :
    peakRmsVecSimd I inp peak sq n m
      = .ok ((), overwrite (overwrite m peak 1
            (fun _ => I.horizontalMax (peakReg I f x (n.toNat / (4 * I.size))))) sq 1
          (fun _ => I.horizontalSum (sqrReg I g x (n.toNat / (4 * I.size))))) := by
  unfold peakRmsVecSimd
  rw [Exec.bind_ok hf, Exec.bind_ok hg]
  have hpos : 0 < 4 * I.size := by have := I.size_pos; omega
  have hloop := iterM_seq (body := fun (s : Nat × I.V × I.V) => (do
      let (inp, maximum, localSum) := s
      let (maximum, localSum) ← peakRmsStep I inp maximum localSum
      pure (inp + 4 * I.size, maximum, localSum) : Exec α (Nat × I.V × I.V)))
    (fun k => (inp + k * (4 * I.size), peakReg I f x k, sqrReg I g x k))
    (fun _ => m) (n.toNat / (4 * I.size)) (fun k hk => by
      show (peakRmsStep I (inp + k * (4 * I.size)) (peakReg I f x k) (sqrReg I g x k) >>= _) m = _
      rw [Exec.bind_ok (peakRmsStep_ok hI hal hx (unroll_le hk) f g)]
      have e : inp + k * (4 * I.size) + 4 * I.size = inp + (k + 1) * (4 * I.size) := by ring
      show Except.ok ((inp + k * (4 * I.size) + 4 * I.size, _, _), m) = Except.ok ((_, _, _), m)
      rw [e])
  rw [Nat.zero_mul, Nat.add_zero] at hloop
  show (doWhile _ _ _ >>= _) m = _
  rw [doWhile_eq_iterM, tripCount_div hpos hsmall hn]
  refine (Exec.bind_ok hloop).trans ?_
  show (write peak _ >>= _) m = _
  rw [Exec.bind_ok (write_one hp)]
  exact write_one (overwrite_alloc hs)

end simdLoop

/-! ## What the registers hold -/
section contents

theorem four_blocks (a : Nat → α) (w k : Nat) (l : Nat) :
    {y | ∃ j, j < (k + 1) * 4 ∧ y = a (j * w + l)}
      = {a (k * (4 * w) + 0 * w + l), a (k * (4 * w) + 1 * w + l), a (k * (4 * w) + 2 * w + l),
          a (k * (4 * w) + 3 * w + l)} ∪ {y | ∃ j, j < k * 4 ∧ y = a (j * w + l)} := by
  have e : ∀ q, k * (4 * w) + q * w + l = (k * 4 + q) * w + l := fun q => by ring
  simp only [e]
  ext y
  simp only [Set.mem_ofPred_eq, Set.mem_union, Set.mem_insert_iff, Set.mem_singleton_iff]
  constructor
  · rintro ⟨j, hj, h⟩
    rcases Nat.lt_or_ge j (k * 4) with hlt | hge
    · exact Or.inr ⟨j, hlt, h⟩
    · left
      obtain ⟨q, rfl⟩ : ∃ q, j = k * 4 + q := ⟨j - k * 4, by omega⟩
      have hq : q < 4 := by omega
      interval_cases q
      · exact Or.inl h
      · exact Or.inr (Or.inl h)
      · exact Or.inr (Or.inr (Or.inl h))
      · exact Or.inr (Or.inr (Or.inr h))
  · rintro ((h | h | h | h) | ⟨j, hj, h⟩)
    · exact ⟨k * 4 + 0, by omega, h⟩
    · exact ⟨k * 4 + 1, by omega, h⟩
    · exact ⟨k * 4 + 2, by omega, h⟩
    · exact ⟨k * 4 + 3, by omega, h⟩
    · exact ⟨j, by omega, h⟩

theorem peakReg_greatest [LinearOrder α] {I : VecImpl α} (hmax : ∀ a b, I.lane.max_ a b = max a b)
    (f : I.V) (x : Nat → α) (k : Nat) (l : Fin I.size) :
    IsGreatest (insert (f l) {y | ∃ j, j < k * 4 ∧ y = I.lane.abs (x (j * I.size + l))})
      (peakReg I f x k l) := by
  induction k with
  | zero => simp [peakReg]
  | succ k ih =>
    have hs := four_blocks (fun i => I.lane.abs (x i)) I.size k l
    rw [hs, ← Set.union_insert, Set.union_comm]
    simp only [peakReg, hmax]
    refine ih.union ?_
    generalize I.lane.abs (x (k * (4 * I.size) + 0 * I.size + l)) = a
    generalize I.lane.abs (x (k * (4 * I.size) + 1 * I.size + l)) = b
    generalize I.lane.abs (x (k * (4 * I.size) + 2 * I.size + l)) = c
    generalize I.lane.abs (x (k * (4 * I.size) + 3 * I.size + l)) = d
    constructor
    · rcases max_choice (max a b) (max c d) with h | h <;> rw [h]
      · rcases max_choice a b with h | h <;> rw [h] <;> simp
      · rcases max_choice c d with h | h <;> rw [h] <;> simp
    · rintro y (rfl | rfl | rfl | rfl) <;> simp

theorem sqrReg_sum [CommRing α] {I : VecImpl α} (hA : I.lane.Exact) (g : I.V) (x : Nat → α) (k : Nat)
    (l : Fin I.size) :
    sqrReg I g x k l = g l + ∑ j ∈ Finset.range (k * 4), x (j * I.size + l) * x (j * I.size + l) := by
  induction k with
  | zero => simp [sqrReg]
  | succ k ih =>
    have e : ∀ q, k * (4 * I.size) + q * I.size + l = (k * 4 + q) * I.size + l := fun q => by ring
    have e4 : (k + 1) * 4 = k * 4 + 1 + 1 + 1 + 1 := by ring
    simp only [sqrReg, hA.add, hA.square, ih, e, e4]
    rw [Finset.sum_range_succ, Finset.sum_range_succ, Finset.sum_range_succ, Finset.sum_range_succ]
    simp only [Nat.add_zero, add_assoc]

end contents

theorem Target.four_size_small (t : Target) (E : Env α) : 4 * (t.vec E).size < 2 ^ 32 := by
  rw [t.vec_size]; cases t <;> simp [Target.size]

theorem Target.get_last (t : Target) (E : Env α) (v : (t.vec E).V) :
    (t.vec E).get v ((t.vec E).size - 1)
      = .ok (v ⟨(t.vec E).size - 1, Nat.sub_lt (t.vec E).size_pos Nat.one_pos⟩) :=
  C32_get t E v ⟨(t.vec E).size - 1, Nat.sub_lt (t.vec E).size_pos Nat.one_pos⟩

/-! ## C23 -/

/-- `peak_vec` leaves in `*peak` the largest of its old value and all `|in[i]|`, returns `|in[n-1]|` and
changes nothing else.  `peak` may even point into the buffer. -/
theorem C23_peak [LinearOrder α] [AddGroup α] (E : Env α) (hE : E.Ordered) (hA : E.ExactAbs)
    {m : Mem α} {inp peak : Nat} {n : BitVec 32} {x : Nat → α} {p0 : α} (hn : 0 < n.toNat)
    (hx : Holds m inp n.toNat x) (hp : m peak = some p0) :
    ∃ P, IsGreatest (insert p0 (Elems (fun i => |x i|) n.toNat)) P ∧
      peakVec E inp peak n m = .ok (|x (n.toNat - 1)|, overwrite m peak 1 (fun _ => P)) := by
  have hs : (m peak).isSome := by rw [hp]; rfl
  have h : peakVec E inp peak n m = .ok (E.S.abs (x (n.toNat - 1)), overwrite m peak 1
      (fun _ => foldSeq (Neon.stdMax E.S) p0 (fun i => E.S.abs (x i)) n.toNat)) := by
    unfold peakVec
    rw [Exec.bind_ok (read_ok hp)]
    refine (Exec.bind_ok (peakLoop_ok E p0 hn hx)).trans ?_
    exact (Exec.bind_ok (write_one hs)).trans rfl
  refine ⟨_, ?_, h.trans (by rw [hA.S])⟩
  have := foldSeq_max (stdMax_eq hE.S) p0 (fun i => E.S.abs (x i)) n.toNat
  simp only [hA.S] at this ⊢
  exact this

/-! ## C24 -/

/-- What `peak_vec_simd` computes on every back end: it processes the largest multiple of `4*size`
elements, and the new peak is the largest of those absolute values and of *all lanes* of the register that
`load_first` leaves. -/
theorem C24_exact [LinearOrder α] [AddGroup α] (t : Target) (E : Env α) (hE : E.Ordered)
    (hA : E.ExactAbs) {m : Mem α} {inp peak : Nat} {n : BitVec 32} {x : Nat → α} {p0 : α}
    {f : (t.vec E).V} (hn : 4 * t.size ≤ n.toNat) (hal : t.align ∣ inp) (hx : Holds m inp n.toNat x)
    (hp : m peak = some p0) (hf : (t.vec E).loadFirst peak m = .ok (f, m)) :
    ∃ P, IsGreatest (Set.range f ∪
          Elems (fun i => |x i|) (n.toNat / (4 * t.size) * (4 * t.size))) P ∧
      peakVecSimd (t.vec E) inp peak n m
        = .ok (|x (n.toNat / (4 * t.size) * (4 * t.size) - 1)|, overwrite m peak 1 (fun _ => P)) := by
  have hs : (m peak).isSome := by rw [hp]; rfl
  have hn' : 4 * (t.vec E).size ≤ n.toNat := by rw [t.vec_size]; exact hn
  have h := peakSimd_ok (t.lawful E) hal (t.four_size_small E) hn' hx hf hs (t.get_last E)
  have hmax : ∀ a b, (t.vec E).lane.max_ a b = max a b := by rw [t.lane_eq]; exact hE.L.max_
  have habs : ∀ a, (t.vec E).lane.abs a = |a| := by rw [t.lane_eq]; exact hA.L
  have hg := greatest_iUnion (fun l => peakReg_greatest hmax f x (n.toNat / (4 * (t.vec E).size)) l)
    (C30_max t E hE (peakReg (t.vec E) f x (n.toNat / (4 * (t.vec E).size))))
  have hu := iUnion_lanes (t.vec E).size_pos f (fun i => (t.vec E).lane.abs (x i))
    (n.toNat / (4 * (t.vec E).size) * 4)
  rw [hu] at hg
  simp only [habs, Nat.mul_assoc] at hg
  rw [habs] at h
  generalize Set.range f = R at hg ⊢
  rw [t.vec_size] at h hg
  exact ⟨_, hg, h⟩

theorem mem_split {n : Nat} (hn : 0 < n) {x : Nat → α} : ∃ y, y ∈ Elems x n := ⟨_, 0, hn, rfl⟩

/-- On every back end except AVX, `peak_vec_simd` equals `peak_vec` if `n` is a positive multiple of four
vectors.  The property claims it for every multiple of `samples_per_loop`: see `C24_short_false` and
`C24_tail_false` for the cases where that is less than four vectors, and `C26_avx_false` for AVX. -/
theorem C24_equal_partial [LinearOrder α] [CommRing α] [IsStrictOrderedRing α] (t : Target)
    (ht : t ≠ .avxFloat ∧ t ≠ .avxDouble) (E : Env α) (hX : E.Exact) (hE : E.Ordered) (hA : E.ExactAbs)
    {m : Mem α} {inp peak : Nat} {n : BitVec 32} {x : Nat → α} {p0 : α} (hn : 0 < n.toNat)
    (hdvd : 4 * t.size ∣ n.toNat) (hal : t.align ∣ inp) (hx : Holds m inp n.toNat x)
    (hp : m peak = some p0) :
    peakVecSimd (t.vec E) inp peak n m = peakVec E inp peak n m := by
  obtain ⟨P, hP, e⟩ := C23_peak E hE hA hn hx hp
  obtain ⟨Q, hQ, e'⟩ := C24_exact t E hE hA (Nat.le_of_dvd hn hdvd) hal hx hp
    (C32_load_first_partial t E ht hp)
  rw [Nat.div_mul_cancel hdvd] at hQ e'
  have : P = Q := by
    apply le_antisymm
    · rcases hP.1 with rfl | h
      · refine hQ.2 (Or.inl ⟨⟨0, (t.vec E).size_pos⟩, ?_⟩)
        simp
      · exact hQ.2 (Or.inr h)
    · rcases hQ.1 with ⟨l, rfl⟩ | h
      · by_cases h0 : l.val = 0
        · simp only [h0, if_true]
          exact hP.2 (Or.inl rfl)
        · simp only [h0, if_false, hX.L.zero]
          exact (abs_nonneg (x 0)).trans (hP.2 (Or.inr ⟨0, hn, rfl⟩))
      · exact hP.2 (Or.inr h)
  rw [e, e', this]

theorem peak_short {I : VecImpl α} {al : Nat} (hI : I.Lawful al) {m : Mem α} {inp peak : Nat}
    {n : BitVec 32} {f : I.V} (hn : n.toNat < 4 * I.size) (hal : al ∣ inp)
    (hend : m (inp + n.toNat) = none) (hf : I.loadFirst peak m = .ok (f, m)) :
    ∃ a, peakVecSimd I inp peak n m = .error (.oob a) := by
  have hpos := I.size_pos
  have hstep : ∀ maximum : I.V, ∃ a, peakStep I inp maximum m = .error (.oob a) := by
    intro maximum
    have hq : ∀ q, (∃ v, I.loadAligned (inp + q * I.size) m = .ok (v, m)) ∨
        I.loadAligned (inp + q * I.size) m = .error (.oob (inp + q * I.size)) := by
      intro q
      rw [hI.loadAligned _ (Nat.dvd_add hal (Dvd.dvd.mul_left hI.al_dvd _))]
      unfold readVec
      split
      · exact Or.inl ⟨_, rfl⟩
      · exact Or.inr rfl
    have hbad : I.loadAligned (inp + n.toNat / I.size * I.size) m
        = .error (.oob (inp + n.toNat / I.size * I.size)) := by
      rw [hI.loadAligned _ (Nat.dvd_add hal (Dvd.dvd.mul_left hI.al_dvd _))]
      refine readVec_fault (i := n.toNat % I.size) (Nat.mod_lt _ hpos) ?_
      rw [Nat.add_assoc, Nat.div_add_mod', hend]
    have hlt : n.toNat / I.size < 4 := Nat.div_lt_of_lt_mul (by rwa [Nat.mul_comm])
    unfold peakStep
    have h0 := hq 0
    have h1 := hq 1
    have h2 := hq 2
    have h3 := hq 3
    rw [Nat.zero_mul, Nat.add_zero] at h0
    rw [Nat.one_mul] at h1
    rcases h0 with ⟨v0, h0⟩ | h0
    · rw [Exec.bind_ok h0]
      rcases h1 with ⟨v1, h1⟩ | h1
      · rw [Exec.bind_ok h1]
        rcases h2 with ⟨v2, h2⟩ | h2
        · rw [Exec.bind_ok h2]
          rcases h3 with ⟨v3, h3⟩ | h3
          · exfalso
            generalize hqe : n.toNat / I.size = q at hbad hlt
            interval_cases q
            · rw [Nat.zero_mul, Nat.add_zero, h0] at hbad; cases hbad
            · rw [Nat.one_mul, h1] at hbad; cases hbad
            · rw [h2] at hbad; cases hbad
            · rw [h3] at hbad; cases hbad
          · exact ⟨_, Exec.bind_error h3⟩
        · exact ⟨_, Exec.bind_error h2⟩
      · exact ⟨_, Exec.bind_error h1⟩
    · exact ⟨_, Exec.bind_error h0⟩
  obtain ⟨a, ha⟩ := hstep f
  refine ⟨a, ?_⟩
  unfold peakVecSimd
  rw [Exec.bind_ok hf]
  show (doWhile _ _ _ >>= _) m = _
  rw [doWhile_eq_iterM]
  obtain ⟨K, hK⟩ : ∃ K, tripCount (n / BitVec.ofNat 32 (4 * I.size)) = K + 1 :=
    ⟨_, (Nat.succ_pred_eq_of_pos (tripCount_pos _)).symm⟩
  rw [hK]
  apply Exec.bind_error
  rw [iterM]
  apply Exec.bind_error
  exact Exec.bind_error ha

/-- With fewer than four vectors the division yields 0, the loop counter wraps around and the first
iteration already reads past the end of a buffer of exactly `n` elements. -/
theorem C24_short (t : Target) (E : Env α) {m : Mem α} {inp peak : Nat} {n : BitVec 32} {f : (t.vec E).V}
    (hn : n.toNat < 4 * t.size) (hal : t.align ∣ inp) (hend : m (inp + n.toNat) = none)
    (hf : (t.vec E).loadFirst peak m = .ok (f, m)) :
    ∃ a, peakVecSimd (t.vec E) inp peak n m = .error (.oob a) := by
  exact peak_short (t.lawful E) (by rw [t.vec_size]; exact hn) hal hend hf

/-! ## C25 -/

/-- `peak_rms_vec` -/
theorem C25_scalar [LinearOrder α] [CommRing α] (E : Env α) (hX : E.Exact) (hE : E.Ordered)
    (hA : E.ExactAbs) {m : Mem α} {inp peak sq : Nat} {n : BitVec 32} {x : Nat → α} {p0 s0 : α}
    (hn : 0 < n.toNat) (hx : Holds m inp n.toNat x) (hp : m peak = some p0) (hs : m sq = some s0) :
    ∃ P, IsGreatest (insert p0 (Elems (fun i => |x i|) n.toNat)) P ∧
      peakRmsVec E inp peak sq n m = .ok ((), overwrite (overwrite m peak 1 (fun _ => P)) sq 1
        (fun _ => s0 + ∑ i ∈ Finset.range n.toNat, x i * x i)) := by
  have hps : (m peak).isSome := by rw [hp]; rfl
  have hss : (m sq).isSome := by rw [hs]; rfl
  have hloop := iterM_seq (body := fun (s : Nat × α × α) => (do
      let (inp, localPeak, localSum) := s
      let inSample ← read inp
      let last := E.S.abs inSample
      pure (inp + 1, Neon.stdMax E.S localPeak last,
        E.S.add localSum (E.S.mul inSample inSample)) : Exec α (Nat × α × α)))
    (fun k => (inp + k, foldSeq (Neon.stdMax E.S) p0 (fun i => E.S.abs (x i)) k,
      foldSeq E.S.add s0 (fun i => E.S.mul (x i) (x i)) k)) (fun _ => m) n.toNat (fun k hk => by
      refine (Exec.bind_ok (read_ok (hx k hk))).trans ?_
      rfl)
  refine ⟨foldSeq (Neon.stdMax E.S) p0 (fun i => E.S.abs (x i)) n.toNat, ?_, ?_⟩
  · have := foldSeq_max (stdMax_eq hE.S) p0 (fun i => E.S.abs (x i)) n.toNat
    simp only [hA.S] at this ⊢
    exact this
  · unfold peakRmsVec
    rw [Exec.bind_ok (read_ok hp), Exec.bind_ok (read_ok hs), doWhile_eq_iterM, tripCount_of_pos hn]
    refine (Exec.bind_ok hloop).trans ?_
    refine (Exec.bind_ok (write_one hps)).trans ?_
    refine (write_one (overwrite_alloc hss)).trans ?_
    rw [foldSeq_add hX.S.add]
    simp only [hX.S.mul]

/-- What `peak_rms_vec_simd` computes on every back end. -/
theorem C25_exact [LinearOrder α] [CommRing α] (t : Target) (E : Env α) (hX : E.Exact)
    (hE : E.Ordered) (hA : E.ExactAbs) {m : Mem α} {inp peak sq : Nat} {n : BitVec 32} {x : Nat → α}
    {p0 s0 : α} {f g : (t.vec E).V} (hn : 4 * t.size ≤ n.toNat) (hal : t.align ∣ inp)
    (hx : Holds m inp n.toNat x) (hp : m peak = some p0) (hs : m sq = some s0)
    (hf : (t.vec E).loadFirst peak m = .ok (f, m)) (hg : (t.vec E).loadFirst sq m = .ok (g, m)) :
    ∃ P, IsGreatest (Set.range f ∪
          Elems (fun i => |x i|) (n.toNat / (4 * t.size) * (4 * t.size))) P ∧
      peakRmsVecSimd (t.vec E) inp peak sq n m
        = .ok ((), overwrite (overwrite m peak 1 (fun _ => P)) sq 1 (fun _ => ∑ l, g l +
            ∑ i ∈ Finset.range (n.toNat / (4 * t.size) * (4 * t.size)), x i * x i)) := by
  have hps : (m peak).isSome := by rw [hp]; rfl
  have hss : (m sq).isSome := by rw [hs]; rfl
  have hn' : 4 * (t.vec E).size ≤ n.toNat := by rw [t.vec_size]; exact hn
  have h := peakRmsSimd_ok (t.lawful E) hal (t.four_size_small E) hn' hx hf hg hps hss
  have hmax : ∀ a b, (t.vec E).lane.max_ a b = max a b := by rw [t.lane_eq]; exact hE.L.max_
  have habs : ∀ a, (t.vec E).lane.abs a = |a| := by rw [t.lane_eq]; exact hA.L
  have hG := greatest_iUnion (fun l => peakReg_greatest hmax f x (n.toNat / (4 * (t.vec E).size)) l)
    (C30_max t E hE (peakReg (t.vec E) f x (n.toNat / (4 * (t.vec E).size))))
  have hu := iUnion_lanes (t.vec E).size_pos f (fun i => (t.vec E).lane.abs (x i))
    (n.toNat / (4 * (t.vec E).size) * 4)
  rw [hu] at hG
  simp only [habs, Nat.mul_assoc] at hG
  have hsum : (t.vec E).horizontalSum (sqrReg (t.vec E) g x (n.toNat / (4 * (t.vec E).size)))
      = ∑ l, g l + ∑ i ∈ Finset.range (n.toNat / (4 * (t.vec E).size) * (4 * (t.vec E).size)),
          x i * x i := by
    rw [C30_sum t E hX]
    have := sum_lanes g (fun i => x i * x i) (n.toNat / (4 * (t.vec E).size) * 4)
    rw [Nat.mul_assoc] at this
    rw [← this]
    refine Finset.sum_congr rfl fun l _ => ?_
    exact sqrReg_sum (by rw [t.lane_eq]; exact hX.L) g x _ l
  rw [hsum] at h
  generalize ∑ l, g l = S at h ⊢
  generalize Set.range f = R at hG ⊢
  rw [t.vec_size] at h hG
  exact ⟨_, hG, h⟩

/-- On every back end except AVX, `peak_rms_vec_simd` equals `peak_rms_vec` if `n` is a positive multiple
of four vectors. -/
theorem C25_equal_partial [LinearOrder α] [CommRing α] [IsStrictOrderedRing α] (t : Target)
    (ht : t ≠ .avxFloat ∧ t ≠ .avxDouble) (E : Env α) (hX : E.Exact) (hE : E.Ordered) (hA : E.ExactAbs)
    {m : Mem α} {inp peak sq : Nat} {n : BitVec 32} {x : Nat → α} {p0 s0 : α} (hn : 0 < n.toNat)
    (hdvd : 4 * t.size ∣ n.toNat) (hal : t.align ∣ inp) (hx : Holds m inp n.toNat x)
    (hp : m peak = some p0) (hs : m sq = some s0) :
    peakRmsVecSimd (t.vec E) inp peak sq n m = peakRmsVec E inp peak sq n m := by
  obtain ⟨P, hP, e⟩ := C25_scalar E hX hE hA hn hx hp hs
  obtain ⟨Q, hQ, e'⟩ := C25_exact t E hX hE hA (Nat.le_of_dvd hn hdvd) hal hx hp hs
    (C32_load_first_partial t E ht hp) (C32_load_first_partial t E ht hs)
  rw [Nat.div_mul_cancel hdvd] at hQ e'
  have h1 : P = Q := by
    apply le_antisymm
    · rcases hP.1 with rfl | h
      · refine hQ.2 (Or.inl ⟨⟨0, (t.vec E).size_pos⟩, ?_⟩)
        simp
      · exact hQ.2 (Or.inr h)
    · rcases hQ.1 with ⟨l, rfl⟩ | h
      · by_cases h0 : l.val = 0
        · simp only [h0, if_true]
          exact hP.2 (Or.inl rfl)
        · simp only [h0, if_false, hX.L.zero]
          exact (abs_nonneg (x 0)).trans (hP.2 (Or.inr ⟨0, hn, rfl⟩))
      · exact hP.2 (Or.inr h)
  have h2 : (∑ l : Fin (t.vec E).size, if l.val = 0 then s0 else E.L.zero) = s0 := by
    rw [Finset.sum_eq_single (⟨0, (t.vec E).size_pos⟩ : Fin (t.vec E).size)]
    · simp
    · intro b _ hb
      rw [if_neg (fun h => hb (Fin.ext h)), hX.L.zero]
    · intro h; exact absurd (Finset.mem_univ _) h
  rw [e, e', h1, h2]

/-! ## C26 -/

/-- On every back end except AVX the meters - indeed every function of the vector class - do not depend on
the contents of registers that were never written. -/
theorem C26_partial (t : Target) (ht : t ≠ .avxFloat ∧ t ≠ .avxDouble) (E : Env α) (junk : Nat → α) :
    (∀ inp peak n, peakVecSimd (t.vec { E with junk := junk }) inp peak n
      = peakVecSimd (t.vec E) inp peak n) ∧
    ∀ inp peak sq n, peakRmsVecSimd (t.vec { E with junk := junk }) inp peak sq n
      = peakRmsVecSimd (t.vec E) inp peak sq n := by
  have : t.vec { E with junk := junk } = t.vec E := by
    cases t <;> first | rfl | exact absurd rfl ht.1 | exact absurd rfl ht.2
  rw [this]
  exact ⟨fun _ _ _ => rfl, fun _ _ _ _ => rfl⟩

/-! ## Witnesses against C24 and C26 -/
section witnesses
open Examples

/-- An integer build whose uninitialised lanes contain `j`. -/
def junkEnv (j : Int) : Env Int := { intEnv with junk := fun _ => j }

/-- 48 zeros, except that element 40 is 5; cell 48 is the peak, 0. -/
def tailMem : Mem Int := fun a => if a < 49 then some (if a = 40 then 5 else 0) else none

theorem tailMem_holds (k : Nat) (hk : k ≤ 49) : Holds tailMem 0 k (fun i => if i = 40 then 5 else 0) :=
  fun i hi => by
    rw [Nat.zero_add]
    exact if_pos (by omega)

theorem junkEnv_ordered (j : Int) : (junkEnv j).Ordered := ⟨intArith_ordered, intArith_ordered⟩
theorem junkEnv_abs (j : Int) : (junkEnv j).ExactAbs := ⟨intEnv_abs.S, intEnv_abs.L⟩

/-- C26 fails on AVX: the same call on the same memory leaves different peaks, depending on what was in
the register. -/
theorem C26_avx_false : ∃ j j' : Int,
    cellAfter (peakVecSimd (Target.avxFloat.vec (junkEnv j)) 0 48 48) tailMem 48
      ≠ cellAfter (peakVecSimd (Target.avxFloat.vec (junkEnv j')) 0 48 48) tailMem 48 := by
  refine ⟨7, 9, ?_⟩
  have h : ∀ j : Int, 0 ≤ j →
      cellAfter (peakVecSimd (Target.avxFloat.vec (junkEnv j)) 0 48 48) tailMem 48 = some j := by
    intro j hj
    obtain ⟨P, hP, e⟩ := C24_exact .avxFloat (junkEnv j) (junkEnv_ordered j) (junkEnv_abs j) (n := 48) (peak := 48)
      (by decide) (dvd_zero _) (tailMem_holds _ (by decide)) (p0 := 0) rfl
      (C32_load_first_avx (junkEnv j) (x := 0) rfl).1
    unfold cellAfter
    rw [e]
    show some P = some j
    congr 1
    refine hP.unique ⟨Or.inl ⟨(4 : Fin 8), rfl⟩, ?_⟩
    rintro y (⟨l, rfl⟩ | ⟨i, hi, rfl⟩)
    · show (if l.val = 0 then (0 : Int) else if l.val < 4 then 0 else j) ≤ j
      split
      · exact hj
      · split
        · exact hj
        · exact le_rfl
    · have hi' : i < 32 := hi
      have : i ≠ 40 := by omega
      simpa [this] using hj
  rw [h 7 (by decide), h 9 (by decide)]
  decide

/-- C24 fails on AVX even if the uninitialised lanes happen to be zero: 48 elements are a multiple of
`samples_per_loop = 16`, but the SIMD version ignores the last 16. -/
theorem C24_tail_false : (Target.avxFloat.vec (junkEnv 0)).perLine ∣ 48 ∧
    cellAfter (peakVecSimd (Target.avxFloat.vec (junkEnv 0)) 0 48 48) tailMem 48 = some 0 ∧
    cellAfter (peakVec (junkEnv 0) 0 48 48) tailMem 48 = some 5 := by
  refine ⟨by decide, ?_, ?_⟩
  · obtain ⟨P, hP, e⟩ := C24_exact .avxFloat (junkEnv 0) (junkEnv_ordered 0) (junkEnv_abs 0) (n := 48) (peak := 48)
      (by decide) (dvd_zero _) (tailMem_holds _ (by decide)) (p0 := 0) rfl
      (C32_load_first_avx (junkEnv 0) (x := 0) rfl).1
    unfold cellAfter
    rw [e]
    show some P = some 0
    congr 1
    refine hP.unique ⟨Or.inl ⟨(4 : Fin 8), rfl⟩, ?_⟩
    rintro y (⟨l, rfl⟩ | ⟨i, hi, rfl⟩)
    · show (if l.val = 0 then (0 : Int) else if l.val < 4 then 0 else 0) ≤ 0
      simp
    · have hi' : i < 32 := hi
      have : i ≠ 40 := by omega
      simp [this]
  · obtain ⟨P, hP, e⟩ := C23_peak (junkEnv 0) (junkEnv_ordered 0) (junkEnv_abs 0) (n := 48) (peak := 48)
      (by decide) (tailMem_holds _ (by decide)) (p0 := 0) rfl
    unfold cellAfter
    rw [e]
    show some P = some 5
    congr 1
    refine hP.unique ⟨Or.inr ⟨40, by decide, rfl⟩, ?_⟩
    rintro y (rfl | ⟨i, hi, rfl⟩)
    · decide
    · by_cases h : i = 40 <;> simp [h]

/-- C24 fails on AVX for 16 elements = `samples_per_loop`: with no memory after the buffer the call faults.
(The peak cell is at address 100.) -/
theorem C24_short_false : (Target.avxFloat.vec intEnv).perLine ∣ 16 ∧
    ∃ a, peakVecSimd (Target.avxFloat.vec intEnv) 0 100 16
      (fun a => if a < 16 ∨ a = 100 then some 0 else none) = .error (.oob a) :=
  ⟨by decide, C24_short .avxFloat intEnv (by decide) (dvd_zero _) rfl
    (C32_load_first_avx intEnv (x := 0) rfl).1⟩

/-- The same for the generic `double` back end with 8 elements = `samples_per_loop`. -/
theorem C24_short_generic_false : (Target.genericDouble.vec intEnv).perLine ∣ 8 ∧
    ∃ a, peakVecSimd (Target.genericDouble.vec intEnv) 0 100 8
      (fun a => if a < 8 ∨ a = 100 then some 0 else none) = .error (.oob a) :=
  ⟨by decide, C24_short .genericDouble intEnv (by decide) (dvd_zero _) rfl
    (C32_load_first_partial .genericDouble intEnv ⟨by decide, by decide⟩ (x := 0) rfl)⟩

/-- The hypotheses of the positive theorem are satisfiable (16 elements, SSE). -/
example : peakVecSimd ((Target.sse true true).vec intEnv) 0 48 16 tailMem = peakVec intEnv 0 48 16 tailMem :=
  C24_equal_partial (.sse true true) ⟨by decide, by decide⟩ intEnv intEnv_exact intEnv_ordered intEnv_abs
    (by decide) (by decide) (dvd_zero _) (tailMem_holds _ (by decide)) (p0 := 0) rfl

example : peakRmsVecSimd (Target.neon.vec intEnv) 0 48 47 16 tailMem = peakRmsVec intEnv 0 48 47 16 tailMem :=
  C25_equal_partial .neon ⟨by decide, by decide⟩ intEnv intEnv_exact intEnv_ordered intEnv_abs
    (by decide) (by decide) (dvd_zero _) (tailMem_holds _ (by decide)) (p0 := 0) (s0 := 0) rfl rfl

end witnesses

end Nova
