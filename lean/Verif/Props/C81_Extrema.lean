import Verif.Lemmas.FloatExtrema
import Verif.Props.C79_Sums

/-!
# C81  Extrema and peaks of actual `float`s and `double`s

C23, C24, C28 and C29 are about exact numbers.  Here the elements are bit patterns and the comparisons are those of the
hardware.
-/

namespace Nova
open FP Spec

section generic
variable {w : Nat} {F : Fmt w} {E : Env (BitVec w)} {m : Mem (BitVec w)} {inp : Nat} {n : BitVec 32} {x : Nat → BitVec w}

theorem ext_max (hE : Extr F E) {lim : Limits (BitVec w)} (hn : 0 < n.toNat) (hx : Holds m inp n.toNat x)
    (hl : Num F lim.min) (hv : ∀ i < n.toNat, Num F (x i)) :
    ∃ r, horizontalMaxVec E lim inp n m = .ok (r, m) ∧ IsMaximum F (insert lim.min (Elems x n.toNat)) r :=
  ⟨_, foldVec_ok hn hx, hmax_run hE _ hl hv⟩

theorem ext_min (hE : Extr F E) {lim : Limits (BitVec w)} (hn : 0 < n.toNat) (hx : Holds m inp n.toNat x)
    (hl : Num F lim.min) (hv : ∀ i < n.toNat, Num F (x i)) :
    ∃ r, horizontalMinVec E lim inp n m = .ok (r, m) ∧ IsMinimum F (insert lim.min (Elems x n.toNat)) r :=
  ⟨_, foldVec_ok hn hx, hmin_run hE _ hl hv⟩

theorem ext_minmax (hE : Extr F E) {lim : Limits (BitVec w)} (hn : 0 < n.toNat) (hx : Holds m inp n.toNat x)
    (hl : Num F lim.min) (hl' : Num F lim.max) (hv : ∀ i < n.toNat, Num F (x i)) :
    ∃ lo hi, horizontalMinmaxVec E lim inp n m = .ok ((lo, hi), m) ∧
      IsMinimum F (insert lim.max (Elems x n.toNat)) lo ∧ IsMaximum F (insert lim.min (Elems x n.toNat)) hi := by
  refine ⟨_, _, ?_, hmin_run hE _ hl' hv, hmax_run hE _ hl hv⟩
  unfold horizontalMinmaxVec
  rw [Exec.bind_ok (foldVec_ok hn hx), foldSeq_prod]
  rfl

theorem ext_maxsum (hE : Extr F E) {lim : Limits (BitVec w)} (hn : 0 < n.toNat) (hx : Holds m inp n.toNat x)
    (hl : Num F lim.min) (hv : ∀ i < n.toNat, Num F (x i)) :
    ∃ r s, horizontalMaxsumVec E lim inp n m = .ok ((r, s), m) ∧ IsMaximum F (insert lim.min (Elems x n.toNat)) r :=
  ⟨_, _, (foldVec_ok hn hx).trans (by rw [foldSeq_prod (Neon.stdMax E.S) E.S.add]), hmax_run hE _ hl hv⟩

variable {t : Target}

theorem ext_max_simd (hE : Extr F E) {lim : Limits (BitVec w)} (h : SimdInput t m inp n x)
    (hl : Num F lim.min) (hv : ∀ i < n.toNat, Num F (x i)) :
    ∃ r, horizontalMaxVecSimd (t.vec E) lim inp n m = .ok (r, m) ∧ IsMaximum F (insert lim.min (Elems x n.toNat)) r := by
  refine ⟨_, ?_, hmax_simd_run hE h _ hl hv⟩
  unfold horizontalMaxVecSimd
  rw [Exec.bind_ok (h.fold E _ _)]; rfl

theorem ext_min_simd (hE : Extr F E) {lim : Limits (BitVec w)} (h : SimdInput t m inp n x)
    (hl : Num F lim.min) (hv : ∀ i < n.toNat, Num F (x i)) :
    ∃ r, horizontalMinVecSimd (t.vec E) lim inp n m = .ok (r, m) ∧ IsMinimum F (insert lim.min (Elems x n.toNat)) r := by
  refine ⟨_, ?_, hmin_simd_run hE h _ hl hv⟩
  unfold horizontalMinVecSimd
  rw [Exec.bind_ok (h.fold E _ _)]; rfl

theorem ext_minmax_simd (hE : Extr F E) {lim : Limits (BitVec w)} (h : SimdInput t m inp n x)
    (hl : Num F lim.min) (hl' : Num F lim.max) (hv : ∀ i < n.toNat, Num F (x i)) :
    ∃ lo hi, horizontalMinmaxVecSimd (t.vec E) lim inp n m = .ok ((lo, hi), m) ∧
      IsMinimum F (insert lim.max (Elems x n.toNat)) lo ∧ IsMaximum F (insert lim.min (Elems x n.toNat)) hi := by
  refine ⟨_, _, ?_, hmin_simd_run hE h _ hl' hv, hmax_simd_run hE h _ hl hv⟩
  unfold horizontalMinmaxVecSimd
  rw [Exec.bind_ok (h.fold E _ _), foldSeq_prod (VecImpl.zip (t.vec E).lane.max_) (VecImpl.zip (t.vec E).lane.min_)]; rfl

theorem ext_maxsum_simd (hE : Extr F E) {lim : Limits (BitVec w)} (h : SimdInput t m inp n x)
    (hl : Num F lim.min) (hv : ∀ i < n.toNat, Num F (x i)) :
    ∃ r s, horizontalMaxsumVecSimd E (t.vec E) lim inp n m = .ok ((r, s), m) ∧
      IsMaximum F (insert lim.min (Elems x n.toNat)) r := by
  refine ⟨_, (t.vec E).horizontalSum (foldSeq (VecImpl.zip (t.vec E).lane.add)
      ((t.vec E).setVec E.S.zero) (fun j l => x (j * (t.vec E).size + l)) (n.toNat / (t.vec E).size)), ?_, hmax_simd_run hE h _ hl hv⟩
  unfold horizontalMaxsumVecSimd
  rw [Exec.bind_ok (h.fold E _ _), foldSeq_prod (VecImpl.zip (t.vec E).lane.max_) (VecImpl.zip (t.vec E).lane.add)]; rfl

/-- Two maxima of the same numbers are the same pattern, unless they are zeros. -/
theorem maximum_unique {T : Set (BitVec w)} {r s : BitVec w} (hT : ∀ y ∈ T, Num F y) (hr : IsMaximum F T r)
    (hs : IsMaximum F T s) : F.toEReal r = F.toEReal s ∧ (F.toEReal r ≠ 0 → r = s) :=
  have e := le_antisymm (hs.2 r hr.1) (hr.2 s hs.1)
  ⟨e, eq_of_value F (hT r hr.1) (hT s hs.1) e⟩

theorem minimum_unique {T : Set (BitVec w)} {r s : BitVec w} (hT : ∀ y ∈ T, Num F y) (hr : IsMinimum F T r)
    (hs : IsMinimum F T s) : F.toEReal r = F.toEReal s ∧ (F.toEReal r ≠ 0 → r = s) :=
  have e := le_antisymm (hr.2 s hs.1) (hs.2 r hr.1)
  ⟨e, eq_of_value F (hT r hr.1) (hT s hs.1) e⟩

/-- Maxima of patterns without sign are unique. -/
theorem maximum_unique_pos {T : Set (BitVec w)} {r s : BitVec w} (hT : ∀ y ∈ T, Num F y) (h0 : ∀ y ∈ T, F.neg y = false)
    (hr : IsMaximum F T r) (hs : IsMaximum F T s) : r = s := by
  have hk := (F.key_eq_iff_value (hT r hr.1) (hT s hs.1)).mpr (maximum_unique hT hr hs).1
  apply F.ext
  · rw [h0 r hr.1, h0 s hs.1]
  · unfold Fmt.key at hk
    rw [h0 r hr.1, h0 s hs.1] at hk
    simpa using hk

theorem num_insert {c : BitVec w} {k : Nat} (hc : Num F c) (hv : ∀ i < k, Num F (x i)) : ∀ y ∈ insert c (Elems x k), Num F y := by
  rintro y (rfl | ⟨i, hi, rfl⟩)
  · exact hc
  · exact hv i hi

/-- All patterns are non-negative if the old peak is. -/
theorem pos_insert {c : BitVec w} {k : Nat} (hc : F.neg c = false) :
    ∀ y ∈ insert c (Elems (fun i => F.fabs (x i)) k), F.neg y = false := by
  rintro y (rfl | ⟨i, hi, rfl⟩)
  · exact hc
  · exact F.neg_fabs _

theorem peak_rms_run (hE : Extr F E) {peak sq : Nat} {p0 s0 : BitVec w}
    (hn : 0 < n.toNat) (hx : Holds m inp n.toNat x) (hp : m peak = some p0) (hs : m sq = some s0) (h0 : Num F p0)
    (hv : ∀ i < n.toNat, Num F (x i)) :
    ∃ P s, IsMaximum F (insert p0 (Elems (fun i => F.fabs (x i)) n.toNat)) P ∧
      peakRmsVec E inp peak sq n m = .ok ((), overwrite (overwrite m peak 1 (fun _ => P)) sq 1 (fun _ => s)) := by
  have habs : E.S.abs = F.fabs := funext hE.absS
  have h := peakRms_ok E hn hx hp hs
  rw [habs] at h
  exact ⟨_, _, hmax_run hE p0 h0 fun i hi => num_fabs (hv i hi), h⟩

theorem peak_rms_simd_run (ht : t ≠ .avxFloat ∧ t ≠ .avxDouble) (hE : Extr F E) {peak sq : Nat} {p0 s0 : BitVec w}
    (hn : 0 < n.toNat) (hd : 4 * t.size ∣ n.toNat) (hal : t.align ∣ inp) (hx : Holds m inp n.toNat x)
    (hp : m peak = some p0) (hs : m sq = some s0) (h0 : Num F p0) (hv : ∀ i < n.toNat, Num F (x i)) :
    ∃ P s, IsMaximum F (insert p0 (Elems (fun i => F.fabs (x i)) n.toNat)) P ∧
      peakRmsVecSimd (t.vec E) inp peak sq n m =
        .ok ((), overwrite (overwrite m peak 1 (fun _ => P)) sq 1 (fun _ => s)) := by
  have hd' : 4 * (t.vec E).size ∣ n.toNat := by rw [t.vec_size]; exact hd
  have h := peakRmsSimd_ok (t.lawful E) hal (t.four_size_small E) (Nat.le_of_dvd hn hd') hx
    (C32_load_first_partial t E ht hp) (C32_load_first_partial t E ht hs) (by rw [hp]; rfl) (by rw [hs]; rfl)
  refine ⟨_, _, drop_zeros hn hv (t.vec E).size_pos ?_, h⟩
  have := peakReg_run t hE (f := fun l => if l.val = 0 then p0 else E.L.zero) (x := x) (N := n.toNat) (by
    intro l
    by_cases hl : l.val = 0
    · simp only [hl, if_true]; exact h0
    · simp only [hl, if_false, hE.zeroL]; exact num_posZero) hd' hv
  have e : (fun l : Fin (t.vec E).size => if l.val = 0 then p0 else F.posZero) =
      fun l => if l.val = 0 then p0 else E.L.zero := by rw [hE.zeroL]
  rw [e]; exact this

end generic

/-- The limits are numbers, and `min()` is positive. -/
theorem floatLimits_num : Num binary32 floatLimits.min ∧ Num binary32 floatLimits.max ∧
    0 < binary32.toEReal floatLimits.min := by
  refine ⟨by decide +kernel, by decide +kernel, ?_⟩
  exact (binary32.key_pos_iff (by decide +kernel)).mp (by decide +kernel)

theorem doubleLimits_num : Num binary64 doubleLimits.min ∧ Num binary64 doubleLimits.max ∧
    0 < binary64.toEReal doubleLimits.min := by
  refine ⟨by decide +kernel, by decide +kernel, ?_⟩
  exact (binary64.key_pos_iff (by decide +kernel)).mp (by decide +kernel)

theorem target_ne32 {b : Build32} (hb : ∀ fma, b ≠ .avx fma) : b.target ≠ .avxFloat ∧ b.target ≠ .avxDouble := by
  cases b <;> first | exact absurd rfl (hb _) | exact ⟨by simp [Build32.target], by simp [Build32.target]⟩

theorem target_ne64 {b : Build64} (hb : ∀ fma, b ≠ .avx fma) : b.target ≠ .avxFloat ∧ b.target ≠ .avxDouble := by
  cases b <;> first | exact absurd rfl (hb _) | exact ⟨by simp [Build64.target], by simp [Build64.target]⟩

/-! ## `float` -/

section float
variable (b : Build32) (P : Platform 32) {m : Mem (BitVec 32)} {inp : Nat} {n : BitVec 32} {x : Nat → BitVec 32}

/-- `horizontal_max_vec` and `horizontal_max_vec_simd` return one of the elements or `numeric_limits::min()`, whichever has
the largest value; and they return the same. -/
theorem C81_max_float (h : SimdInput b.target m inp n x) (hv : ∀ i < n.toNat, Num binary32 (x i)) :
    ∃ r, IsMaximum binary32 (insert floatLimits.min (Elems x n.toNat)) r ∧
      horizontalMaxVec (b.env P) floatLimits inp n m = .ok (r, m) ∧
      horizontalMaxVecSimd (b.vec P) floatLimits inp n m = .ok (r, m) := by
  have hpos : 0 < n.toNat := h.pos
  obtain ⟨r, e, hr⟩ := ext_max (b.extr P) (lim := floatLimits) hpos h.holds floatLimits_num.1 hv
  obtain ⟨s, e', hs⟩ := ext_max_simd (t := b.target) (b.extr P) (lim := floatLimits) h floatLimits_num.1 hv
  refine ⟨r, hr, e, e'.trans ?_⟩
  rw [(maximum_unique (num_insert floatLimits_num.1 hv) hr hs).2
    (lt_of_lt_of_le floatLimits_num.2.2 (hr.2 _ (.inl rfl))).ne']

/-- The result is thus not the maximum of a buffer whose elements are all smaller than `numeric_limits::min()`, for
instance negative. -/
theorem C81_max_float_negative (h : SimdInput b.target m inp n x) (hv : ∀ i < n.toNat, Num binary32 (x i))
    (hs : ∀ i < n.toNat, binary32.toEReal (x i) < binary32.toEReal floatLimits.min) :
    horizontalMaxVec (b.env P) floatLimits inp n m = .ok (floatLimits.min, m) ∧
      horizontalMaxVecSimd (b.vec P) floatLimits inp n m = .ok (floatLimits.min, m) := by
  obtain ⟨r, hr, e, e'⟩ := C81_max_float b P h hv
  rcases hr.1 with rfl | ⟨i, hi, rfl⟩
  · exact ⟨e, e'⟩
  · exact absurd (hr.2 _ (.inl rfl)) (not_le.mpr (hs i hi))

/-- `horizontal_min_vec` and `horizontal_min_vec_simd`: the same with the smallest value, and they also start from
`min()`.  The results agree up to the sign of a zero. -/
theorem C81_min_float (h : SimdInput b.target m inp n x) (hv : ∀ i < n.toNat, Num binary32 (x i)) :
    ∃ r s, IsMinimum binary32 (insert floatLimits.min (Elems x n.toNat)) r ∧
      IsMinimum binary32 (insert floatLimits.min (Elems x n.toNat)) s ∧ (binary32.toEReal r ≠ 0 → r = s) ∧
      horizontalMinVec (b.env P) floatLimits inp n m = .ok (r, m) ∧
      horizontalMinVecSimd (b.vec P) floatLimits inp n m = .ok (s, m) := by
  have hpos : 0 < n.toNat := h.pos
  obtain ⟨r, e, hr⟩ := ext_min (b.extr P) (lim := floatLimits) hpos h.holds floatLimits_num.1 hv
  obtain ⟨s, e', hs⟩ := ext_min_simd (t := b.target) (b.extr P) (lim := floatLimits) h floatLimits_num.1 hv
  exact ⟨r, s, hr, hs, (minimum_unique (num_insert floatLimits_num.1 hv) hr hs).2, e, e'⟩

/-- The result is `min()`, hence not the minimum, if all elements are larger. -/
theorem C81_min_float_positive (h : SimdInput b.target m inp n x) (hv : ∀ i < n.toNat, Num binary32 (x i))
    (hs : ∀ i < n.toNat, binary32.toEReal floatLimits.min < binary32.toEReal (x i)) :
    horizontalMinVec (b.env P) floatLimits inp n m = .ok (floatLimits.min, m) ∧
      horizontalMinVecSimd (b.vec P) floatLimits inp n m = .ok (floatLimits.min, m) := by
  obtain ⟨r, s, hr, hs', -, e, e'⟩ := C81_min_float b P h hv
  have key : ∀ q, IsMinimum binary32 (insert floatLimits.min (Elems x n.toNat)) q → q = floatLimits.min := by
    intro q hq
    rcases hq.1 with e | ⟨i, hi, rfl⟩
    · exact e
    · exact absurd (hq.2 _ (.inl rfl)) (not_le.mpr (hs i hi))
  rw [key r hr] at e
  rw [key s hs'] at e'
  exact ⟨e, e'⟩

/-- `horizontal_minmax_vec` and its SIMD version: here the minimum starts from `max()`. -/
theorem C81_minmax_float (h : SimdInput b.target m inp n x) (hv : ∀ i < n.toNat, Num binary32 (x i)) :
    ∃ lo lo' hi, horizontalMinmaxVec (b.env P) floatLimits inp n m = .ok ((lo, hi), m) ∧
      horizontalMinmaxVecSimd (b.vec P) floatLimits inp n m = .ok ((lo', hi), m) ∧
      IsMinimum binary32 (insert floatLimits.max (Elems x n.toNat)) lo ∧
      IsMinimum binary32 (insert floatLimits.max (Elems x n.toNat)) lo' ∧ (binary32.toEReal lo ≠ 0 → lo = lo') ∧
      IsMaximum binary32 (insert floatLimits.min (Elems x n.toNat)) hi := by
  have hpos : 0 < n.toNat := h.pos
  obtain ⟨r, r', e, hr, hr'⟩ := ext_minmax (b.extr P) (lim := floatLimits) hpos h.holds floatLimits_num.1
    floatLimits_num.2.1 hv
  obtain ⟨s, s', e', hs, hs'⟩ := ext_minmax_simd (t := b.target) (b.extr P) (lim := floatLimits) h floatLimits_num.1
    floatLimits_num.2.1 hv
  have hh := (maximum_unique (num_insert floatLimits_num.1 hv) hr' hs').2
    (lt_of_lt_of_le floatLimits_num.2.2 (hr'.2 _ (.inl rfl))).ne'
  subst hh
  exact ⟨r, s, r', e, e', hr, hs, (minimum_unique (num_insert floatLimits_num.2.1 hv) hr hs).2, hr'⟩

/-- The maximum of `horizontal_maxsum_vec` and its SIMD version. -/
theorem C81_maxsum_float (h : SimdInput b.target m inp n x) (hv : ∀ i < n.toNat, Num binary32 (x i)) :
    ∃ r s s', IsMaximum binary32 (insert floatLimits.min (Elems x n.toNat)) r ∧
      horizontalMaxsumVec (b.env P) floatLimits inp n m = .ok ((r, s), m) ∧
      horizontalMaxsumVecSimd (b.env P) (b.vec P) floatLimits inp n m = .ok ((r, s'), m) := by
  have hpos : 0 < n.toNat := h.pos
  obtain ⟨r, s, e, hr⟩ := ext_maxsum (b.extr P) (lim := floatLimits) hpos h.holds floatLimits_num.1 hv
  obtain ⟨q, s', e', hs⟩ := ext_maxsum_simd (t := b.target) (b.extr P) (lim := floatLimits) h floatLimits_num.1 hv
  have hh := (maximum_unique (num_insert floatLimits_num.1 hv) hr hs).2
    (lt_of_lt_of_le floatLimits_num.2.2 (hr.2 _ (.inl rfl))).ne'
  subst hh
  exact ⟨r, s, s', hr, e, e'⟩

/-- `peak_vec`: the new peak is the largest of the old peak and the absolute values. -/
theorem C81_peak_float {peak : Nat} {p0 : BitVec 32} (hn : 0 < n.toNat) (hx : Holds m inp n.toNat x)
    (hp : m peak = some p0) (h0 : Num binary32 p0) (hv : ∀ i < n.toNat, Num binary32 (x i)) :
    ∃ p, IsMaximum binary32 (insert p0 (Elems (fun i => binary32.fabs (x i)) n.toNat)) p ∧
      peakVec (b.env P) inp peak n m = .ok (binary32.fabs (x (n.toNat - 1)), overwrite m peak 1 fun _ => p) :=
  peak_run (b.extr P) hn hx hp h0 hv

/-- `peak_vec_simd` of every build but AVX, on whole blocks of four registers. -/
theorem C81_peak_simd_float_partial (hb : ∀ fma, b ≠ .avx fma) {peak : Nat} {p0 : BitVec 32} (hn : 0 < n.toNat)
    (hd : 4 * b.target.size ∣ n.toNat) (hal : b.target.align ∣ inp) (hx : Holds m inp n.toNat x)
    (hp : m peak = some p0) (h0 : Num binary32 p0) (hv : ∀ i < n.toNat, Num binary32 (x i)) :
    ∃ p, IsMaximum binary32 (insert p0 (Elems (fun i => binary32.fabs (x i)) n.toNat)) p ∧
      peakVecSimd (b.vec P) inp peak n m = .ok (binary32.fabs (x (n.toNat - 1)), overwrite m peak 1 fun _ => p) :=
  peak_simd_run b.target (target_ne32 hb) (b.extr P) hn hd hal hx hp h0 hv

/-- Then `peak_vec` and `peak_vec_simd` do exactly the same, down to the last bit, if the old peak is not negative
(`-0.0` included). -/
theorem C81_peak_equal_float_partial (hb : ∀ fma, b ≠ .avx fma) {peak : Nat} {p0 : BitVec 32} (hn : 0 < n.toNat)
    (hd : 4 * b.target.size ∣ n.toNat) (hal : b.target.align ∣ inp) (hx : Holds m inp n.toNat x)
    (hp : m peak = some p0) (h0 : Num binary32 p0) (h1 : binary32.neg p0 = false) (hv : ∀ i < n.toNat, Num binary32 (x i)) :
    peakVecSimd (b.vec P) inp peak n m = peakVec (b.env P) inp peak n m := by
  obtain ⟨p, hpm, e⟩ := C81_peak_float b P hn hx hp h0 hv
  obtain ⟨q, hqm, e'⟩ := C81_peak_simd_float_partial b P hb hn hd hal hx hp h0 hv
  rw [e, e', maximum_unique_pos (num_insert h0 fun i hi => num_fabs (hv i hi)) (pos_insert h1) hpm hqm]

/-- The peak that `peak_rms_vec` and `peak_rms_vec_simd` write (the squared sum is the subject of C79). -/
theorem C81_peak_rms_float_partial (hb : ∀ fma, b ≠ .avx fma) {peak sq : Nat} {p0 s0 : BitVec 32} (hn : 0 < n.toNat)
    (hd : 4 * b.target.size ∣ n.toNat) (hal : b.target.align ∣ inp) (hx : Holds m inp n.toNat x)
    (hp : m peak = some p0) (hs : m sq = some s0) (h0 : Num binary32 p0) (h1 : binary32.neg p0 = false)
    (hv : ∀ i < n.toNat, Num binary32 (x i)) :
    ∃ p s s', IsMaximum binary32 (insert p0 (Elems (fun i => binary32.fabs (x i)) n.toNat)) p ∧
      peakRmsVec (b.env P) inp peak sq n m =
        .ok ((), overwrite (overwrite m peak 1 fun _ => p) sq 1 fun _ => s) ∧
      peakRmsVecSimd (b.vec P) inp peak sq n m =
        .ok ((), overwrite (overwrite m peak 1 fun _ => p) sq 1 fun _ => s') := by
  obtain ⟨p, s, hpm, e⟩ := peak_rms_run (b.extr P) hn hx hp hs h0 hv
  obtain ⟨q, s', hqm, e'⟩ := peak_rms_simd_run (t := b.target) (target_ne32 hb) (b.extr P) hn hd hal hx hp hs h0 hv
  have := maximum_unique_pos (num_insert h0 fun i hi => num_fabs (hv i hi)) (pos_insert h1) hpm hqm
  subst this
  exact ⟨p, s, s', hpm, e, e'⟩

end float

/-! ## `double` -/

section double
variable (b : Build64) (P : Platform 64) {m : Mem (BitVec 64)} {inp : Nat} {n : BitVec 32} {x : Nat → BitVec 64}

/-- `horizontal_max_vec` and `horizontal_max_vec_simd` return one of the elements or `numeric_limits::min()`, whichever has
the largest value; and they return the same. -/
theorem C81_max_double (h : SimdInput b.target m inp n x) (hv : ∀ i < n.toNat, Num binary64 (x i)) :
    ∃ r, IsMaximum binary64 (insert doubleLimits.min (Elems x n.toNat)) r ∧
      horizontalMaxVec (b.env P) doubleLimits inp n m = .ok (r, m) ∧
      horizontalMaxVecSimd (b.vec P) doubleLimits inp n m = .ok (r, m) := by
  have hpos : 0 < n.toNat := h.pos
  obtain ⟨r, e, hr⟩ := ext_max (b.extr P) (lim := doubleLimits) hpos h.holds doubleLimits_num.1 hv
  obtain ⟨s, e', hs⟩ := ext_max_simd (t := b.target) (b.extr P) (lim := doubleLimits) h doubleLimits_num.1 hv
  refine ⟨r, hr, e, e'.trans ?_⟩
  rw [(maximum_unique (num_insert doubleLimits_num.1 hv) hr hs).2
    (lt_of_lt_of_le doubleLimits_num.2.2 (hr.2 _ (.inl rfl))).ne']

/-- The result is thus not the maximum of a buffer whose elements are all smaller than `numeric_limits::min()`, for
instance negative. -/
theorem C81_max_double_negative (h : SimdInput b.target m inp n x) (hv : ∀ i < n.toNat, Num binary64 (x i))
    (hs : ∀ i < n.toNat, binary64.toEReal (x i) < binary64.toEReal doubleLimits.min) :
    horizontalMaxVec (b.env P) doubleLimits inp n m = .ok (doubleLimits.min, m) ∧
      horizontalMaxVecSimd (b.vec P) doubleLimits inp n m = .ok (doubleLimits.min, m) := by
  obtain ⟨r, hr, e, e'⟩ := C81_max_double b P h hv
  rcases hr.1 with rfl | ⟨i, hi, rfl⟩
  · exact ⟨e, e'⟩
  · exact absurd (hr.2 _ (.inl rfl)) (not_le.mpr (hs i hi))

/-- `horizontal_min_vec` and `horizontal_min_vec_simd`: the same with the smallest value, and they also start from
`min()`.  The results agree up to the sign of a zero. -/
theorem C81_min_double (h : SimdInput b.target m inp n x) (hv : ∀ i < n.toNat, Num binary64 (x i)) :
    ∃ r s, IsMinimum binary64 (insert doubleLimits.min (Elems x n.toNat)) r ∧
      IsMinimum binary64 (insert doubleLimits.min (Elems x n.toNat)) s ∧ (binary64.toEReal r ≠ 0 → r = s) ∧
      horizontalMinVec (b.env P) doubleLimits inp n m = .ok (r, m) ∧
      horizontalMinVecSimd (b.vec P) doubleLimits inp n m = .ok (s, m) := by
  have hpos : 0 < n.toNat := h.pos
  obtain ⟨r, e, hr⟩ := ext_min (b.extr P) (lim := doubleLimits) hpos h.holds doubleLimits_num.1 hv
  obtain ⟨s, e', hs⟩ := ext_min_simd (t := b.target) (b.extr P) (lim := doubleLimits) h doubleLimits_num.1 hv
  exact ⟨r, s, hr, hs, (minimum_unique (num_insert doubleLimits_num.1 hv) hr hs).2, e, e'⟩

/-- The result is `min()`, hence not the minimum, if all elements are larger. -/
theorem C81_min_double_positive (h : SimdInput b.target m inp n x) (hv : ∀ i < n.toNat, Num binary64 (x i))
    (hs : ∀ i < n.toNat, binary64.toEReal doubleLimits.min < binary64.toEReal (x i)) :
    horizontalMinVec (b.env P) doubleLimits inp n m = .ok (doubleLimits.min, m) ∧
      horizontalMinVecSimd (b.vec P) doubleLimits inp n m = .ok (doubleLimits.min, m) := by
  obtain ⟨r, s, hr, hs', -, e, e'⟩ := C81_min_double b P h hv
  have key : ∀ q, IsMinimum binary64 (insert doubleLimits.min (Elems x n.toNat)) q → q = doubleLimits.min := by
    intro q hq
    rcases hq.1 with e | ⟨i, hi, rfl⟩
    · exact e
    · exact absurd (hq.2 _ (.inl rfl)) (not_le.mpr (hs i hi))
  rw [key r hr] at e
  rw [key s hs'] at e'
  exact ⟨e, e'⟩

/-- `horizontal_minmax_vec` and its SIMD version: here the minimum starts from `max()`. -/
theorem C81_minmax_double (h : SimdInput b.target m inp n x) (hv : ∀ i < n.toNat, Num binary64 (x i)) :
    ∃ lo lo' hi, horizontalMinmaxVec (b.env P) doubleLimits inp n m = .ok ((lo, hi), m) ∧
      horizontalMinmaxVecSimd (b.vec P) doubleLimits inp n m = .ok ((lo', hi), m) ∧
      IsMinimum binary64 (insert doubleLimits.max (Elems x n.toNat)) lo ∧
      IsMinimum binary64 (insert doubleLimits.max (Elems x n.toNat)) lo' ∧ (binary64.toEReal lo ≠ 0 → lo = lo') ∧
      IsMaximum binary64 (insert doubleLimits.min (Elems x n.toNat)) hi := by
  have hpos : 0 < n.toNat := h.pos
  obtain ⟨r, r', e, hr, hr'⟩ := ext_minmax (b.extr P) (lim := doubleLimits) hpos h.holds doubleLimits_num.1
    doubleLimits_num.2.1 hv
  obtain ⟨s, s', e', hs, hs'⟩ := ext_minmax_simd (t := b.target) (b.extr P) (lim := doubleLimits) h doubleLimits_num.1
    doubleLimits_num.2.1 hv
  have hh := (maximum_unique (num_insert doubleLimits_num.1 hv) hr' hs').2
    (lt_of_lt_of_le doubleLimits_num.2.2 (hr'.2 _ (.inl rfl))).ne'
  subst hh
  exact ⟨r, s, r', e, e', hr, hs, (minimum_unique (num_insert doubleLimits_num.2.1 hv) hr hs).2, hr'⟩

/-- The maximum of `horizontal_maxsum_vec` and its SIMD version. -/
theorem C81_maxsum_double (h : SimdInput b.target m inp n x) (hv : ∀ i < n.toNat, Num binary64 (x i)) :
    ∃ r s s', IsMaximum binary64 (insert doubleLimits.min (Elems x n.toNat)) r ∧
      horizontalMaxsumVec (b.env P) doubleLimits inp n m = .ok ((r, s), m) ∧
      horizontalMaxsumVecSimd (b.env P) (b.vec P) doubleLimits inp n m = .ok ((r, s'), m) := by
  have hpos : 0 < n.toNat := h.pos
  obtain ⟨r, s, e, hr⟩ := ext_maxsum (b.extr P) (lim := doubleLimits) hpos h.holds doubleLimits_num.1 hv
  obtain ⟨q, s', e', hs⟩ := ext_maxsum_simd (t := b.target) (b.extr P) (lim := doubleLimits) h doubleLimits_num.1 hv
  have hh := (maximum_unique (num_insert doubleLimits_num.1 hv) hr hs).2
    (lt_of_lt_of_le doubleLimits_num.2.2 (hr.2 _ (.inl rfl))).ne'
  subst hh
  exact ⟨r, s, s', hr, e, e'⟩

/-- `peak_vec`: the new peak is the largest of the old peak and the absolute values. -/
theorem C81_peak_double {peak : Nat} {p0 : BitVec 64} (hn : 0 < n.toNat) (hx : Holds m inp n.toNat x)
    (hp : m peak = some p0) (h0 : Num binary64 p0) (hv : ∀ i < n.toNat, Num binary64 (x i)) :
    ∃ p, IsMaximum binary64 (insert p0 (Elems (fun i => binary64.fabs (x i)) n.toNat)) p ∧
      peakVec (b.env P) inp peak n m = .ok (binary64.fabs (x (n.toNat - 1)), overwrite m peak 1 fun _ => p) :=
  peak_run (b.extr P) hn hx hp h0 hv

/-- `peak_vec_simd` of every build but AVX, on whole blocks of four registers. -/
theorem C81_peak_simd_double_partial (hb : ∀ fma, b ≠ .avx fma) {peak : Nat} {p0 : BitVec 64} (hn : 0 < n.toNat)
    (hd : 4 * b.target.size ∣ n.toNat) (hal : b.target.align ∣ inp) (hx : Holds m inp n.toNat x)
    (hp : m peak = some p0) (h0 : Num binary64 p0) (hv : ∀ i < n.toNat, Num binary64 (x i)) :
    ∃ p, IsMaximum binary64 (insert p0 (Elems (fun i => binary64.fabs (x i)) n.toNat)) p ∧
      peakVecSimd (b.vec P) inp peak n m = .ok (binary64.fabs (x (n.toNat - 1)), overwrite m peak 1 fun _ => p) :=
  peak_simd_run b.target (target_ne64 hb) (b.extr P) hn hd hal hx hp h0 hv

/-- Then `peak_vec` and `peak_vec_simd` do exactly the same, down to the last bit, if the old peak is not negative
(`-0.0` included). -/
theorem C81_peak_equal_double_partial (hb : ∀ fma, b ≠ .avx fma) {peak : Nat} {p0 : BitVec 64} (hn : 0 < n.toNat)
    (hd : 4 * b.target.size ∣ n.toNat) (hal : b.target.align ∣ inp) (hx : Holds m inp n.toNat x)
    (hp : m peak = some p0) (h0 : Num binary64 p0) (h1 : binary64.neg p0 = false) (hv : ∀ i < n.toNat, Num binary64 (x i)) :
    peakVecSimd (b.vec P) inp peak n m = peakVec (b.env P) inp peak n m := by
  obtain ⟨p, hpm, e⟩ := C81_peak_double b P hn hx hp h0 hv
  obtain ⟨q, hqm, e'⟩ := C81_peak_simd_double_partial b P hb hn hd hal hx hp h0 hv
  rw [e, e', maximum_unique_pos (num_insert h0 fun i hi => num_fabs (hv i hi)) (pos_insert h1) hpm hqm]

/-- The peak that `peak_rms_vec` and `peak_rms_vec_simd` write (the squared sum is the subject of C79). -/
theorem C81_peak_rms_double_partial (hb : ∀ fma, b ≠ .avx fma) {peak sq : Nat} {p0 s0 : BitVec 64} (hn : 0 < n.toNat)
    (hd : 4 * b.target.size ∣ n.toNat) (hal : b.target.align ∣ inp) (hx : Holds m inp n.toNat x)
    (hp : m peak = some p0) (hs : m sq = some s0) (h0 : Num binary64 p0) (h1 : binary64.neg p0 = false)
    (hv : ∀ i < n.toNat, Num binary64 (x i)) :
    ∃ p s s', IsMaximum binary64 (insert p0 (Elems (fun i => binary64.fabs (x i)) n.toNat)) p ∧
      peakRmsVec (b.env P) inp peak sq n m =
        .ok ((), overwrite (overwrite m peak 1 fun _ => p) sq 1 fun _ => s) ∧
      peakRmsVecSimd (b.vec P) inp peak sq n m =
        .ok ((), overwrite (overwrite m peak 1 fun _ => p) sq 1 fun _ => s') := by
  obtain ⟨p, s, hpm, e⟩ := peak_rms_run (b.extr P) hn hx hp hs h0 hv
  obtain ⟨q, s', hqm, e'⟩ := peak_rms_simd_run (t := b.target) (target_ne64 hb) (b.extr P) hn hd hal hx hp hs h0 hv
  have := maximum_unique_pos (num_insert h0 fun i hi => num_fabs (hv i hi)) (pos_insert h1) hpm hqm
  subst this
  exact ⟨p, s, s', hpm, e, e'⟩

end double

/-! ## NaNs

The scalar meter ignores NaNs.  The x86 versions do not: a NaN in the last register of a block replaces the running peak of its
lane, so the meter forgets everything before it. -/

section nan
variable {w : Nat} {F : Fmt w} {E : Env (BitVec w)} {m : Mem (BitVec w)} {inp : Nat} {n : BitVec 32} {x : Nat → BitVec w}

theorem foldSeq_skip (hS : ∀ a b, Neon.stdMax E.S a b = F.stdMax a b) {c : BitVec w} {k : Nat} (hc : Num F c) :
    IsMaximum F (insert c {y | ∃ i, i < k ∧ Num F (x i) ∧ y = F.fabs (x i)})
      (foldSeq (Neon.stdMax E.S) c (fun i => F.fabs (x i)) k) := by
  induction k with
  | zero =>
    have : insert c {y | ∃ i, i < 0 ∧ Num F (x i) ∧ y = F.fabs (x i)} = {c} := by ext; simp
    rw [this]; exact Best.single (below_pre F) c
  | succ k ih =>
    by_cases h : Num F (x k)
    · have e : insert c {y | ∃ i, i < k + 1 ∧ Num F (x i) ∧ y = F.fabs (x i)} =
          insert c {y | ∃ i, i < k ∧ Num F (x i) ∧ y = F.fabs (x i)} ∪ {F.fabs (x k)} := by
        ext y
        constructor
        · rintro (rfl | ⟨i, hi, hv, rfl⟩)
          · exact .inl (.inl rfl)
          · rcases Nat.lt_succ_iff_lt_or_eq.mp hi with hi | rfl
            · exact .inl (.inr ⟨i, hi, hv, rfl⟩)
            · exact .inr rfl
        · rintro ((rfl | ⟨i, hi, hv, rfl⟩) | rfl)
          · exact .inl rfl
          · exact .inr ⟨i, by omega, hv, rfl⟩
          · exact .inr ⟨k, by omega, h, rfl⟩
      rw [e]
      have hS' : Neon.stdMax E.S = F.stdMax := funext fun a => funext fun b => hS a b
      refine Best.union (ok := Num F) (below_pre F) (by rw [hS']; exact (isMax_stdMax F).sel) ih
        (Best.single (below_pre F) _) ?_ ?_
      · rintro y (rfl | ⟨i, hi, hv, rfl⟩)
        · exact hc
        · exact num_fabs hv
      · rintro y rfl; exact num_fabs h
    · have e : insert c {y | ∃ i, i < k + 1 ∧ Num F (x i) ∧ y = F.fabs (x i)} =
          insert c {y | ∃ i, i < k ∧ Num F (x i) ∧ y = F.fabs (x i)} := by
        ext y
        constructor
        · rintro (rfl | ⟨i, hi, hv, rfl⟩)
          · exact .inl rfl
          · rcases Nat.lt_succ_iff_lt_or_eq.mp hi with hi | rfl
            · exact .inr ⟨i, hi, hv, rfl⟩
            · exact absurd hv h
        · rintro (rfl | ⟨i, hi, hv, rfl⟩)
          · exact .inl rfl
          · exact .inr ⟨i, by omega, hv, rfl⟩
      have hn : F.isNaN (F.fabs (x k)) = true := by rw [F.isNaN_fabs]; simpa [Num] using h
      rw [e, foldSeq, hS]
      unfold Fmt.stdMax
      rw [F.ltb_nan (Or.inr hn)]
      exact ih

/-- The peak of a lane after a block whose last register holds a NaN does not depend on the peak before. -/
theorem peakReg_forgets {I : VecImpl (BitVec w)} (hmax : I.lane.max_ = F.maxps) (habs : I.lane.abs = F.fabs) {f g : I.V}
    {k : Nat} {l : Fin I.size} (hnan : F.isNaN (x (k * (4 * I.size) + 3 * I.size + l)) = true) {K : Nat} (hK : k < K) :
    peakReg I f x K l = peakReg I g x K l := by
  have hmx : ∀ a b : BitVec w, F.isNaN b = true → F.maxps a b = b := fun a b hb => by
    unfold Fmt.maxps
    rw [F.ltb_nan (Or.inl hb)]; rfl
  induction K with
  | zero => omega
  | succ K ih =>
    rcases Nat.lt_succ_iff_lt_or_eq.mp hK with h | rfl
    · simp only [peakReg, ih h]
    · have hn : F.isNaN (F.fabs (x (k * (4 * I.size) + 3 * I.size + l))) = true := by rw [F.isNaN_fabs]; exact hnan
      simp only [peakReg, hmax, habs]
      rw [hmx _ _ hn, hmx _ _ hn, hmx _ _ hn, hmx _ _ hn]

theorem peak_forgets (t : Target) (ht : t ≠ .avxFloat ∧ t ≠ .avxDouble) (hmax : E.L.max_ = F.maxps)
    (habs : E.L.abs = F.fabs) {m' : Mem (BitVec w)} {peak : Nat} {p0 p1 : BitVec w} {k : Nat} (hn : 0 < n.toNat)
    (hd : 4 * t.size ∣ n.toNat) (hal : t.align ∣ inp) (hx : Holds m inp n.toNat x) (hx' : Holds m' inp n.toNat x)
    (hp : m peak = some p0) (hp' : m' peak = some p1) (hk : (k + 1) * (4 * t.size) ≤ n.toNat)
    (hnan : F.isNaN (x (k * (4 * t.size) + 3 * t.size)) = true) :
    ∃ r p, peakVecSimd (t.vec E) inp peak n m = .ok (r, overwrite m peak 1 fun _ => p) ∧
      peakVecSimd (t.vec E) inp peak n m' = .ok (r, overwrite m' peak 1 fun _ => p) := by
  have hs : (m peak).isSome := by rw [hp]; rfl
  have hs' : (m' peak).isSome := by rw [hp']; rfl
  have hd' : 4 * (t.vec E).size ∣ n.toNat := by rw [t.vec_size]; exact hd
  have h := peakSimd_ok (t.lawful E) hal (t.four_size_small E) (Nat.le_of_dvd hn hd') hx (C32_load_first_partial t E ht hp)
    hs (t.get_last E)
  have h' := peakSimd_ok (t.lawful E) hal (t.four_size_small E) (Nat.le_of_dvd hn hd') hx'
    (C32_load_first_partial t E ht hp') hs' (t.get_last E)
  refine ⟨_, _, h, h'.trans ?_⟩
  have hK : k < n.toNat / (4 * (t.vec E).size) := by
    rw [t.vec_size]
    rw [← Nat.succ_le_iff, Nat.le_div_iff_mul_le (by have := t.vec_size (E := E); have := (t.vec E).size_pos; omega)]
    exact hk
  have e : peakReg (t.vec E) (fun l => if l.val = 0 then p1 else E.L.zero) x (n.toNat / (4 * (t.vec E).size)) =
      peakReg (t.vec E) (fun l => if l.val = 0 then p0 else E.L.zero) x (n.toNat / (4 * (t.vec E).size)) := by
    funext l
    by_cases hl : l.val = 0
    · refine peakReg_forgets (F := F) (by rw [t.lane_eq]; exact hmax) (by rw [t.lane_eq]; exact habs) (k := k) ?_ hK
      rw [hl, t.vec_size]
      exact hnan
    · generalize n.toNat / (4 * (t.vec E).size) = K
      induction K with
      | zero => simp only [peakReg, hl, if_false]
      | succ K ih => simp only [peakReg, ih]
  rw [e]

end nan

/-- The scalar meter ignores NaNs. -/
theorem C81_nan_scalar_float (b : Build32) (P : Platform 32) {m : Mem (BitVec 32)} {inp peak : Nat} {n : BitVec 32}
    {x : Nat → BitVec 32} {p0 : BitVec 32} (hn : 0 < n.toNat) (hx : Holds m inp n.toNat x) (hp : m peak = some p0)
    (h0 : Num binary32 p0) :
    ∃ p, IsMaximum binary32 (insert p0 {y | ∃ i, i < n.toNat ∧ Num binary32 (x i) ∧ y = binary32.fabs (x i)}) p ∧
      peakVec (b.env P) inp peak n m = .ok (binary32.fabs (x (n.toNat - 1)), overwrite m peak 1 fun _ => p) := by
  have hs : (m peak).isSome := by rw [hp]; rfl
  refine ⟨_, foldSeq_skip (F := binary32) (E := b.env P) (fun _ _ => rfl) h0, ?_⟩
  unfold peakVec
  rw [Exec.bind_ok (read_ok hp)]
  refine (Exec.bind_ok (peakLoop_ok (b.env P) p0 hn hx)).trans ?_
  exact (Exec.bind_ok (write_one hs)).trans rfl

/-- `peak_vec_simd` of the SSE builds: if element `16 k + 12` is a NaN, the new peak does not depend on the old peak.  Two
memories that agree on the buffer give the same peak, whatever their peaks were. -/
theorem C81_nan_simd_float (s3 : Bool) (f : Sse.Flags) (P : Platform 32) {m m' : Mem (BitVec 32)} {inp peak k : Nat}
    {n : BitVec 32} {x : Nat → BitVec 32} {p0 p1 : BitVec 32} (hn : 0 < n.toNat) (hd : 16 ∣ n.toNat) (hal : 4 ∣ inp)
    (hx : Holds m inp n.toNat x) (hx' : Holds m' inp n.toNat x) (hp : m peak = some p0) (hp' : m' peak = some p1)
    (hk : 16 * (k + 1) ≤ n.toNat) (hnan : ¬ Num binary32 (x (16 * k + 12))) :
    ∃ r p, peakVecSimd ((Build32.sse s3 f).vec P) inp peak n m = .ok (r, overwrite m peak 1 fun _ => p) ∧
      peakVecSimd ((Build32.sse s3 f).vec P) inp peak n m' = .ok (r, overwrite m' peak 1 fun _ => p) :=
  peak_forgets (F := binary32) (Build32.sse s3 f).target ⟨nofun, nofun⟩ rfl (funext (abs_lane32 (.sse s3 f) P)) (k := k)
    hn hd hal hx hx' hp hp' (by change (k + 1) * 16 ≤ _; omega) (by
      change binary32.isNaN (x (k * 16 + 12)) = true
      rw [Nat.mul_comm]
      simpa [Num] using hnan)

/-- A predicate of all values is a predicate of the maxima. -/
theorem peakReg_pred {w : Nat} {x : Nat → BitVec w} {Q : BitVec w → Prop} {I : VecImpl (BitVec w)}
    (hQ : ∀ a b, Q a → Q b → Q (I.lane.max_ a b)) {f : I.V} {l : Fin I.size} (hf : Q (f l)) (K : Nat)
    (hx : ∀ i < K * (4 * I.size), Q (I.lane.abs (x i))) : Q (peakReg I f x K l) := by
  induction K with
  | zero => exact hf
  | succ K ih =>
    have hb : ∀ q < 4, Q (I.lane.abs (x (K * (4 * I.size) + q * I.size + l))) := fun q hq => hx _ (by
      have h1 : (q + 1) * I.size ≤ 4 * I.size := Nat.mul_le_mul_right _ hq
      have := l.isLt
      have h2 : (K + 1) * (4 * I.size) = K * (4 * I.size) + 4 * I.size := Nat.succ_mul _ _
      have h3 : (q + 1) * I.size = q * I.size + I.size := Nat.succ_mul _ _
      omega)
    refine hQ _ _ (ih fun i hi => hx i (by rw [Nat.succ_mul]; omega)) (hQ _ _ (hQ _ _ ?_ ?_) (hQ _ _ ?_ ?_))
    · exact hb 0 (by omega)
    · exact hb 1 (by omega)
    · exact hb 2 (by omega)
    · exact hb 3 (by omega)

/-- So the two versions disagree: an old peak of 2.0 (0x40000000) survives in the scalar version, whatever the buffer holds
besides numbers not larger than 2.0 and NaNs, and is lost in the SIMD version. -/
theorem C81_nan_disagree_float (s3 : Bool) (f : Sse.Flags) (P : Platform 32) :
    ∃ (m : Mem (BitVec 32)) (p : BitVec 32),
      peakVec ((Build32.sse s3 f).env P) 0 32 32#32 m = .ok (0x3f800000#32, overwrite m 32 1 fun _ => 0x40000000#32) ∧
      peakVecSimd ((Build32.sse s3 f).vec P) 0 32 32#32 m = .ok (0x3f800000#32, overwrite m 32 1 fun _ => p) ∧
      p ≠ 0x40000000#32 := by
  let x : Nat → BitVec 32 := fun i => if i = 12 then 0x7fc00000#32 else 0x3f800000#32
  let mem : BitVec 32 → Mem (BitVec 32) := fun q i => if i < 32 then some (x i) else if i = 32 then some q else none
  have hx : ∀ q, Holds (mem q) 0 32 x := fun q i hi => by simp only [mem, Nat.zero_add, hi, if_true]
  have hq : ∀ q, mem q 32 = some q := fun q => by simp [mem]
  obtain ⟨r, p, h1, h2⟩ := C81_nan_simd_float s3 f P (n := 32#32) (k := 0) (by decide) (by decide) (by decide)
    (hx 0x40000000#32) (hx 0x3f800000#32) (hq _) (hq _) (by decide) (by decide +kernel)
  have habs : ((Build32.sse s3 f).vec P).lane.abs = binary32.fabs := funext (abs_lane32 (.sse s3 f) P)
  have hs := peakSimd_ok (I := (Build32.sse s3 f).vec P) (n := 32#32) (Target.lawful (Build32.sse s3 f).target _)
    (Nat.dvd_zero _) (Target.four_size_small (Build32.sse s3 f).target _) (show 4 * 4 ≤ 32 by decide) (hx 0x3f800000#32)
    (C32_load_first_partial (Build32.sse s3 f).target _ ⟨nofun, nofun⟩ (hq _)) (by rw [hq]; rfl) (Target.get_last _ _)
  have hK : (32#32).toNat / (4 * ((Build32.sse s3 f).vec P).size) = 2 := show 32 / (4 * 4) = 2 by decide
  have h31 : 2 * (4 * ((Build32.sse s3 f).vec P).size) - 1 = 31 := rfl
  rw [hK, h31] at hs
  have hv : ∀ i < 32, x i = 0x3f800000#32 ∨ x i = 0x7fc00000#32 := fun i _ => by
    by_cases h : i = 12
    · exact .inr (if_pos h)
    · exact .inl (if_neg h)
  let Q : BitVec 32 → Prop := fun y => y ≠ 0x40000000#32
  have hQ : ∀ a b, Q a → Q b → Q (binary32.maxps a b) := fun a b ha hb => by
    unfold Fmt.maxps
    by_cases h : binary32.ltb b a = true
    · rw [if_pos h]; exact ha
    · rw [if_neg h]; exact hb
  have hreg : ∀ l, Q (peakReg ((Build32.sse s3 f).vec P)
      (fun l => if l.val = 0 then 0x3f800000#32 else ((Build32.sse s3 f).env P).L.zero) x 2 l) := fun l => by
    refine peakReg_pred (x := x) (I := (Build32.sse s3 f).vec P) hQ ?_ 2 fun i hi => ?_
    · by_cases h : l.val = 0
      · simp only [h, if_true]; exact (by decide : (0x3f800000#32 : BitVec 32) ≠ 0x40000000#32)
      · simp only [h, if_false]; exact (by decide : (0x00000000#32 : BitVec 32) ≠ 0x40000000#32)
    · rw [habs]
      rcases hv i hi with e | e <;> rw [e]
      · exact (by decide +kernel : binary32.fabs 0x3f800000#32 ≠ 0x40000000#32)
      · exact (by decide +kernel : binary32.fabs 0x7fc00000#32 ≠ 0x40000000#32)
  have hfin : Q (((Build32.sse s3 f).vec P).horizontalMax (peakReg ((Build32.sse s3 f).vec P)
      (fun l => if l.val = 0 then 0x3f800000#32 else ((Build32.sse s3 f).env P).L.zero) x 2)) :=
    hQ _ _ (hQ _ _ (hreg _) (hreg _)) (hQ _ _ (hreg _) (hreg _))
  have he := h2.symm.trans hs
  injection he with he
  injection he with hr hm
  have hp := congrFun hm 32
  simp only [overwrite] at hp
  injection hp with hp
  have hr' : r = 0x3f800000#32 := by
    rw [hr, habs]
    exact (by decide +kernel : binary32.fabs 0x3f800000#32 = 0x3f800000#32)
  refine ⟨mem 0x40000000#32, p, ?_, hr' ▸ h1, by rw [hp]; exact hfin⟩
  obtain ⟨q, hq', e⟩ := C81_nan_scalar_float (.sse s3 f) P (n := 32#32) (by decide) (hx 0x40000000#32) (hq _)
    (by decide +kernel)
  rw [e]
  have : q = 0x40000000#32 := by
    rcases hq'.1 with h | ⟨i, hi, hn, h⟩
    · exact h
    · have e1 : q = 0x3f800000#32 := by
        rcases hv i hi with e | e
        · rw [h, e]; decide +kernel
        · rw [e] at hn; exact absurd hn (by decide +kernel)
      have := hq'.2 _ (.inl rfl)
      rw [e1] at this
      exact absurd ((binary32.key_le_iff_value (by decide +kernel) (by decide +kernel)).mpr this) (by decide +kernel)
  rw [this]
  have h31' : binary32.fabs (x ((32#32).toNat - 1)) = 0x3f800000#32 :=
    (by decide +kernel : binary32.fabs 0x3f800000#32 = 0x3f800000#32)
  rw [h31']

/-! ## The hypotheses can be met -/

/-- The maximum of sixteen times -1.0 is computed as `2 ^ -126` by SSE code. -/
example (P : Platform 32) :
    horizontalMaxVecSimd ((Build32.sse false ⟨true, false, false⟩).vec P) floatLimits 0 16#32
      (fun i => if i < 16 then some 0xbf800000#32 else none) =
      .ok (0x00800000#32, fun i => if i < 16 then some 0xbf800000#32 else none) :=
  (C81_max_float_negative (.sse false ⟨true, false, false⟩) P (x := fun _ => 0xbf800000#32)
    ⟨by decide, by decide, by decide, by unfold Holds; decide⟩ (fun _ _ => by decide +kernel) fun _ _ =>
      (binary32.key_lt_iff_value (by decide +kernel) (by decide +kernel)).mp (by decide +kernel)).2

/-- A meter over sixteen times -1.0 with an old peak of 0.5. -/
example (P : Platform 64) :
    peakVecSimd ((Build64.sse2 false false).vec P) 0 16 16#32
      (fun i => if i < 16 then some 0xbff0000000000000#64 else if i = 16 then some 0x3fe0000000000000#64 else none) =
    peakVec ((Build64.sse2 false false).env P) 0 16 16#32
      (fun i => if i < 16 then some 0xbff0000000000000#64 else if i = 16 then some 0x3fe0000000000000#64 else none) :=
  C81_peak_equal_double_partial (.sse2 false false) P nofun (x := fun _ => 0xbff0000000000000#64)
    (p0 := 0x3fe0000000000000#64) (by decide) (by decide) (by decide)
    (by unfold Holds; decide) (by decide) (by decide +kernel) (by decide +kernel) fun _ _ => by decide +kernel

end Nova
