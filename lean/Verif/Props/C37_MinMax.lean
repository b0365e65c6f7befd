import Verif.Lemmas.MinMax
import Verif.Props.C01_Elementwise

/-!
# C37 minimum and maximum, C38 clipping, on bit patterns
-/

namespace Nova
open FP Spec

/-! ## C37 -/

/-- For numbers the SIMD and the scalar functions return the larger / smaller value, in every build;
unless the result is a zero they return the same pattern. -/
theorem C37_max_float (b : Build32) (P : Platform 32) (x y : BitVec 32) (hx : Num binary32 x)
    (hy : Num binary32 y) :
    binary32.toEReal ((b.lane P).max_ x y) = max (binary32.toEReal x) (binary32.toEReal y) ∧
    binary32.toEReal ((Build32.scalar P).max_ x y) = max (binary32.toEReal x) (binary32.toEReal y) ∧
    (max (binary32.toEReal x) (binary32.toEReal y) ≠ 0 →
      (b.lane P).max_ x y = (Build32.scalar P).max_ x y) := by
  have h1 := isMax_lane32 b P
  have h2 : IsMax binary32 (Build32.scalar P).max_ := isMax_stdMax _
  refine ⟨h1.val x y hx hy, h2.val x y hx hy, fun h0 => ?_⟩
  refine eq_of_value binary32 (h1.num hx hy) (h2.num hx hy) ?_ ?_
  · rw [h1.val x y hx hy, h2.val x y hx hy]
  · rw [h1.val x y hx hy]; exact h0

theorem C37_min_float (b : Build32) (P : Platform 32) (x y : BitVec 32) (hx : Num binary32 x)
    (hy : Num binary32 y) :
    binary32.toEReal ((b.lane P).min_ x y) = min (binary32.toEReal x) (binary32.toEReal y) ∧
    binary32.toEReal ((Build32.scalar P).min_ x y) = min (binary32.toEReal x) (binary32.toEReal y) ∧
    (min (binary32.toEReal x) (binary32.toEReal y) ≠ 0 →
      (b.lane P).min_ x y = (Build32.scalar P).min_ x y) := by
  have h1 := isMin_lane32 b P
  have h2 : IsMin binary32 (Build32.scalar P).min_ := isMin_stdMin _
  refine ⟨h1.val x y hx hy, h2.val x y hx hy, fun h0 => ?_⟩
  refine eq_of_value binary32 (h1.num hx hy) (h2.num hx hy) ?_ ?_
  · rw [h1.val x y hx hy, h2.val x y hx hy]
  · rw [h1.val x y hx hy]; exact h0

theorem C37_max_double (b : Build64) (P : Platform 64) (x y : BitVec 64) (hx : Num binary64 x)
    (hy : Num binary64 y) :
    binary64.toEReal ((b.lane P).max_ x y) = max (binary64.toEReal x) (binary64.toEReal y) ∧
    binary64.toEReal ((Build64.scalar P).max_ x y) = max (binary64.toEReal x) (binary64.toEReal y) ∧
    (max (binary64.toEReal x) (binary64.toEReal y) ≠ 0 →
      (b.lane P).max_ x y = (Build64.scalar P).max_ x y) := by
  have h1 := isMax_lane64 b P
  have h2 : IsMax binary64 (Build64.scalar P).max_ := isMax_stdMax _
  refine ⟨h1.val x y hx hy, h2.val x y hx hy, fun h0 => ?_⟩
  refine eq_of_value binary64 (h1.num hx hy) (h2.num hx hy) ?_ ?_
  · rw [h1.val x y hx hy, h2.val x y hx hy]
  · rw [h1.val x y hx hy]; exact h0

theorem C37_min_double (b : Build64) (P : Platform 64) (x y : BitVec 64) (hx : Num binary64 x)
    (hy : Num binary64 y) :
    binary64.toEReal ((b.lane P).min_ x y) = min (binary64.toEReal x) (binary64.toEReal y) ∧
    binary64.toEReal ((Build64.scalar P).min_ x y) = min (binary64.toEReal x) (binary64.toEReal y) ∧
    (min (binary64.toEReal x) (binary64.toEReal y) ≠ 0 →
      (b.lane P).min_ x y = (Build64.scalar P).min_ x y) := by
  have h1 := isMin_lane64 b P
  have h2 : IsMin binary64 (Build64.scalar P).min_ := isMin_stdMin _
  refine ⟨h1.val x y hx hy, h2.val x y hx hy, fun h0 => ?_⟩
  refine eq_of_value binary64 (h1.num hx hy) (h2.num hx hy) ?_ ?_
  · rw [h1.val x y hx hy, h2.val x y hx hy]
  · rw [h1.val x y hx hy]; exact h0

/-- SSE or AVX -/
def Build32.isX86 : Build32 → Bool
  | .sse _ _ => true
  | .avx _ => true
  | _ => false

/-- SSE2 or AVX -/
def Build64.isX86 : Build64 → Bool
  | .sse2 _ _ => true
  | .avx _ => true
  | _ => false

theorem key_not_lt {w : Nat} (F : Fmt w) {x y : BitVec w}
    (h : ¬ Num F x ∨ ¬ Num F y ∨ F.toEReal x = F.toEReal y) : F.ltb x y = false ∧ F.ltb y x = false := by
  by_cases hx : Num F x
  · by_cases hy : Num F y
    · have he : F.toEReal x = F.toEReal y := by
        rcases h with h | h | h
        · exact absurd hx h
        · exact absurd hy h
        · exact h
      have hk := (F.key_eq_iff_value hx hy).mpr he
      rw [F.ltb_of_num hx hy, F.ltb_of_num hy hx, hk]; simp
    · have hy' : F.isNaN y = true := by simpa [Num] using hy
      exact ⟨F.ltb_nan (Or.inr hy'), F.ltb_nan (Or.inl hy')⟩
  · have hx' : F.isNaN x = true := by simpa [Num] using hx
    exact ⟨F.ltb_nan (Or.inl hx'), F.ltb_nan (Or.inr hx')⟩

/-- If an operand is a NaN or the values are equal (in particular zeros of different sign), the x86
vector classes return the second operand and the scalar functions the first. -/
theorem C37_ties_and_nan_float (b : Build32) (hb : b.isX86 = true) (P : Platform 32) (x y : BitVec 32)
    (h : ¬ Num binary32 x ∨ ¬ Num binary32 y ∨ binary32.toEReal x = binary32.toEReal y) :
    (b.lane P).max_ x y = y ∧ (b.lane P).min_ x y = y ∧
    (Build32.scalar P).max_ x y = x ∧ (Build32.scalar P).min_ x y = x := by
  obtain ⟨h1, h2⟩ := key_not_lt binary32 h
  have e1 : binary32.maxps x y = y := by simp [Fmt.maxps, h2]
  have e2 : binary32.minps x y = y := by simp [Fmt.minps, h1]
  have e3 : binary32.stdMax x y = x := by simp [Fmt.stdMax, h1]
  have e4 : binary32.stdMin x y = x := by simp [Fmt.stdMin, h2]
  cases b <;> first | exact absurd hb (by decide) | exact ⟨e1, e2, e3, e4⟩

theorem C37_ties_and_nan_double (b : Build64) (hb : b.isX86 = true) (P : Platform 64) (x y : BitVec 64)
    (h : ¬ Num binary64 x ∨ ¬ Num binary64 y ∨ binary64.toEReal x = binary64.toEReal y) :
    (b.lane P).max_ x y = y ∧ (b.lane P).min_ x y = y ∧
    (Build64.scalar P).max_ x y = x ∧ (Build64.scalar P).min_ x y = x := by
  obtain ⟨h1, h2⟩ := key_not_lt binary64 h
  have e1 : binary64.maxps x y = y := by simp [Fmt.maxps, h2]
  have e2 : binary64.minps x y = y := by simp [Fmt.minps, h1]
  have e3 : binary64.stdMax x y = x := by simp [Fmt.stdMax, h1]
  have e4 : binary64.stdMin x y = x := by simp [Fmt.stdMin, h2]
  cases b <;> first | exact absurd hb (by decide) | exact ⟨e1, e2, e3, e4⟩

example : Num binary32 0x3f800000#32 ∧ ¬ Num binary32 0x7fc00000#32 ∧
    (Build32.sse true ⟨true, true, true⟩).isX86 = true := by decide

/-! ## C38 -/

/-- `r` is `v` clipped to the values `lo … hi`. -/
def Clipped (v lo hi r : EReal) : Prop := lo ≤ r ∧ r ≤ hi ∧ (lo ≤ v → v ≤ hi → r = v)

theorem clipped_max_min {v lo hi : EReal} (h : lo ≤ hi) : Clipped v lo hi (max lo (min v hi)) :=
  ⟨le_max_left _ _, max_le h (min_le_right _ _),
    fun h1 h2 => by rw [min_eq_left h2, max_eq_right h1]⟩

/-- `clip`, scalar and SIMD, every build: for ordered limits and any number the result lies within the
limits and is the value itself if that lies within them. -/
theorem C38_clip_float (b : Build32) (P : Platform 32) {v lo hi : BitVec 32} (hv : Num binary32 v)
    (hl : Num binary32 lo) (hh : Num binary32 hi) (hle : binary32.toEReal lo ≤ binary32.toEReal hi) :
    Clipped (binary32.toEReal v) (binary32.toEReal lo) (binary32.toEReal hi)
      (binary32.toEReal (Functor.clip (b.lane P) v lo hi)) ∧
    Clipped (binary32.toEReal v) (binary32.toEReal lo) (binary32.toEReal hi)
      (binary32.toEReal (Functor.clip (Build32.scalar P) v lo hi)) := by
  rw [(clip_spec binary32 (isMax_lane32 b P) (isMin_lane32 b P) hv hl hh).2,
    (clip_spec (A := Build32.scalar P) binary32 (isMax_stdMax _) (isMin_stdMin _) hv hl hh).2]
  exact ⟨clipped_max_min hle, clipped_max_min hle⟩

theorem C38_clip_double (b : Build64) (P : Platform 64) {v lo hi : BitVec 64} (hv : Num binary64 v)
    (hl : Num binary64 lo) (hh : Num binary64 hi) (hle : binary64.toEReal lo ≤ binary64.toEReal hi) :
    Clipped (binary64.toEReal v) (binary64.toEReal lo) (binary64.toEReal hi)
      (binary64.toEReal (Functor.clip (b.lane P) v lo hi)) ∧
    Clipped (binary64.toEReal v) (binary64.toEReal lo) (binary64.toEReal hi)
      (binary64.toEReal (Functor.clip (Build64.scalar P) v lo hi)) := by
  rw [(clip_spec binary64 (isMax_lane64 b P) (isMin_lane64 b P) hv hl hh).2,
    (clip_spec (A := Build64.scalar P) binary64 (isMax_stdMax _) (isMin_stdMin _) hv hl hh).2]
  exact ⟨clipped_max_min hle, clipped_max_min hle⟩

theorem lane_zero32 (b : Build32) (P : Platform 32) : (b.lane P).zero = binary32.posZero := by
  cases b <;> rfl

theorem lane_sub32 (b : Build32) (P : Platform 32) : (b.lane P).sub = binary32.sub := by
  cases b <;> rfl

theorem lane_zero64 (b : Build64) (P : Platform 64) : (b.lane P).zero = binary64.posZero := by
  cases b <;> rfl

theorem lane_sub64 (b : Build64) (P : Platform 64) : (b.lane P).sub = binary64.sub := by
  cases b <;> rfl

theorem neg_le_self_ereal {l : EReal} (h : 0 ≤ l) : -l ≤ l :=
  le_trans (by simpa using EReal.neg_le_neg_iff.mpr h) h

/-- `clip2`, scalar and SIMD, every build: for a limit that is not negative the result lies between the
negated limit and the limit and is the value itself if that lies between them. -/
theorem C38_clip2_float (b : Build32) (P : Platform 32) {v lim : BitVec 32} (hv : Num binary32 v)
    (hl : Num binary32 lim) (h0 : 0 ≤ binary32.toEReal lim) :
    Clipped (binary32.toEReal v) (-binary32.toEReal lim) (binary32.toEReal lim)
      (binary32.toEReal (Functor.clip2 (b.lane P) v lim)) ∧
    Clipped (binary32.toEReal v) (-binary32.toEReal lim) (binary32.toEReal lim)
      (binary32.toEReal (Functor.clip2 (Build32.scalar P) v lim)) := by
  rw [(clip2_spec binary32 (isMax_lane32 b P) (isMin_lane32 b P) (lane_zero32 b P) (lane_sub32 b P) hv hl).2,
    (clip2_spec (A := Build32.scalar P) binary32 (isMax_stdMax _) (isMin_stdMin _) rfl rfl hv hl).2]
  exact ⟨clipped_max_min (neg_le_self_ereal h0), clipped_max_min (neg_le_self_ereal h0)⟩

theorem C38_clip2_double (b : Build64) (P : Platform 64) {v lim : BitVec 64} (hv : Num binary64 v)
    (hl : Num binary64 lim) (h0 : 0 ≤ binary64.toEReal lim) :
    Clipped (binary64.toEReal v) (-binary64.toEReal lim) (binary64.toEReal lim)
      (binary64.toEReal (Functor.clip2 (b.lane P) v lim)) ∧
    Clipped (binary64.toEReal v) (-binary64.toEReal lim) (binary64.toEReal lim)
      (binary64.toEReal (Functor.clip2 (Build64.scalar P) v lim)) := by
  rw [(clip2_spec binary64 (isMax_lane64 b P) (isMin_lane64 b P) (lane_zero64 b P) (lane_sub64 b P) hv hl).2,
    (clip2_spec (A := Build64.scalar P) binary64 (isMax_stdMax _) (isMin_stdMin _) rfl rfl hv hl).2]
  exact ⟨clipped_max_min (neg_le_self_ereal h0), clipped_max_min (neg_le_self_ereal h0)⟩

/-- NaN handling of `clip`: the x86 vector classes turn a NaN into the upper limit, the scalar function
returns the NaN. -/
theorem C38_clip_nan_float (b : Build32) (hb : b.isX86 = true) (P : Platform 32) {v lo hi : BitVec 32}
    (hv : ¬ Num binary32 v) (hl : Num binary32 lo) (hh : Num binary32 hi)
    (hle : binary32.toEReal lo ≤ binary32.toEReal hi) :
    binary32.toEReal (Functor.clip (b.lane P) v lo hi) = binary32.toEReal hi ∧
    Functor.clip (Build32.scalar P) v lo hi = v := by
  have h1 := C37_ties_and_nan_float b hb P v hi (Or.inl hv)
  have h2 := C37_ties_and_nan_float b hb P v lo (Or.inl hv)
  constructor
  · unfold Functor.clip
    rw [h1.2.1, (isMax_lane32 b P).val _ _ hh hl, max_eq_left hle]
  · unfold Functor.clip
    rw [h1.2.2.2, h2.2.2.1]

/-- NaN handling of `clip2`: the x86 vector classes turn a NaN into `+limit`, the scalar function turns
it into `-limit`. -/
theorem C38_clip2_nan_float (b : Build32) (hb : b.isX86 = true) (P : Platform 32) {v lim : BitVec 32}
    (hv : ¬ Num binary32 v) (hl : Num binary32 lim) (h0 : 0 ≤ binary32.toEReal lim) :
    binary32.toEReal (Functor.clip2 (b.lane P) v lim) = binary32.toEReal lim ∧
    binary32.toEReal (Functor.clip2 (Build32.scalar P) v lim) = -binary32.toEReal lim := by
  obtain ⟨e, hn⟩ := binary32.toEReal_zero_sub hl
  have h1 := C37_ties_and_nan_float b hb P v lim (Or.inl hv)
  have h2 := C37_ties_and_nan_float b hb P (binary32.sub binary32.posZero lim) v (Or.inr (Or.inl hv))
  constructor
  · unfold Functor.clip2
    simp only [lane_zero32, lane_sub32]
    rw [h1.2.1, (isMax_lane32 b P).val _ _ hn hl, e, max_eq_right (neg_le_self_ereal h0)]
  · have h3 : (Build32.scalar P).min_ v lim = v := h1.2.2.2
    have h4 : (Build32.scalar P).max_ (binary32.sub binary32.posZero lim) v = _ := h2.2.2.1
    change binary32.toEReal ((Build32.scalar P).max_ (binary32.sub binary32.posZero lim)
      ((Build32.scalar P).min_ v lim)) = _
    rw [h3, h4, e]

/-- A whole call `clip_vec_simd`: every element written lies within its limits. -/
theorem C38_clip_call_float (b : Build32) (P : Platform 32) {m : Mem (BitVec 32)} {out : Nat}
    {a c d : SArg (BitVec 32)} {n : BitVec 32} {x lo hi : Nat → BitVec 32} (hn : 0 < n.toNat)
    (hmul : b.target.perLine ∣ n.toNat) (hoal : b.target.align ∣ out)
    (hout : Allocated m out n.toNat)
    (ha : SimdSupplies (b.vec P) b.target.align m out n.toNat a x)
    (hb : SimdSupplies (b.vec P) b.target.align m out n.toNat c lo)
    (hc : SimdSupplies (b.vec P) b.target.align m out n.toNat d hi)
    (hx : ∀ i, i < n.toNat → Num binary32 (x i) ∧ Num binary32 (lo i) ∧ Num binary32 (hi i) ∧
      binary32.toEReal (lo i) ≤ binary32.toEReal (hi i)) :
    ∃ y, TerOp.clip.vecSimd (b.vec P) out a c d n m = .ok ((), overwrite m out n.toNat y) ∧
      ∀ i, i < n.toNat → Clipped (binary32.toEReal (x i)) (binary32.toEReal (lo i))
        (binary32.toEReal (hi i)) (binary32.toEReal (y i)) := by
  refine ⟨_, C03_ternary_simd b.target (b.env P) .clip hn hmul hoal hout ha hb hc, fun i hi => ?_⟩
  obtain ⟨h1, h2, h3, h4⟩ := hx i hi
  exact (C38_clip_float b P h1 h2 h3 h4).1

example : Num binary32 0x40490fdb#32 ∧ Num binary32 0xbf800000#32 ∧ Num binary32 0x3f800000#32 ∧
    binary32.toEReal 0xbf800000#32 ≤ binary32.toEReal 0x3f800000#32 := by
  refine ⟨by decide, by decide, by decide, ?_⟩
  exact (binary32.key_le_iff_value (by decide) (by decide)).mp (by decide)

end Nova
