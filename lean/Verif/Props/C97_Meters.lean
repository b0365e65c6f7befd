import Verif.Props.C81_Extrema
import Verif.Props.C97_Scale

/-!
# C97 Changing levels by powers of two: meters and extrema

A signal at another level has peaks, maxima and minima at the other level, exactly.  The maximum starts from
`numeric_limits::min()` (C81), so both buffers need an element that is not below it.
-/

namespace Nova
open FP Spec

section generic
variable {w : Nat} {F : Fmt w}

/-- The elements of one set are those of the other one, scaled. -/
def ScaledSets (F : Fmt w) (k : ℤ) (S S' : Set (BitVec w)) : Prop :=
  (∀ y ∈ S, ∃ y' ∈ S', ScaledBy F k y y') ∧ ∀ y' ∈ S', ∃ y ∈ S, ScaledBy F k y y'

theorem attained_max_scaled {k : ℤ} {S S' : Set (BitVec w)} (h : ScaledSets F k S S') {r r' : BitVec w} (f : IsFin F r) (f' : IsFin F r')
    (a : ∃ y ∈ S, F.toReal y = F.toReal r) (u : ∀ y ∈ S, F.toReal y ≤ F.toReal r)
    (a' : ∃ y ∈ S', F.toReal y = F.toReal r') (u' : ∀ y ∈ S', F.toReal y ≤ F.toReal r') : ScaledBy F k r r' := by
  refine ⟨f, f', ?_⟩
  have p : (0 : ℝ) < 2 ^ k := by positivity
  obtain ⟨y, hy, e⟩ := a
  obtain ⟨z, hz, e'⟩ := a'
  obtain ⟨y', hy', -, -, v⟩ := h.1 y hy
  obtain ⟨z', hz', -, -, v'⟩ := h.2 z hz
  have b := u' y' hy'
  have c := u z' hz'
  rw [v, e] at b
  rw [← e', v']
  rw [← e', v'] at b
  exact le_antisymm (mul_le_mul_of_nonneg_right c p.le) b

theorem attained_min_scaled {k : ℤ} {S S' : Set (BitVec w)} (h : ScaledSets F k S S') {r r' : BitVec w} (f : IsFin F r) (f' : IsFin F r')
    (a : ∃ y ∈ S, F.toReal y = F.toReal r) (u : ∀ y ∈ S, F.toReal r ≤ F.toReal y)
    (a' : ∃ y ∈ S', F.toReal y = F.toReal r') (u' : ∀ y ∈ S', F.toReal r' ≤ F.toReal y) : ScaledBy F k r r' := by
  refine ⟨f, f', ?_⟩
  have p : (0 : ℝ) < 2 ^ k := by positivity
  obtain ⟨y, hy, e⟩ := a
  obtain ⟨z, hz, e'⟩ := a'
  obtain ⟨y', hy', -, -, v⟩ := h.1 y hy
  obtain ⟨z', hz', -, -, v'⟩ := h.2 z hz
  have b := u' y' hy'
  have c := u z' hz'
  rw [v, e] at b
  rw [← e', v']
  rw [← e', v'] at b
  exact le_antisymm b (mul_le_mul_of_nonneg_right c p.le)

theorem elems_scaled {k : ℤ} {n : Nat} {x x' : Nat → BitVec w} (hx : ∀ i, i < n → ScaledBy F k (x i) (x' i)) :
    ScaledSets F k (Elems x n) (Elems x' n) := by
  constructor
  · rintro _ ⟨i, hi, rfl⟩; exact ⟨_, ⟨i, hi, rfl⟩, hx i hi⟩
  · rintro _ ⟨i, hi, rfl⟩; exact ⟨_, ⟨i, hi, rfl⟩, hx i hi⟩

theorem insert_scaled {k : ℤ} {S S' : Set (BitVec w)} (h : ScaledSets F k S S') {p p' : BitVec w} (hp : ScaledBy F k p p') :
    ScaledSets F k (insert p S) (insert p' S') := by
  constructor
  · rintro y (rfl | hy)
    · exact ⟨p', .inl rfl, hp⟩
    · obtain ⟨y', a, b⟩ := h.1 y hy; exact ⟨y', .inr a, b⟩
  · rintro y (rfl | hy)
    · exact ⟨p, .inl rfl, hp⟩
    · obtain ⟨y', a, b⟩ := h.2 y hy; exact ⟨y', .inr a, b⟩

theorem toReal_le_of_toEReal {x y : BitVec w} (hx : IsFin F x) (hy : IsFin F y) : F.toEReal x ≤ F.toEReal y ↔ F.toReal x ≤ F.toReal y := by
  rw [F.toEReal_of_finite hx, F.toEReal_of_finite hy]; exact EReal.coe_le_coe_iff

/-- Maxima of sets of finite numbers. -/
theorem maximum_scaled {k : ℤ} {S S' : Set (BitVec w)} (h : ScaledSets F k S S') {r r' : BitVec w} (hr : IsMaximum F S r)
    (hr' : IsMaximum F S' r') : ScaledBy F k r r' := by
  have f : ∀ y ∈ S, IsFin F y := fun y hy => by obtain ⟨_, -, a⟩ := h.1 y hy; exact a.1
  have f' : ∀ y ∈ S', IsFin F y := fun y hy => by obtain ⟨_, -, a⟩ := h.2 y hy; exact a.2.1
  exact attained_max_scaled h (f _ hr.1) (f' _ hr'.1) ⟨r, hr.1, rfl⟩
    (fun y hy => (toReal_le_of_toEReal (f y hy) (f _ hr.1)).mp (hr.2 y hy)) ⟨r', hr'.1, rfl⟩
    fun y hy => (toReal_le_of_toEReal (f' y hy) (f' _ hr'.1)).mp (hr'.2 y hy)

/-- The initial value of a maximum does not matter if an element is not smaller. -/
theorem maximum_attained {S : Set (BitVec w)} {l r : BitVec w} (hl : IsFin F l) (hS : ∀ y ∈ S, IsFin F y)
    (h : ∃ y ∈ S, F.toReal l ≤ F.toReal y) (hr : IsMaximum F (insert l S) r) :
    IsFin F r ∧ (∃ y ∈ S, F.toReal y = F.toReal r) ∧ ∀ y ∈ S, F.toReal y ≤ F.toReal r := by
  have hf : IsFin F r := by
    rcases hr.1 with rfl | h
    · exact hl
    · exact hS r h
  have u : ∀ y ∈ S, F.toReal y ≤ F.toReal r := fun y hy => (toReal_le_of_toEReal (hS y hy) hf).mp (hr.2 y (.inr hy))
  refine ⟨hf, ?_, u⟩
  rcases hr.1 with rfl | h1
  · obtain ⟨y, hy, c⟩ := h
    exact ⟨y, hy, le_antisymm (u y hy) c⟩
  · exact ⟨r, h1, rfl⟩

theorem minimum_attained {S : Set (BitVec w)} {l r : BitVec w} (hl : IsFin F l) (hS : ∀ y ∈ S, IsFin F y)
    (h : ∃ y ∈ S, F.toReal y ≤ F.toReal l) (hr : IsMinimum F (insert l S) r) :
    IsFin F r ∧ (∃ y ∈ S, F.toReal y = F.toReal r) ∧ ∀ y ∈ S, F.toReal r ≤ F.toReal y := by
  have hf : IsFin F r := by
    rcases hr.1 with rfl | h
    · exact hl
    · exact hS r h
  have u : ∀ y ∈ S, F.toReal r ≤ F.toReal y := fun y hy => (toReal_le_of_toEReal hf (hS y hy)).mp (hr.2 y (.inr hy))
  refine ⟨hf, ?_, u⟩
  rcases hr.1 with rfl | h1
  · obtain ⟨y, hy, c⟩ := h
    exact ⟨y, hy, le_antisymm c (u y hy)⟩
  · exact ⟨r, h1, rfl⟩

theorem scaled_fin {k : ℤ} {S S' : Set (BitVec w)} (h : ScaledSets F k S S') : (∀ y ∈ S, IsFin F y) ∧ ∀ y ∈ S', IsFin F y :=
  ⟨fun y hy => by obtain ⟨_, -, a⟩ := h.1 y hy; exact a.1, fun y hy => by obtain ⟨_, -, a⟩ := h.2 y hy; exact a.2.1⟩

theorem maximum_limit_scaled {k : ℤ} {n : Nat} {x x' : Nat → BitVec w} (hx : ∀ i, i < n → ScaledBy F k (x i) (x' i)) {l r r' : BitVec w}
    (hl : IsFin F l) (h : ∃ i, i < n ∧ F.toReal l ≤ F.toReal (x i)) (h' : ∃ i, i < n ∧ F.toReal l ≤ F.toReal (x' i))
    (hr : IsMaximum F (insert l (Elems x n)) r) (hr' : IsMaximum F (insert l (Elems x' n)) r') : ScaledBy F k r r' := by
  have hs := elems_scaled hx
  obtain ⟨i, hi, c⟩ := h
  obtain ⟨j, hj, c'⟩ := h'
  obtain ⟨f, a, u⟩ := maximum_attained hl (scaled_fin hs).1 ⟨_, ⟨i, hi, rfl⟩, c⟩ hr
  obtain ⟨f', a', u'⟩ := maximum_attained hl (scaled_fin hs).2 ⟨_, ⟨j, hj, rfl⟩, c'⟩ hr'
  exact attained_max_scaled hs f f' a u a' u'

theorem minimum_limit_scaled {k : ℤ} {n : Nat} {x x' : Nat → BitVec w} (hx : ∀ i, i < n → ScaledBy F k (x i) (x' i)) {l r r' : BitVec w}
    (hl : IsFin F l) (h : ∃ i, i < n ∧ F.toReal (x i) ≤ F.toReal l) (h' : ∃ i, i < n ∧ F.toReal (x' i) ≤ F.toReal l)
    (hr : IsMinimum F (insert l (Elems x n)) r) (hr' : IsMinimum F (insert l (Elems x' n)) r') : ScaledBy F k r r' := by
  have hs := elems_scaled hx
  obtain ⟨i, hi, c⟩ := h
  obtain ⟨j, hj, c'⟩ := h'
  obtain ⟨f, a, u⟩ := minimum_attained hl (scaled_fin hs).1 ⟨_, ⟨i, hi, rfl⟩, c⟩ hr
  obtain ⟨f', a', u'⟩ := minimum_attained hl (scaled_fin hs).2 ⟨_, ⟨j, hj, rfl⟩, c'⟩ hr'
  exact attained_min_scaled hs f f' a u a' u'

end generic

section float
variable (b : Build32) (P : Platform 32) {k : ℤ} {m m' : Mem (BitVec 32)} {inp inp' : Nat} {n : BitVec 32} {x x' : Nat → BitVec 32}

/-- `peak_vec`: the old peaks and the buffers at different levels. -/
theorem C97_peak_float {peak peak' : Nat} {p0 p0' : BitVec 32} (hn : 0 < n.toNat) (h : Holds m inp n.toNat x)
    (h' : Holds m' inp' n.toNat x') (hp : m peak = some p0) (hp' : m' peak' = some p0') (h0 : ScaledBy binary32 k p0 p0')
    (hx : ∀ i, i < n.toNat → ScaledBy binary32 k (x i) (x' i)) :
    ∃ r r' p p', peakVec (b.env P) inp peak n m = .ok (r, overwrite m peak 1 fun _ => p) ∧
      peakVec (b.env P) inp' peak' n m' = .ok (r', overwrite m' peak' 1 fun _ => p') ∧
      ScaledBy binary32 k r r' ∧ ScaledBy binary32 k p p' := by
  obtain ⟨p, hm, e⟩ := C81_peak_float b P hn h hp h0.fin.1 fun i hi => (hx i hi).fin.1
  obtain ⟨p', hm', e'⟩ := C81_peak_float b P hn h' hp' h0.fin.2 fun i hi => (hx i hi).fin.2
  exact ⟨_, _, _, _, e, e', abs_scaled (hx _ (Nat.sub_lt hn Nat.one_pos)),
    maximum_scaled (insert_scaled (elems_scaled fun i hi => abs_scaled (hx i hi)) h0) hm hm'⟩

/-- `peak_vec_simd` of every build but AVX, on whole blocks of four registers (C24, C26). -/
theorem C97_peak_simd_float (hb : ∀ fma, b ≠ .avx fma) {peak peak' : Nat} {p0 p0' : BitVec 32} (hn : 0 < n.toNat)
    (hd : 4 * b.target.size ∣ n.toNat) (hal : b.target.align ∣ inp) (hal' : b.target.align ∣ inp') (h : Holds m inp n.toNat x)
    (h' : Holds m' inp' n.toNat x') (hp : m peak = some p0) (hp' : m' peak' = some p0') (h0 : ScaledBy binary32 k p0 p0')
    (hx : ∀ i, i < n.toNat → ScaledBy binary32 k (x i) (x' i)) :
    ∃ r r' p p', peakVecSimd (b.vec P) inp peak n m = .ok (r, overwrite m peak 1 fun _ => p) ∧
      peakVecSimd (b.vec P) inp' peak' n m' = .ok (r', overwrite m' peak' 1 fun _ => p') ∧
      ScaledBy binary32 k r r' ∧ ScaledBy binary32 k p p' := by
  obtain ⟨p, hm, e⟩ := C81_peak_simd_float_partial b P hb hn hd hal h hp h0.fin.1 fun i hi => (hx i hi).fin.1
  obtain ⟨p', hm', e'⟩ := C81_peak_simd_float_partial b P hb hn hd hal' h' hp' h0.fin.2 fun i hi => (hx i hi).fin.2
  exact ⟨_, _, _, _, e, e', abs_scaled (hx _ (Nat.sub_lt hn Nat.one_pos)),
    maximum_scaled (insert_scaled (elems_scaled fun i hi => abs_scaled (hx i hi)) h0) hm hm'⟩

/-- `horizontal_max_vec` and `horizontal_max_vec_simd`, if both buffers have an element that is not below `numeric_limits::min()`. -/
theorem C97_max_float (h : SimdInput b.target m inp n x) (h' : SimdInput b.target m' inp' n x')
    (hx : ∀ i, i < n.toNat → ScaledBy binary32 k (x i) (x' i))
    (hc : ∃ i, i < n.toNat ∧ smallestNormal binary32 ≤ binary32.toReal (x i))
    (hc' : ∃ i, i < n.toNat ∧ smallestNormal binary32 ≤ binary32.toReal (x' i)) :
    ∃ r r', horizontalMaxVec (b.env P) floatLimits inp n m = .ok (r, m) ∧ horizontalMaxVec (b.env P) floatLimits inp' n m' = .ok (r', m') ∧
      horizontalMaxVecSimd (b.vec P) floatLimits inp n m = .ok (r, m) ∧ horizontalMaxVecSimd (b.vec P) floatLimits inp' n m' = .ok (r', m') ∧
      ScaledBy binary32 k r r' := by
  obtain ⟨r, hm, e, s⟩ := C81_max_float b P h fun i hi => (hx i hi).fin.1
  obtain ⟨r', hm', e', s'⟩ := C81_max_float b P h' fun i hi => (hx i hi).fin.2
  have hl : binary32.toReal floatLimits.min = smallestNormal binary32 := by
    obtain ⟨-, v⟩ := val32 (x := floatLimits.min) (1 / 2 ^ 126) (by decide +kernel)
    rw [v]
    unfold smallestNormal
    rw [show binary32.mb = 23 from rfl, show binary32.scale = 149 by decide]
    norm_num
  exact ⟨r, r', e, e', s, s', maximum_limit_scaled hx (l := floatLimits.min) (by decide) (by rw [hl]; exact hc) (by rw [hl]; exact hc') hm hm'⟩

/-- The minimum of `horizontal_minmax_vec` and its SIMD version starts from `numeric_limits::max()`: nothing is excluded. -/
theorem C97_minmax_float (h : SimdInput b.target m inp n x) (h' : SimdInput b.target m' inp' n x')
    (hx : ∀ i, i < n.toNat → ScaledBy binary32 k (x i) (x' i)) :
    ∃ lo hi lo' hi' lo₁ lo₁', horizontalMinmaxVec (b.env P) floatLimits inp n m = .ok ((lo, hi), m) ∧
      horizontalMinmaxVec (b.env P) floatLimits inp' n m' = .ok ((lo', hi'), m') ∧
      horizontalMinmaxVecSimd (b.vec P) floatLimits inp n m = .ok ((lo₁, hi), m) ∧
      horizontalMinmaxVecSimd (b.vec P) floatLimits inp' n m' = .ok ((lo₁', hi'), m') ∧
      ScaledBy binary32 k lo lo' ∧ ScaledBy binary32 k lo₁ lo₁' := by
  obtain ⟨lo, lo₁, hi, e, s, a, a₁, -⟩ := C81_minmax_float b P h fun i hi => (hx i hi).fin.1
  obtain ⟨lo', lo₁', hi', e', s', a', a₁', -⟩ := C81_minmax_float b P h' fun i hi => (hx i hi).fin.2
  have top : ∀ y : BitVec 32, IsFin binary32 y → binary32.toReal y ≤ binary32.toReal floatLimits.max := fun y hy => by
    rw [← toReal_le_of_toEReal hy (by decide), ← binary32.key_le_iff_value (binary32.isFinite_not_nan hy) (by decide)]
    have c := binary32.finite_code hy
    have e1 : binary32.key floatLimits.max = binary32.infCode - 1 := by decide +kernel
    rw [e1]
    unfold Fmt.key
    split <;> omega
  have q : ∃ i, i < n.toNat ∧ binary32.toReal (x i) ≤ binary32.toReal floatLimits.max := ⟨0, h.pos, top _ (hx 0 h.pos).1⟩
  have q' : ∃ i, i < n.toNat ∧ binary32.toReal (x' i) ≤ binary32.toReal floatLimits.max := ⟨0, h.pos, top _ (hx 0 h.pos).2.1⟩
  exact ⟨lo, hi, lo', hi', lo₁, lo₁', e, e', s, s', minimum_limit_scaled hx (by decide) q q' a a',
    minimum_limit_scaled hx (by decide) q q' a₁ a₁'⟩

end float

section double
variable (b : Build64) (P : Platform 64) {k : ℤ} {m m' : Mem (BitVec 64)} {inp inp' : Nat} {n : BitVec 32} {x x' : Nat → BitVec 64}

theorem C97_peak_double {peak peak' : Nat} {p0 p0' : BitVec 64} (hn : 0 < n.toNat) (h : Holds m inp n.toNat x)
    (h' : Holds m' inp' n.toNat x') (hp : m peak = some p0) (hp' : m' peak' = some p0') (h0 : ScaledBy binary64 k p0 p0')
    (hx : ∀ i, i < n.toNat → ScaledBy binary64 k (x i) (x' i)) :
    ∃ r r' p p', peakVec (b.env P) inp peak n m = .ok (r, overwrite m peak 1 fun _ => p) ∧
      peakVec (b.env P) inp' peak' n m' = .ok (r', overwrite m' peak' 1 fun _ => p') ∧
      ScaledBy binary64 k r r' ∧ ScaledBy binary64 k p p' := by
  obtain ⟨p, hm, e⟩ := C81_peak_double b P hn h hp h0.fin.1 fun i hi => (hx i hi).fin.1
  obtain ⟨p', hm', e'⟩ := C81_peak_double b P hn h' hp' h0.fin.2 fun i hi => (hx i hi).fin.2
  exact ⟨_, _, _, _, e, e', abs_scaled (hx _ (Nat.sub_lt hn Nat.one_pos)),
    maximum_scaled (insert_scaled (elems_scaled fun i hi => abs_scaled (hx i hi)) h0) hm hm'⟩

theorem C97_peak_simd_double (hb : ∀ fma, b ≠ .avx fma) {peak peak' : Nat} {p0 p0' : BitVec 64} (hn : 0 < n.toNat)
    (hd : 4 * b.target.size ∣ n.toNat) (hal : b.target.align ∣ inp) (hal' : b.target.align ∣ inp') (h : Holds m inp n.toNat x)
    (h' : Holds m' inp' n.toNat x') (hp : m peak = some p0) (hp' : m' peak' = some p0') (h0 : ScaledBy binary64 k p0 p0')
    (hx : ∀ i, i < n.toNat → ScaledBy binary64 k (x i) (x' i)) :
    ∃ r r' p p', peakVecSimd (b.vec P) inp peak n m = .ok (r, overwrite m peak 1 fun _ => p) ∧
      peakVecSimd (b.vec P) inp' peak' n m' = .ok (r', overwrite m' peak' 1 fun _ => p') ∧
      ScaledBy binary64 k r r' ∧ ScaledBy binary64 k p p' := by
  obtain ⟨p, hm, e⟩ := C81_peak_simd_double_partial b P hb hn hd hal h hp h0.fin.1 fun i hi => (hx i hi).fin.1
  obtain ⟨p', hm', e'⟩ := C81_peak_simd_double_partial b P hb hn hd hal' h' hp' h0.fin.2 fun i hi => (hx i hi).fin.2
  exact ⟨_, _, _, _, e, e', abs_scaled (hx _ (Nat.sub_lt hn Nat.one_pos)),
    maximum_scaled (insert_scaled (elems_scaled fun i hi => abs_scaled (hx i hi)) h0) hm hm'⟩

theorem C97_max_double (h : SimdInput b.target m inp n x) (h' : SimdInput b.target m' inp' n x')
    (hx : ∀ i, i < n.toNat → ScaledBy binary64 k (x i) (x' i))
    (hc : ∃ i, i < n.toNat ∧ smallestNormal binary64 ≤ binary64.toReal (x i))
    (hc' : ∃ i, i < n.toNat ∧ smallestNormal binary64 ≤ binary64.toReal (x' i)) :
    ∃ r r', horizontalMaxVec (b.env P) doubleLimits inp n m = .ok (r, m) ∧ horizontalMaxVec (b.env P) doubleLimits inp' n m' = .ok (r', m') ∧
      horizontalMaxVecSimd (b.vec P) doubleLimits inp n m = .ok (r, m) ∧ horizontalMaxVecSimd (b.vec P) doubleLimits inp' n m' = .ok (r', m') ∧
      ScaledBy binary64 k r r' := by
  obtain ⟨r, hm, e, s⟩ := C81_max_double b P h fun i hi => (hx i hi).fin.1
  obtain ⟨r', hm', e', s'⟩ := C81_max_double b P h' fun i hi => (hx i hi).fin.2
  have hl : binary64.toReal doubleLimits.min = smallestNormal binary64 := by
    unfold smallestNormal Fmt.toReal
    rw [show binary64.units doubleLimits.min = 2 ^ 52 by decide +kernel, show binary64.mb = 52 from rfl]
    generalize (2 : ℝ) ^ binary64.scale = z
    norm_num
  exact ⟨r, r', e, e', s, s', maximum_limit_scaled hx (l := doubleLimits.min) (by decide) (by rw [hl]; exact hc) (by rw [hl]; exact hc') hm hm'⟩

theorem C97_minmax_double (h : SimdInput b.target m inp n x) (h' : SimdInput b.target m' inp' n x')
    (hx : ∀ i, i < n.toNat → ScaledBy binary64 k (x i) (x' i)) :
    ∃ lo hi lo' hi' lo₁ lo₁', horizontalMinmaxVec (b.env P) doubleLimits inp n m = .ok ((lo, hi), m) ∧
      horizontalMinmaxVec (b.env P) doubleLimits inp' n m' = .ok ((lo', hi'), m') ∧
      horizontalMinmaxVecSimd (b.vec P) doubleLimits inp n m = .ok ((lo₁, hi), m) ∧
      horizontalMinmaxVecSimd (b.vec P) doubleLimits inp' n m' = .ok ((lo₁', hi'), m') ∧
      ScaledBy binary64 k lo lo' ∧ ScaledBy binary64 k lo₁ lo₁' := by
  obtain ⟨lo, lo₁, hi, e, s, a, a₁, -⟩ := C81_minmax_double b P h fun i hi => (hx i hi).fin.1
  obtain ⟨lo', lo₁', hi', e', s', a', a₁', -⟩ := C81_minmax_double b P h' fun i hi => (hx i hi).fin.2
  have top : ∀ y : BitVec 64, IsFin binary64 y → binary64.toReal y ≤ binary64.toReal doubleLimits.max := fun y hy => by
    rw [← toReal_le_of_toEReal hy (by decide), ← binary64.key_le_iff_value (binary64.isFinite_not_nan hy) (by decide)]
    have c := binary64.finite_code hy
    have e1 : binary64.key doubleLimits.max = binary64.infCode - 1 := by decide +kernel
    rw [e1]
    unfold Fmt.key
    split <;> omega
  have q : ∃ i, i < n.toNat ∧ binary64.toReal (x i) ≤ binary64.toReal doubleLimits.max := ⟨0, h.pos, top _ (hx 0 h.pos).1⟩
  have q' : ∃ i, i < n.toNat ∧ binary64.toReal (x' i) ≤ binary64.toReal doubleLimits.max := ⟨0, h.pos, top _ (hx 0 h.pos).2.1⟩
  exact ⟨lo, hi, lo', hi', lo₁, lo₁', e, e', s, s', minimum_limit_scaled hx (by decide) q q' a a',
    minimum_limit_scaled hx (by decide) q q' a₁ a₁'⟩

end double

/-- Sixteen times -3 with an old peak of 1, and sixteen times -6 with an old peak of 2. -/
example (P : Platform 32) : ∃ r r' p p',
    peakVecSimd ((Build32.sse false ⟨true, false, false⟩).vec P) 0 16 16#32
      (fun i => if i < 16 then some 0xc0400000#32 else if i = 16 then some 0x3f800000#32 else none) = .ok (r, overwrite (fun i => if i < 16 then some 0xc0400000#32 else if i = 16 then some 0x3f800000#32 else none) 16 1 fun _ => p) ∧
    peakVecSimd ((Build32.sse false ⟨true, false, false⟩).vec P) 0 16 16#32
      (fun i => if i < 16 then some 0xc0c00000#32 else if i = 16 then some 0x40000000#32 else none) = .ok (r', overwrite (fun i => if i < 16 then some 0xc0c00000#32 else if i = 16 then some 0x40000000#32 else none) 16 1 fun _ => p') ∧
    ScaledBy binary32 1 r r' ∧ ScaledBy binary32 1 p p' := by
  obtain ⟨f1, v1⟩ := val32 (x := 0x3f800000#32) 1 (by decide +kernel)
  obtain ⟨f2, v2⟩ := val32 (x := 0x40000000#32) 2 (by decide +kernel)
  obtain ⟨f3, v3⟩ := val32 (x := 0xc0400000#32) (-3) (by decide +kernel)
  obtain ⟨f6, v6⟩ := val32 (x := 0xc0c00000#32) (-6) (by decide +kernel)
  exact C97_peak_simd_float (.sse false ⟨true, false, false⟩) P nofun (n := 16#32) (x := fun _ => 0xc0400000#32)
    (x' := fun _ => 0xc0c00000#32) (by decide) (by decide) (by decide) (by decide) (by unfold Holds; decide) (by unfold Holds; decide)
    (by decide) (by decide) ⟨f1, f2, by rw [v1, v2]; norm_num⟩ fun _ _ => ⟨f3, f6, by rw [v3, v6]; norm_num⟩

/-- Sixteen times 3 and sixteen times 6: the hypotheses of the maximum. -/
example (P : Platform 32) : ∃ r r',
    horizontalMaxVecSimd ((Build32.avx false).vec P) floatLimits 0 16#32 (fun i => if i < 16 then some 0x40400000#32 else none) = .ok (r, fun i => if i < 16 then some 0x40400000#32 else none) ∧
    horizontalMaxVecSimd ((Build32.avx false).vec P) floatLimits 0 16#32 (fun i => if i < 16 then some 0x40c00000#32 else none) = .ok (r', fun i => if i < 16 then some 0x40c00000#32 else none) ∧
    ScaledBy binary32 1 r r' := by
  obtain ⟨f3, v3⟩ := val32 (x := 0x40400000#32) 3 (by decide +kernel)
  obtain ⟨f6, v6⟩ := val32 (x := 0x40c00000#32) 6 (by decide +kernel)
  have tiny : smallestNormal binary32 ≤ 1 := by
    unfold smallestNormal
    rw [show binary32.mb = 23 from rfl, show binary32.scale = 149 by decide]
    norm_num
  obtain ⟨r, r', -, -, e, e', h⟩ := C97_max_float (.avx false) P (k := 1) (n := 16#32) (inp := 0) (inp' := 0)
    (m := fun i => if i < 16 then some 0x40400000#32 else none) (m' := fun i => if i < 16 then some 0x40c00000#32 else none)
    (x := fun _ => 0x40400000#32) (x' := fun _ => 0x40c00000#32)
    ⟨by decide, by decide, by decide, by unfold Holds; decide⟩ ⟨by decide, by decide, by decide, by unfold Holds; decide⟩
    (fun _ _ => ⟨f3, f6, by rw [v3, v6]; norm_num⟩) ⟨0, by decide, by rw [v3]; refine tiny.trans ?_; norm_num⟩
    ⟨0, by decide, by rw [v6]; refine tiny.trans ?_; norm_num⟩
  exact ⟨r, r', e, e', h⟩

end Nova
