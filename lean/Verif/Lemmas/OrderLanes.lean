import Verif.Lemmas.Order
import Verif.Props.C87_ExactRamps
import Verif.Lemmas.PolarityLanes
import Verif.Lemmas.Flush

/-! # The functions of the vector classes preserve the order -/

namespace Nova
open FP Spec VecMath

/-! ## Rounding to integers -/

theorem isRounded_mono {m : Fmt.Mode} {v v' r r' : ℝ} (h : Fmt.IsRounded m v r) (h' : Fmt.IsRounded m v' r') (hv : v ≤ v') :
    r ≤ r' := by
  cases m with
  | down =>
    rw [show r = ⌊v⌋ from h, show r' = ⌊v'⌋ from h']
    exact_mod_cast Int.floor_le_floor hv
  | up =>
    rw [show r = ⌈v⌉ from h, show r' = ⌈v'⌉ from h']
    exact_mod_cast Int.ceil_le_ceil hv
  | zero =>
    rw [show r = _ from h, show r' = _ from h']
    by_cases h0 : 0 ≤ v
    · rw [if_pos h0, if_pos (h0.trans hv)]
      exact_mod_cast Int.floor_le_floor hv
    · rw [if_neg h0]
      by_cases h1 : 0 ≤ v'
      · rw [if_pos h1]
        have a : ⌈v⌉ ≤ 0 := Int.ceil_le.mpr (by push_cast; linarith)
        have b : 0 ≤ ⌊v'⌋ := Int.floor_nonneg.mpr h1
        exact_mod_cast a.trans b
      · rw [if_neg h1]
        exact_mod_cast Int.ceil_le_ceil hv
  | nearest =>
    obtain ⟨k, rfl, b, t⟩ := h
    obtain ⟨k', rfl, b', t'⟩ := h'
    by_contra hc
    have hk : k' + 1 ≤ k := by
      have : (k' : ℝ) < k := lt_of_not_ge hc
      exact_mod_cast this
    have hk' : (k' : ℝ) + 1 ≤ k := by exact_mod_cast hk
    have b1 := abs_le.mp b
    have b2 := abs_le.mp b'
    have e : (k : ℝ) = k' + 1 := by linarith
    have e1 : |v - k| = 1 / 2 := by rw [abs_eq (by norm_num)]; right; linarith
    have e2 : |v' - k'| = 1 / 2 := by rw [abs_eq (by norm_num)]; left; linarith
    have ek : k = k' + 1 := by exact_mod_cast e
    have p1 := t e1
    have p2 := t' e2
    rw [ek] at p1
    exact absurd p1 (by rw [Int.not_even_iff_odd]; exact p2.add_one)
  | away =>
    obtain ⟨k, rfl, b, t⟩ := h
    obtain ⟨k', rfl, b', t'⟩ := h'
    by_contra hc
    have hk : k' + 1 ≤ k := by
      have : (k' : ℝ) < k := lt_of_not_ge hc
      exact_mod_cast this
    have hk' : (k' : ℝ) + 1 ≤ k := by exact_mod_cast hk
    have b1 := abs_le.mp b
    have b2 := abs_le.mp b'
    have e : (k : ℝ) = k' + 1 := by linarith
    have e1 : |v - k| = 1 / 2 := by rw [abs_eq (by norm_num)]; right; linarith
    have e2 : |v' - k'| = 1 / 2 := by rw [abs_eq (by norm_num)]; left; linarith
    have p1 := t e1
    have p2 := t' e2
    have v1 : v = k' + 1 / 2 := by linarith
    have v2 : v' = k' + 1 / 2 := by linarith
    rw [v1, e] at p1
    rw [v2] at p2
    rcases le_or_gt 0 k' with h0 | h0
    · have h0' : (0 : ℝ) ≤ k' := by exact_mod_cast h0
      rw [abs_of_nonneg (by linarith), abs_of_nonneg h0'] at p2
      linarith
    · have h0' : (k' : ℝ) + 1 ≤ 0 := by exact_mod_cast h0
      rw [abs_of_nonpos (by linarith), abs_of_nonpos h0'] at p1
      linarith

section generic
variable {w : Nat} {F : Fmt w}

theorem atMost_real {r r' : BitVec w} (h : IsFin F r) (h' : IsFin F r') (hv : F.toReal r ≤ F.toReal r') : AtMost F r r' :=
  ⟨F.isFinite_not_nan h, F.isFinite_not_nan h', by
    rw [F.toEReal_of_finite h, F.toEReal_of_finite h']; exact_mod_cast hv⟩

theorem Spec.AtMost.real {x x' : BitVec w} (h : AtMost F x x') (hx : IsFin F x) (hx' : IsFin F x') :
    F.toReal x ≤ F.toReal x' := by
  have := h.2.2
  rw [F.toEReal_of_finite hx, F.toEReal_of_finite hx'] at this
  exact_mod_cast this

theorem roundInt_rises (hF : F.Wide) (m : Fmt.Mode) {x x' : BitVec w} (hx : IsFin F x) (hx' : IsFin F x')
    (h : F.toReal x ≤ F.toReal x') : AtMost F (F.roundInt m x) (F.roundInt m x') := by
  have a := F.roundInt_value hF m hx
  have b := F.roundInt_value hF m hx'
  exact atMost_real a.1 b.1 (isRounded_mono a.2.2 b.2.2 h)

theorem roundInt_rises_num (hF : F.Wide) (m : Fmt.Mode) {x x' : BitVec w} (h : AtMost F x x') :
    AtMost F (F.roundInt m x) (F.roundInt m x') := by
  have inf : ∀ z : BitVec w, F.isNaN z = false → F.isInf z = true → F.roundInt m z = z := fun z hn hi => by
    unfold Fmt.roundInt; rw [hn, if_neg (by decide), if_pos hi]
  have num : ∀ z : BitVec w, Num F z → Num F (F.roundInt m z) := fun z hn => by
    rcases Fmt.num_cases hn with ⟨i, -⟩ | ⟨i, -⟩ | ⟨f, -⟩
    · rw [inf z hn i]; exact hn
    · rw [inf z hn i]; exact hn
    · exact F.isFinite_not_nan (F.roundInt_value hF m f).1
  refine ⟨num _ h.1, num _ h.2.1, ?_⟩
  rcases Fmt.num_cases h.1 with ⟨i, -, v⟩ | ⟨i, -, v⟩ | ⟨f, -, v⟩
  · rw [inf x h.1 i, v]; exact bot_le
  · have : F.toEReal x' = ⊤ := by have := h.2.2; rw [v] at this; exact top_le_iff.mp this
    have hi : F.isInf x' = true := by
      rcases Fmt.num_cases h.2.1 with ⟨i, -, u⟩ | ⟨i, -, u⟩ | ⟨-, -, u⟩
      · exact i
      · exact i
      · rw [u] at this; exact absurd this (EReal.coe_ne_top _)
    rw [inf x h.1 i, inf x' h.2.1 hi]; exact h.2.2
  · rcases Fmt.num_cases h.2.1 with ⟨i, -, v'⟩ | ⟨i, -, v'⟩ | ⟨f', -, v'⟩
    · have := h.2.2
      rw [v, v'] at this
      exact absurd (le_bot_iff.mp this) (EReal.coe_ne_bot _)
    · rw [inf x' h.2.1 i, v']; exact le_top
    · exact (roundInt_rises hF m f f' (h.real f f')).2.2

/-! ## Square roots -/

theorem isqrt_le {n n' : ℕ} (h : n ≤ n') : isqrt n ≤ isqrt n' := by
  obtain ⟨a, -⟩ := isqrt_spec n
  obtain ⟨-, b⟩ := isqrt_spec n'
  by_contra hc
  have : (isqrt n' + 1) * (isqrt n' + 1) ≤ isqrt n * isqrt n := Nat.mul_le_mul (by omega) (by omega)
  omega

theorem sqrt_digits_le {n n' : ℕ} (h : n ≤ n') :
    2 * isqrt n + (if isqrt n * isqrt n = n then 0 else 1) ≤ 2 * isqrt n' + (if isqrt n' * isqrt n' = n' then 0 else 1) := by
  have h1 := isqrt_le h
  rcases Nat.lt_or_eq_of_le h1 with h2 | h2
  · split <;> split <;> omega
  · obtain ⟨a, -⟩ := isqrt_spec n
    rw [h2] at a ⊢
    by_cases c : isqrt n' * isqrt n' = n'
    · have : isqrt n' * isqrt n' = n := by omega
      rw [if_pos c, if_pos this]
    · rw [if_neg c]; split <;> omega

/-- The square roots of magnitudes are ordered as the magnitudes. -/
theorem sqrt_code_le {x x' : BitVec w} (hx : IsFin F x) (hx' : IsFin F x') (hn : F.neg x = false) (hn' : F.neg x' = false)
    (h : F.code x ≤ F.code x') : F.code (F.sqrt x) ≤ F.code (F.sqrt x') := by
  have e : ∀ z : BitVec w, IsFin F z → F.neg z = false → F.code (F.sqrt z) =
      min F.infCode (rne F.mb (2 * isqrt (mag F.mb (F.code z) * 2 ^ F.scale) +
        (if isqrt (mag F.mb (F.code z) * 2 ^ F.scale) * isqrt (mag F.mb (F.code z) * 2 ^ F.scale) =
          mag F.mb (F.code z) * 2 ^ F.scale then 0 else 1)) 2) := by
    intro z hz hs
    unfold Fmt.sqrt
    rw [F.isFinite_not_nan hz, F.isFinite_not_inf hz, hs, if_neg (by decide)]
    by_cases h0 : F.isZero z = true
    · rw [if_pos h0]
      have hc : F.code z = 0 := by simpa [Fmt.isZero] using h0
      rw [hc, mag_zero, Nat.zero_mul]
      have : isqrt 0 = 0 := by
        obtain ⟨a, -⟩ := isqrt_spec 0
        exact mul_self_eq_zero.mp (Nat.le_zero.mp a)
      rw [this, if_pos rfl, rne_zero _ (by decide)]
      simp
    · rw [if_neg h0, if_neg (by decide), if_neg (by decide)]
      rw [F.packRnd_code]
  rw [e x hx hn, e x' hx' hn']
  exact min_le_min_left _ (rne_mono (mb := F.mb) (D := 2) (D' := 2) (by decide) (by decide)
    (Nat.mul_le_mul_right 2 (sqrt_digits_le (Nat.mul_le_mul_right (2 ^ F.scale) (mag_le_iff.mpr h)))))

/-- A function that keeps the sign and preserves the order of magnitudes. -/
theorem signed_rises {r r' x x' : BitVec w} (hx : Num F x) (hx' : Num F x') (hr : Num F r) (hr' : Num F r')
    (hn : F.neg r = F.neg x) (hn' : F.neg r' = F.neg x') (h0 : F.code x = 0 → F.code r = 0) (h0' : F.code x' = 0 → F.code r' = 0)
    (hu : F.code x ≤ F.code x' → F.code r ≤ F.code r') (hd : F.code x' ≤ F.code x → F.code r' ≤ F.code r)
    (h : F.toEReal x ≤ F.toEReal x') : AtMost F r r' := by
  refine ⟨hr, hr', ?_⟩
  rw [← F.key_le_iff_value hx hx'] at h
  rw [← F.key_le_iff_value hr hr']
  unfold Fmt.key at h ⊢
  rw [hn, hn']
  generalize F.neg x = s at h ⊢
  generalize F.neg x' = s' at h ⊢
  cases s <;> cases s'
  · simp only [Bool.false_eq_true, if_false] at h ⊢
    exact_mod_cast hu (by exact_mod_cast h)
  · simp only [Bool.false_eq_true, if_false, if_true] at h ⊢
    have a : F.code x = 0 := by omega
    have b : F.code x' = 0 := by omega
    rw [h0 a, h0' b]; simp
  · simp only [Bool.false_eq_true, if_false, if_true] at h ⊢
    omega
  · simp only [if_true] at h ⊢
    have := hd (by omega)
    omega

theorem sqrt_zero_code {x : BitVec w} (hx : F.code x = 0) : F.code (F.sqrt x) = 0 := by
  unfold Fmt.sqrt
  rw [if_neg (by simp [Fmt.isNaN, hx]), if_pos (by simp [Fmt.isZero, hx])]
  exact hx

theorem signedSqrt_rises {r r' x x' : BitVec w} (hx : IsFin F x) (hx' : IsFin F x') (hr : Num F r) (hr' : Num F r')
    (hn : F.neg r = F.neg x) (hn' : F.neg r' = F.neg x') (hf : F.fabs r = F.sqrt (F.fabs x))
    (hf' : F.fabs r' = F.sqrt (F.fabs x')) (h : F.toReal x ≤ F.toReal x') : AtMost F r r' := by
  have c : F.code r = F.code (F.sqrt (F.fabs x)) := by rw [← hf, F.code_fabs]
  have c' : F.code r' = F.code (F.sqrt (F.fabs x')) := by rw [← hf', F.code_fabs]
  have fx : IsFin F (F.fabs x) := by unfold IsFin; simpa using hx
  have fx' : IsFin F (F.fabs x') := by unfold IsFin; simpa using hx'
  refine signed_rises (F.isFinite_not_nan hx) (F.isFinite_not_nan hx') hr hr' hn hn' (fun h => ?_) (fun h => ?_) (fun h => ?_)
    (fun h => ?_) (by rw [F.toEReal_of_finite hx, F.toEReal_of_finite hx']; exact_mod_cast h)
  · rw [c]; exact sqrt_zero_code (by rw [F.code_fabs]; exact h)
  · rw [c']; exact sqrt_zero_code (by rw [F.code_fabs]; exact h)
  · rw [c, c']; exact sqrt_code_le fx fx' (F.neg_fabs x) (F.neg_fabs x') (by rw [F.code_fabs, F.code_fabs]; exact h)
  · rw [c, c']; exact sqrt_code_le fx' fx (F.neg_fabs x') (F.neg_fabs x) (by rw [F.code_fabs, F.code_fabs]; exact h)

/-- Small magnitudes replaced by zero. -/
theorem undenormalize_rises {T : ℕ} {z x x' : BitVec w} (hz : F.code z = 0) (hx : Num F x) (hx' : Num F x')
    (h : F.toEReal x ≤ F.toEReal x') :
    AtMost F (if F.code x < T then z else x) (if F.code x' < T then z else x') := by
  have nz : Num F z := by unfold Num; simp [Fmt.isNaN, hz]
  have kz : F.key z = 0 := F.key_eq_zero.mpr hz
  have num : ∀ {y}, Num F y → Num F (if F.code y < T then z else y) := fun {y} hy => by split <;> assumption
  refine ⟨num hx, num hx', ?_⟩
  rw [← F.key_le_iff_value (num hx) (num hx')]
  rw [← F.key_le_iff_value hx hx'] at h
  by_cases a : F.code x < T <;> by_cases b : F.code x' < T
  · rw [if_pos a, if_pos b]
  · rw [if_pos a, if_neg b, kz]
    unfold Fmt.key at h ⊢
    revert h
    cases F.neg x <;> cases F.neg x' <;> simp <;> omega
  · rw [if_neg a, if_pos b, kz]
    unfold Fmt.key at h ⊢
    revert h
    cases F.neg x <;> cases F.neg x' <;> simp <;> omega
  · rw [if_neg a, if_neg b]; exact h

/-! ## The softclip -/

/-- The constants 0.25 and 0.5. -/
structure SoftValues (F : Fmt w) : Prop where
  q : F.toReal (F.ofRat 0.25) = 0.25
  h : F.toReal (F.ofRat 0.5) = 0.5
  qf : F.isFinite (F.ofRat 0.25) = true
  hf : F.isFinite (F.ofRat 0.5) = true
  big : 2 ≤ F.scale
  mb : 1 ≤ F.mb

/-- One quarter can be subtracted exactly. -/
theorem quarter_representable (hs : 2 ≤ F.scale) (hm : 1 ≤ F.mb) {x : BitVec w} (hx : IsFin F x) (hl : 0.5 ≤ |F.toReal x|)
    (hu : |F.toReal x| ≤ 2 ^ (F.mb - 1)) : Representable F (|F.toReal x| - 0.25) := by
  have ab : |F.toReal x| = (mag F.mb (F.code x) : ℝ) / 2 ^ F.scale := by
    rw [F.toReal_eq, abs_mul, show |(if F.neg x = true then -1 else 1 : ℝ)| = 1 by cases F.neg x <;> simp, one_mul,
      abs_of_nonneg (by positivity)]
  have hp : (0 : ℝ) < 2 ^ F.scale := by positivity
  obtain ⟨S, hS⟩ : ∃ S, F.scale = S + 2 := ⟨F.scale - 2, by omega⟩
  have hc := F.finite_code hx
  have lo : 2 * 2 ^ S ≤ mag F.mb (F.code x) := by
    rw [ab, le_div_iff₀ hp, hS] at hl
    have : (2 * 2 ^ S : ℝ) ≤ mag F.mb (F.code x) := by rw [pow_add] at hl; linarith
    exact_mod_cast this
  have up : mag F.mb (F.code x) ≤ 2 ^ (F.mb - 1 + F.scale) := by
    rw [ab, div_le_iff₀ hp, ← pow_add] at hu
    exact_mod_cast hu
  have key : ∃ c, mag F.mb c = mag F.mb (F.code x) - 2 ^ S := by
    obtain ⟨s, m, e, h1, h2⟩ := code_decomp F.mb (F.code x)
    rw [e, mag_decomp F.mb h1.le h2] at lo up ⊢
    rcases Nat.lt_or_ge S s |>.symm with h | h
    · obtain ⟨c, hc⟩ := mag_exists (mb := F.mb) (m := m - 2 ^ (S - s)) s
        ((Nat.sub_le _ _).trans h1.le)
      refine ⟨c, ?_⟩
      rw [hc, Nat.sub_mul, ← pow_add, Nat.sub_add_cancel h]
    · have h3 : 2 ^ F.mb ≤ m := h2.resolve_left (by omega)
      have h4 : 2 ^ F.mb * 2 ^ s ≤ 2 ^ (F.mb - 1 + F.scale) := (Nat.mul_le_mul_right _ h3).trans up
      rw [← pow_add] at h4
      have h5 := (Nat.pow_le_pow_iff_right (a := 2) (by decide)).mp h4
      have h6 : s = S + 1 := by omega
      have h7 : m = 2 ^ F.mb := by
        refine le_antisymm ?_ h3
        have h8 : m * 2 ^ s ≤ 2 ^ F.mb * 2 ^ s := by
          rw [← pow_add]
          refine up.trans (Nat.pow_le_pow_right (by decide) (by omega))
        exact Nat.le_of_mul_le_mul_right h8 (Nat.two_pow_pos _)
      obtain ⟨c, hc⟩ := mag_exists (mb := F.mb) (m := 2 ^ (F.mb + 1) - 1) S (by omega)
      refine ⟨c, ?_⟩
      rw [hc, h7, h6, Nat.sub_mul, ← pow_add, ← pow_add, one_mul]
      congr 2; omega
  obtain ⟨c, hcm⟩ := key
  have hle : c ≤ F.code x := mag_le_iff.mp (by rw [hcm]; omega)
  refine ⟨F.pack false c, F.isFinite_pack _ (by omega), ?_⟩
  rw [F.toReal_pack _ (by omega), hcm, ab, Nat.cast_sub (by omega)]
  have h2 : (0 : ℝ) < 2 ^ S := by positivity
  rw [hS, pow_add]
  simp only [Bool.false_eq_true, if_false, one_mul]
  push_cast
  field_simp
  ring

theorem softclip_rounds (hk : SoftValues F) {x : BitVec w} (hx : IsFin F x) (hu : |F.toReal x| ≤ 2 ^ (F.mb - 1)) :
    F.IsRnd (realSoftclip (F.toReal x)) (Scalar.softclip F x) := by
  have hfa : IsFin F (F.fabs x) := by unfold IsFin; simpa using hx
  have hl : F.ltb (F.fabs x) (F.ofRat 0.5) = true ↔ |F.toReal x| < 0.5 := by
    rw [F.ltb_iff_value, F.toEReal_of_finite hfa, F.toEReal_of_finite hk.hf, hk.h, F.toReal_fabs]
    constructor
    · rintro ⟨-, -, h⟩; exact_mod_cast h
    · intro h; exact ⟨F.isFinite_not_nan hfa, F.isFinite_not_nan hk.hf, by exact_mod_cast h⟩
  unfold Scalar.softclip
  dsimp only
  by_cases h : |F.toReal x| < 0.5
  · rw [if_pos (hl.mpr h), realSoftclip_small h.le]
    exact Fmt.IsRnd.self hx
  · rw [if_neg (fun c => h (hl.mp c))]
    have h' : 0.5 ≤ |F.toReal x| := not_lt.mp h
    have hr := quarter_representable hk.big hk.mb hx h' hu
    have hq : IsFin F (F.negate (F.ofRat 0.25)) := by unfold IsFin; rw [F.isFinite_negate]; exact hk.qf
    have ex := add_exact hfa hq (by rw [F.toReal_fabs, F.toReal_negate, hk.q]; exact hr)
    rw [F.sub_num (F.isFinite_not_nan hfa) (F.isFinite_not_nan hk.qf)]
    have h0 : F.code x ≠ 0 := by
      intro hc
      rw [F.toReal_eq, hc, mag_zero] at h'
      norm_num at h'
    have := Fmt.div_rounds ex.1 hx h0
    rw [ex.2, F.toReal_fabs, F.toReal_negate, hk.q] at this
    have e : realSoftclip (F.toReal x) = (|F.toReal x| + -0.25) / F.toReal x := by
      unfold realSoftclip; rw [if_neg h]; rfl
    rw [e]; exact this

theorem softclip_rises (hk : SoftValues F) {x x' : BitVec w} (hx : IsFin F x) (hx' : IsFin F x')
    (hu : |F.toReal x| ≤ 2 ^ (F.mb - 1)) (hu' : |F.toReal x'| ≤ 2 ^ (F.mb - 1)) (h : F.toReal x ≤ F.toReal x') :
    AtMost F (Scalar.softclip F x) (Scalar.softclip F x') := by
  have a := softclip_rounds hk hx hu
  have b := softclip_rounds hk hx' hu'
  exact ⟨a.1, b.1, a.ereal.mono b.ereal (by exact_mod_cast realSoftclip_strictMono.monotone h)⟩

theorem reciprocal_rises {x x' : BitVec w} (h1 : F.isFinite (F.ofInt 1) = true) (hv : F.toReal (F.ofInt 1) = 1)
    (hx : IsFin F x) (hx' : IsFin F x') (h : F.toReal x' ≤ F.toReal x) (hs : 0 < F.toReal x' ∨ F.toReal x < 0) :
    AtMost F (F.div (F.ofInt 1) x) (F.div (F.ofInt 1) x') := by
  have nz : ∀ {y : BitVec w}, F.toReal y ≠ 0 → F.code y ≠ 0 := fun {y} hy hc => by
    rw [F.toReal_eq, hc, mag_zero] at hy
    simp at hy
  have z : F.toReal x ≠ 0 := by rcases hs with a | a <;> [exact (a.trans_le h).ne'; exact a.ne]
  have z' : F.toReal x' ≠ 0 := by rcases hs with a | a <;> [exact a.ne'; exact (h.trans_lt a).ne]
  have a := Fmt.div_rounds h1 hx (nz z)
  have b := Fmt.div_rounds h1 hx' (nz z')
  rw [hv] at a b
  refine ⟨a.1, b.1, a.ereal.mono b.ereal ?_⟩
  have : 1 / F.toReal x ≤ 1 / F.toReal x' := by
    rcases hs with c | c
    · exact one_div_le_one_div_of_le c h
    · exact one_div_le_one_div_of_neg_of_le c h
  exact_mod_cast this

theorem mul_ok {x y : BitVec w} (hx : Num F x) (hy : Num F y) (h : (IsFin F x ∧ IsFin F y) ∨ (F.code x ≠ 0 ∧ F.code y ≠ 0)) :
    Num F (F.mul x y) := by
  rcases h with ⟨a, b⟩ | ⟨a, b⟩
  · exact (Fmt.mul_rounds a b).1
  · unfold Num Fmt.mul
    rw [hx, hy, if_neg (by decide), show F.isZero x = false by simp [Fmt.isZero, a], show F.isZero y = false by simp [Fmt.isZero, b],
      Bool.or_self, if_neg (by decide : ¬ false = true)]
    split
    · exact (Fmt.IsRndE.inf (F := F) _).1
    · exact isNaN_packRnd F _ _ _

theorem fma_ok {x y : BitVec w} (hx : Num F x) (hy : Num F y) (h : (IsFin F x ∧ IsFin F y) ∨ (F.code x ≠ 0 ∧ F.code y ≠ 0)) :
    Num F (F.fma x y F.posZero) := by
  have fz : F.isFinite F.posZero = true := F.isFinite_pack _ F.infCode_pos
  by_cases hf : IsFin F x ∧ IsFin F y
  · exact (Fmt.fma_rounds hf.1 hf.2 fz).1
  · obtain ⟨a, b⟩ := h.resolve_left hf
    have hi : (F.isInf x || F.isInf y) = true := by
      by_contra hc
      rw [Bool.not_eq_true, Bool.or_eq_false_iff] at hc
      refine hf ⟨?_, ?_⟩
      · rcases Fmt.num_cases hx with ⟨i, -⟩ | ⟨i, -⟩ | ⟨f, -⟩
        · rw [hc.1] at i; exact absurd i (by decide)
        · rw [hc.1] at i; exact absurd i (by decide)
        · exact f
      · rcases Fmt.num_cases hy with ⟨i, -⟩ | ⟨i, -⟩ | ⟨f, -⟩
        · rw [hc.2] at i; exact absurd i (by decide)
        · rw [hc.2] at i; exact absurd i (by decide)
        · exact f
    unfold Num Fmt.fma
    rw [hx, hy, if_neg (by decide), F.isNaN_posZero, if_neg (by decide : ¬ false = true), if_pos hi,
      show F.isZero x = false by simp [Fmt.isZero, a], show F.isZero y = false by simp [Fmt.isZero, b],
      Bool.or_self, if_neg (by decide : ¬ false = true), F.isFinite_not_inf fz, Bool.false_and, if_neg (by decide : ¬ false = true)]
    exact (Fmt.IsRndE.inf (F := F) _).1

theorem fma_rises {x y z x' y' z' : BitVec w} (h : F.toEReal x * F.toEReal y ≤ F.toEReal x' * F.toEReal y')
    (hz : F.toEReal z ≤ F.toEReal z') : Rises F (F.fma x y z) (F.fma x' y' z') := fun a b =>
  (Fmt.fma_rndE a).2.2.mono (Fmt.fma_rndE b).2.2 (add_le_add h hz)

theorem mul_add_rises {x y z x' y' z' : BitVec w} (h : F.toEReal x * F.toEReal y ≤ F.toEReal x' * F.toEReal y')
    (hz : F.toEReal z ≤ F.toEReal z') : Rises F (F.add (F.mul x y) z) (F.add (F.mul x' y') z') := fun a b =>
  add_rises (mul_rises h (add_num a).1 (add_num b).1) hz a b

theorem fused_rises (f : Bool) {x y z x' y' z' : BitVec w} (h : F.toEReal x * F.toEReal y ≤ F.toEReal x' * F.toEReal y')
    (hz : F.toEReal z ≤ F.toEReal z') : Rises F (if f then F.fma x y z else F.add (F.mul x y) z)
      (if f then F.fma x' y' z' else F.add (F.mul x' y') z') := by
  cases f
  · exact mul_add_rises h hz
  · exact fma_rises h hz

end generic

/-! ## The classes -/

theorem fma_mul_rndE {x y : BitVec 32} (h : Num binary32 (binary32.fma x y binary32.posZero)) :
    Num binary32 x ∧ Num binary32 y ∧
    binary32.IsRndE (binary32.toEReal x * binary32.toEReal y) (binary32.fma x y binary32.posZero) := by
  obtain ⟨a, b, c⟩ := Fmt.fma_rndE h
  rw [binary32.toEReal_posZero, add_zero] at c
  exact ⟨a, b, c⟩

theorem lane_orderOps32 (b : Build32) (P : Platform 32) : OrderOps binary32 (b.lane P) where
  add := lane_add32 b P
  sub := lane_sub32' b P
  mul x y h := by
    by_cases hb : multiplies b = true
    · rw [lane_mul32' b hb] at h ⊢; exact Fmt.mul_rndE h
    · cases b <;> first | exact absurd rfl hb | skip
      rw [altivec_mul] at h ⊢
      exact (fma_mul_rndE h).2.2
  madd x y z x' y' z' h hz := by
    cases b with
    | generic => exact mul_add_rises h hz
    | sse s f => exact fused_rises f.fma h hz
    | avx f => exact fused_rises f h hz
    | neon =>
      intro a c
      exact add_rises hz (mul_rises (by rw [mul_comm, mul_comm (binary32.toEReal y')]; exact h) (add_num a).2 (add_num c).2) a c
    | altivec => exact fma_rises h hz
  one := (lane_one32 b P).trans one32.symm
  zero := lane_zero32' b P
  max := isMax_lane32 b P
  min := isMin_lane32 b P
  square x := by cases b <;> rfl
  cube x := by
    cases b with
    | generic => exact .inr rfl
    | avx f => exact .inr rfl
    | _ => exact .inl rfl
  mul_num x y h := by
    by_cases hb : multiplies b = true
    · rw [lane_mul32' b hb] at h; exact Fmt.mul_num h
    · cases b <;> first | exact absurd rfl hb | skip
      rw [altivec_mul] at h
      exact ⟨(fma_mul_rndE h).1, (fma_mul_rndE h).2.1⟩
  mul_ok x y hx hy h := by
    by_cases hb : multiplies b = true
    · rw [lane_mul32' b hb]; exact mul_ok hx hy h
    · cases b <;> first | exact absurd rfl hb | skip
      rw [altivec_mul]
      exact fma_ok hx hy h

theorem lane_orderOps64 (b : Build64) (P : Platform 64) : OrderOps binary64 (b.lane P) where
  add := (lane_math64 b P).add
  sub := (lane_math64 b P).sub
  mul x y h := by rw [(lane_math64 b P).mul] at h ⊢; exact Fmt.mul_rndE (F := binary64) h
  madd x y z x' y' z' h hz := by
    cases b with
    | generic => exact mul_add_rises h hz
    | sse2 s f => exact fused_rises f h hz
    | avx f => exact fused_rises f h hz
  one := (lane_one64' b P).trans one64.symm
  zero := lane_zero64 b P
  max := isMax_lane64 b P
  min := isMin_lane64 b P
  square x := by rw [(lane_math64 b P).square, (lane_math64 b P).mul]; rfl
  cube x := by
    cases b with
    | generic => exact .inr rfl
    | _ => exact .inl rfl
  mul_num x y h := by rw [(lane_math64 b P).mul] at h; exact Fmt.mul_num (F := binary64) h
  mul_ok x y hx hy h := by rw [(lane_math64 b P).mul]; exact mul_ok (F := binary64) hx hy h

theorem soft32 : SoftValues binary32 where
  q := by
    rw [quarter32, binary32.toReal_eq, show binary32.neg 0x3e800000#32 = false by decide +kernel,
      show mag binary32.mb (binary32.code 0x3e800000#32) = 2 ^ 147 by decide +kernel, show binary32.scale = 149 by decide]
    norm_num
  h := by
    rw [half32, binary32.toReal_eq, show binary32.neg 0x3f000000#32 = false by decide +kernel,
      show mag binary32.mb (binary32.code 0x3f000000#32) = 2 ^ 148 by decide +kernel, show binary32.scale = 149 by decide]
    norm_num
  qf := by decide +kernel
  hf := by decide +kernel
  big := by decide
  mb := by decide

theorem soft64 : SoftValues binary64 where
  q := by
    rw [show binary64.ofRat 0.25 = 0x3fd0000000000000#64 by decide +kernel, binary64.toReal_eq,
      show binary64.neg 0x3fd0000000000000#64 = false by decide +kernel,
      show mag binary64.mb (binary64.code 0x3fd0000000000000#64) = 2 ^ 1072 by decide +kernel, show binary64.scale = 1072 + 2 by decide, Nat.cast_pow, Nat.cast_ofNat, pow_add]
    have h : (0 : ℝ) < 2 ^ 1072 := by positivity
    generalize (2 : ℝ) ^ 1072 = T at *
    simp only [Bool.false_eq_true, if_false]
    field_simp
    norm_num
  h := by
    rw [show binary64.ofRat 0.5 = 0x3fe0000000000000#64 by decide +kernel, binary64.toReal_eq,
      show binary64.neg 0x3fe0000000000000#64 = false by decide +kernel,
      show mag binary64.mb (binary64.code 0x3fe0000000000000#64) = 2 ^ 1073 by decide +kernel, show binary64.scale = 1073 + 1 by decide, Nat.cast_pow, Nat.cast_ofNat, pow_add]
    have h : (0 : ℝ) < 2 ^ 1073 := by positivity
    generalize (2 : ℝ) ^ 1073 = T at *
    simp only [Bool.false_eq_true, if_false]
    field_simp
    norm_num
  qf := by decide +kernel
  hf := by decide +kernel
  big := by decide
  mb := by decide

end Nova
