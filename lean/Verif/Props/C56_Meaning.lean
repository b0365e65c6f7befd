import Verif.Lemmas.Meaning

/-!
# C56: every public function computes what its name says, and C49: the unit conversions

`Verif/SpecOps.lean` says, without reference to the implementation, what each public function means
over the real numbers.  Here: with real arithmetic underneath, the function behind each public name
satisfies its meaning, for every input of its domain.  `C56_Calls.lean` carries this over to the calls.
-/

namespace Nova
open Spec

/-! ## The functions -/

theorem C56_unary {A : Arith ℝ} (h : A.Real) (op : UnOp) (x : ℝ) (hx : UnDomain op x) :
    ∃ y, op.f A x = .ok y ∧ UnMeans op x y := by
  cases op with
  | abs => exact ⟨_, rfl, h.abs x⟩
  | sgn => exact ⟨_, rfl, h.sign x⟩
  | square => exact ⟨_, rfl, (h.square x).trans (by ring)⟩
  | cube => exact ⟨_, rfl, (h.cube x).trans (by ring)⟩
  | round => exact ⟨_, rfl, h.round x⟩
  | frac => exact ⟨_, rfl, h.frac x⟩
  | ceil => exact ⟨_, rfl, h.ceil x⟩
  | floor => exact ⟨_, rfl, h.floor x⟩
  | trunc => exact ⟨_, h.trunc x hx, rfl⟩
  | undenormalize => exact ⟨_, rfl, h.undenormalize x⟩
  | reciprocal =>
    refine ⟨_, rfl, ?_⟩
    change x * A.reciprocal x = 1
    rw [h.reciprocal x hx]
    exact mul_one_div_cancel hx
  | sin => exact ⟨_, rfl, h.sin x⟩
  | cos => exact ⟨_, rfl, h.cos x⟩
  | tan =>
    refine ⟨_, rfl, ?_⟩
    change A.tan x * _ = _
    rw [h.tan x hx, Real.tan_mul_cos hx]
  | asin =>
    refine ⟨_, rfl, ?_⟩
    have hx' := abs_le.mp hx
    change _root_.Real.sin (A.asin x) = x ∧ _ ≤ A.asin x ∧ A.asin x ≤ _
    rw [h.asin x hx]
    exact ⟨Real.sin_arcsin hx'.1 hx'.2, Real.neg_pi_div_two_le_arcsin x, Real.arcsin_le_pi_div_two x⟩
  | acos =>
    refine ⟨_, rfl, ?_⟩
    have hx' := abs_le.mp hx
    change _root_.Real.cos (A.acos x) = x ∧ _ ≤ A.acos x ∧ A.acos x ≤ _
    rw [h.acos x hx]
    exact ⟨Real.cos_arccos hx'.1 hx'.2, Real.arccos_nonneg x, Real.arccos_le_pi x⟩
  | atan =>
    refine ⟨_, rfl, ?_⟩
    change _root_.Real.tan (A.atan x) = x ∧ _ < A.atan x ∧ A.atan x < _
    rw [h.atan x]
    exact ⟨Real.tan_arctan x, Real.neg_pi_div_two_lt_arctan x, Real.arctan_lt_pi_div_two x⟩
  | tanh => exact ⟨_, rfl, h.tanh x⟩
  | log =>
    refine ⟨_, rfl, ?_⟩
    change _root_.Real.exp (A.log x) = x
    rw [h.log x hx, Real.exp_log hx]
  | log2 =>
    refine ⟨_, rfl, ?_⟩
    change (2 : ℝ) ^ (A.log2 x) = x
    rw [h.log2 x hx, Meaning.two_rpow_logb hx]
  | log10 =>
    refine ⟨_, rfl, ?_⟩
    change (10 : ℝ) ^ (A.log10 x) = x
    rw [h.log10 x hx, Meaning.ten_rpow_logb hx]
  | exp => exact ⟨_, rfl, h.exp x⟩
  | signedSqrt =>
    refine ⟨_, rfl, ?_⟩
    change A.signedSqrt x * |A.signedSqrt x| = x
    rw [h.signedSqrt, Meaning.sgn_sqrt]
  | midi2freq =>
    refine ⟨_, rfl, ?_⟩
    simp only [Functor.midi2freq, UnMeans, h.mul, h.lit, h.sub]
    rw [h.pow _ _ (by norm_num)]
    refine ⟨by positivity, ?_⟩
    have e : ((440 : ℚ) : ℝ) * ((2 : ℚ) : ℝ) ^ ((x - ((69 : ℚ) : ℝ)) * ((0.083333333333 : ℚ) : ℝ)) / 440
        = (2 : ℝ) ^ ((x - 69) * 0.083333333333) := by
      norm_num
    rw [e, Meaning.logb_two_rpow]
    have : 12 * ((x - 69) * 0.083333333333) - (x - 69) = (x - 69) * (-0.000000000004) := by ring
    rw [this, abs_mul]
    exact mul_le_mul_of_nonneg_left (by norm_num) (abs_nonneg _)
  | freq2midi =>
    refine ⟨_, rfl, ?_⟩
    simp only [Functor.freq2midi, Functor.absLog2, UnMeans, h.mul, h.lit, h.add, h.abs]
    have hx' : x ≠ 0 := hx
    rw [h.log2 _ (abs_pos.mpr (mul_ne_zero hx (by norm_num)))]
    have hb := Meaning.logb_literal x hx
    generalize Real.logb 2 |x * ((0.0022727272727 : ℚ) : ℝ)| = u at hb ⊢
    generalize Real.logb 2 (|x| / 440) = v at hb ⊢
    have e : u * ((12 : ℚ) : ℝ) + ((69 : ℚ) : ℝ) - (69 + 12 * v) = 12 * (u - v) := by
      push_cast; ring
    rw [e, abs_mul]
    norm_num at hb ⊢
    linarith
  | midi2ratio =>
    refine ⟨_, rfl, ?_⟩
    simp only [Functor.midi2ratio, UnMeans, h.mul, h.lit]
    rw [h.pow _ _ (by norm_num)]
    refine ⟨by positivity, ?_⟩
    have e : ((2 : ℚ) : ℝ) ^ (x * ((0.083333333333 : ℚ) : ℝ)) = (2 : ℝ) ^ (x * 0.083333333333) := by
      norm_num
    rw [e, Meaning.logb_two_rpow]
    have : 12 * (x * 0.083333333333) - x = x * (-0.000000000004) := by ring
    rw [this, abs_mul]
    exact mul_le_mul_of_nonneg_left (by norm_num) (abs_nonneg _)
  | ratio2midi =>
    refine ⟨_, rfl, ?_⟩
    simp only [Functor.ratio2midi, UnMeans, h.mul, h.lit]
    rw [h.log2 _ hx]
    have : ((12 : ℚ) : ℝ) * Real.logb 2 x / 12 = Real.logb 2 x := by push_cast; ring
    rw [this, Meaning.two_rpow_logb hx]
  | oct2freq =>
    refine ⟨_, rfl, ?_⟩
    simp only [Functor.oct2freq, UnMeans, h.mul, h.lit, h.sub]
    rw [h.pow _ _ (by norm_num)]
    refine ⟨by positivity, ?_⟩
    have e : ((440 : ℚ) : ℝ) * ((2 : ℚ) : ℝ) ^ (x - ((4.75 : ℚ) : ℝ)) / 440
        = (2 : ℝ) ^ (x - 4.75) := by
      norm_num
    rw [e, Meaning.logb_two_rpow]
    ring
  | freq2oct =>
    refine ⟨_, rfl, ?_⟩
    simp only [Functor.freq2oct, Functor.absLog2, UnMeans, h.mul, h.lit, h.add, h.abs]
    have hx' : x ≠ 0 := hx
    rw [h.log2 _ (abs_pos.mpr (mul_ne_zero hx (by norm_num)))]
    have hb := Meaning.logb_literal x hx
    generalize Real.logb 2 |x * ((0.0022727272727 : ℚ) : ℝ)| = u at hb ⊢
    generalize Real.logb 2 (|x| / 440) = v at hb ⊢
    have e : u + ((4.75 : ℚ) : ℝ) - (4.75 + v) = u - v := by
      norm_num; ring
    rw [e]
    norm_num at hb ⊢
    linarith
  | amp2db =>
    refine ⟨_, rfl, ?_⟩
    simp only [Functor.amp2db, UnMeans, h.mul, h.lit, h.abs]
    have hx' : 0 < |x| := abs_pos.mpr hx
    rw [h.log10 _ hx']
    have : Real.logb 10 |x| * ((20 : ℚ) : ℝ) / 20 = Real.logb 10 |x| := by push_cast; ring
    rw [this, Meaning.ten_rpow_logb hx']
  | db2amp =>
    refine ⟨_, rfl, ?_⟩
    simp only [Functor.db2amp, UnMeans, h.mul, h.lit]
    rw [h.pow _ _ (by norm_num)]
    refine ⟨by positivity, ?_⟩
    have e : ((10 : ℚ) : ℝ) ^ (x * ((0.05 : ℚ) : ℝ)) = (10 : ℝ) ^ (x * 0.05) := by norm_num
    rw [e, Meaning.logb_ten_rpow]
    ring
  | softclip => exact ⟨_, rfl, (h.softclip x).trans (Meaning.softclip_eq x)⟩

theorem C56_binary {A : Arith ℝ} (h : A.Real) (op : BinOp) (x y : ℝ) (hx : BinDomain op x y) :
    BinMeans op x y (op.f A x y) := by
  cases op <;> simp only [BinOp.f, BinMeans, BinDomain] at hx ⊢
  case plus => exact h.add x y
  case minus => exact h.sub x y
  case times => exact h.mul x y
  case over => rw [h.div x y hx, div_mul_cancel₀ x hx]
  case min =>
    rw [h.min_]
    exact ⟨(min_choice x y), min_le_left x y, min_le_right x y⟩
  case max =>
    rw [h.max_]
    exact ⟨(max_choice x y), le_max_left x y, le_max_right x y⟩
  case less => split_ifs with hc <;> [exact h.lt x y hc; exact h.lt' x y hc]
  case lessEqual => split_ifs with hc <;> [exact h.le x y hc; exact h.le' x y hc]
  case greater => split_ifs with hc <;> [exact h.gt x y hc; exact h.gt' x y hc]
  case greaterEqual => split_ifs with hc <;> [exact h.ge x y hc; exact h.ge' x y hc]
  case equal =>
    split_ifs with hc
    · subst hc; exact h.eq x
    · exact h.eq' x y hc
  case notequal =>
    split_ifs with hc
    · subst hc; exact h.ne x
    · exact h.ne' x y hc
  case clip2 =>
    simp only [Functor.clip2, h.max_, h.min_, h.sub, h.zero, zero_sub]
    refine ⟨le_max_left _ _, max_le (by linarith) (min_le_right _ _), fun hxy => ?_, fun hxy => ?_,
      fun hxy => ?_⟩
    · have := abs_le.mp hxy
      rw [min_eq_left this.2, max_eq_right this.1]
    · rw [min_eq_right hxy.le, max_eq_right (by linarith)]
    · rw [min_eq_left (by linarith), max_eq_left hxy.le]
  case pow => exact h.pow x y hx
  case spow => exact h.signedPow x y hx
  case sum => exact h.add x y

theorem C56_ternary {A : Arith ℝ} (h : A.Real) (op : TerOp) (x y z : ℝ) (hx : TerDomain op x y z) :
    TerMeans op x y z (op.f A x y z) := by
  cases op <;> simp only [TerOp.f, TerMeans, TerDomain] at hx ⊢
  case clip =>
    simp only [Functor.clip, h.max_, h.min_]
    refine ⟨le_max_right _ _, max_le (min_le_right _ _) hx, fun h1 h2 => ?_, fun h1 => ?_,
      fun h1 => ?_⟩
    · rw [min_eq_left h2, max_eq_left h1]
    · rw [min_eq_left (by linarith), max_eq_right h1.le]
    · rw [min_eq_right h1.le, max_eq_left hx]
  case muladd => exact h.madd x y z
  case ampmod => simp only [Functor.ampmod, h.mul, h.add, h.one]
  case sum => simp only [Functor.sum3, h.add]

theorem C56_quad {A : Arith ℝ} (h : A.Real) (op : QuadOp) (a b c d : ℝ) :
    QuadMeans op a b c d (op.f A a b c d) := by
  cases op <;> simp only [QuadOp.f, QuadMeans, Functor.mix2, Functor.sum4, h.add, h.mul]
  ring

/-! ## C49: round trips -/

/-- `midi2freq` then `freq2midi` returns the note up to a small absolute and relative error. -/
theorem C49_midi_freq_midi {A : Arith ℝ} (h : A.Real) (x : ℝ) :
    ∃ f y, UnOp.midi2freq.f A x = .ok f ∧ UnOp.freq2midi.f A f = .ok y ∧
      |y - x| ≤ |x - 69| * 10 ^ (-11 : ℤ) + 10 ^ (-9 : ℤ) := by
  obtain ⟨f, hf, hf0, hfb⟩ := C56_unary h .midi2freq x trivial
  obtain ⟨y, hy, hyb⟩ := C56_unary h .freq2midi f hf0.ne'
  refine ⟨f, y, hf, hy, ?_⟩
  simp only [UnMeans] at hyb
  rw [abs_of_pos hf0] at hyb
  generalize Real.logb 2 (f / 440) = u at hfb hyb
  have e : y - x = (y - (69 + 12 * u)) + (12 * u - (x - 69)) := by ring
  rw [e]
  exact (abs_add_le _ _).trans (by linarith)

/-- `freq2midi` then `midi2freq` returns `|f|` up to a small error in semitones. -/
theorem C49_freq_midi_freq {A : Arith ℝ} (h : A.Real) (f : ℝ) (hf : f ≠ 0) :
    ∃ x g, UnOp.freq2midi.f A f = .ok x ∧ UnOp.midi2freq.f A x = .ok g ∧ 0 < g ∧
      |12 * Real.logb 2 (g / |f|)| ≤ |x - 69| * 10 ^ (-11 : ℤ) + 10 ^ (-9 : ℤ) := by
  obtain ⟨x, hx, hxb⟩ := C56_unary h .freq2midi f hf
  obtain ⟨g, hg, hg0, hgb⟩ := C56_unary h .midi2freq x trivial
  refine ⟨x, g, hx, hg, hg0, ?_⟩
  simp only [UnMeans] at hxb
  have hf' : 0 < |f| := abs_pos.mpr hf
  rw [Real.logb_div (by positivity) (by norm_num)] at hxb hgb
  rw [Real.logb_div (by positivity) (by positivity)]
  generalize Real.logb 2 g = u at *
  generalize Real.logb 2 |f| = v at *
  generalize Real.logb 2 440 = w at *
  have e : 12 * (u - v) = (12 * (u - w) - (x - 69)) + (x - (69 + 12 * (v - w))) := by ring
  rw [e]
  exact (abs_add_le _ _).trans (by linarith)

/-- `midi2ratio` then `ratio2midi`. -/
theorem C49_midi_ratio_midi {A : Arith ℝ} (h : A.Real) (x : ℝ) :
    ∃ r y, UnOp.midi2ratio.f A x = .ok r ∧ UnOp.ratio2midi.f A r = .ok y ∧
      |y - x| ≤ |x| * 10 ^ (-11 : ℤ) := by
  obtain ⟨r, hr, hr0, hrb⟩ := C56_unary h .midi2ratio x trivial
  obtain ⟨y, hy, hyb⟩ := C56_unary h .ratio2midi r hr0
  refine ⟨r, y, hr, hy, ?_⟩
  simp only [UnMeans] at hyb
  rw [← hyb, Meaning.logb_two_rpow] at hrb
  have e : 12 * (y / 12) - x = y - x := by ring
  rwa [e] at hrb

/-- `ratio2midi` then `midi2ratio`. -/
theorem C49_ratio_midi_ratio {A : Arith ℝ} (h : A.Real) (r : ℝ) (hr : 0 < r) :
    ∃ x s, UnOp.ratio2midi.f A r = .ok x ∧ UnOp.midi2ratio.f A x = .ok s ∧ 0 < s ∧
      |12 * Real.logb 2 (s / r)| ≤ |x| * 10 ^ (-11 : ℤ) := by
  obtain ⟨x, hx, hxb⟩ := C56_unary h .ratio2midi r hr
  obtain ⟨s, hs, hs0, hsb⟩ := C56_unary h .midi2ratio x trivial
  refine ⟨x, s, hx, hs, hs0, ?_⟩
  simp only [UnMeans] at hxb
  rw [Real.logb_div hs0.ne' hr.ne', ← hxb, Meaning.logb_two_rpow]
  have e : 12 * (Real.logb 2 s - x / 12) = 12 * Real.logb 2 s - x := by ring
  rwa [e]

/-- `oct2freq` then `freq2oct`. -/
theorem C49_oct_freq_oct {A : Arith ℝ} (h : A.Real) (x : ℝ) :
    ∃ f y, UnOp.oct2freq.f A x = .ok f ∧ UnOp.freq2oct.f A f = .ok y ∧
      |y - x| ≤ 10 ^ (-10 : ℤ) := by
  obtain ⟨f, hf, hf0, hfb⟩ := C56_unary h .oct2freq x trivial
  obtain ⟨y, hy, hyb⟩ := C56_unary h .freq2oct f hf0.ne'
  refine ⟨f, y, hf, hy, ?_⟩
  simp only [UnMeans] at hyb
  rw [abs_of_pos hf0] at hyb
  rw [← hfb]
  generalize Real.logb 2 (f / 440) = u at *
  rwa [add_comm 4.75 u] at hyb

/-- `freq2oct` then `oct2freq`. -/
theorem C49_freq_oct_freq {A : Arith ℝ} (h : A.Real) (f : ℝ) (hf : f ≠ 0) :
    ∃ x g, UnOp.freq2oct.f A f = .ok x ∧ UnOp.oct2freq.f A x = .ok g ∧ 0 < g ∧
      |Real.logb 2 (g / |f|)| ≤ 10 ^ (-10 : ℤ) := by
  obtain ⟨x, hx, hxb⟩ := C56_unary h .freq2oct f hf
  obtain ⟨g, hg, hg0, hgb⟩ := C56_unary h .oct2freq x trivial
  refine ⟨x, g, hx, hg, hg0, ?_⟩
  simp only [UnMeans] at hxb
  have hf' : 0 < |f| := abs_pos.mpr hf
  rw [Real.logb_div (by positivity) (by norm_num)] at hxb hgb
  rw [Real.logb_div (by positivity) (by positivity)]
  generalize Real.logb 2 g = u at *
  generalize Real.logb 2 |f| = v at *
  generalize Real.logb 2 440 = w at *
  have e : u - v = x - (4.75 + (v - w)) := by linarith
  rwa [e]

/-- `db2amp` then `amp2db` is exact in real arithmetic. -/
theorem C49_db_amp_db {A : Arith ℝ} (h : A.Real) (x : ℝ) :
    ∃ a, UnOp.db2amp.f A x = .ok a ∧ UnOp.amp2db.f A a = .ok x := by
  obtain ⟨a, ha, ha0, hab⟩ := C56_unary h .db2amp x trivial
  obtain ⟨y, hy, hyb⟩ := C56_unary h .amp2db a ha0.ne'
  refine ⟨a, ha, ?_⟩
  rw [hy]
  simp only [UnMeans] at hyb
  rw [abs_of_pos ha0] at hyb
  rw [← hyb, Meaning.logb_ten_rpow] at hab
  rw [← hab]
  congr 1
  ring

/-- `amp2db` then `db2amp` returns `|a|`. -/
theorem C49_amp_db_amp {A : Arith ℝ} (h : A.Real) (a : ℝ) (ha : a ≠ 0) :
    ∃ x, UnOp.amp2db.f A a = .ok x ∧ UnOp.db2amp.f A x = .ok |a| := by
  obtain ⟨x, hx, hxb⟩ := C56_unary h .amp2db a ha
  obtain ⟨b, hb, hb0, hbb⟩ := C56_unary h .db2amp x trivial
  refine ⟨x, hx, ?_⟩
  rw [hb]
  simp only [UnMeans] at hxb
  rw [← hxb, ← hbb]
  have : 20 * Real.logb 10 b / 20 = Real.logb 10 b := by ring
  rw [this, Meaning.ten_rpow_logb hb0]

/-! ## The hypotheses are satisfiable -/
section examples

/-- Real arithmetic exists, so `C56_*` and `C49_*` speak about something: note 57 (an octave below A440)
and back. -/
example : ∃ f y, UnOp.midi2freq.f realArith 57 = .ok f ∧ UnOp.freq2midi.f realArith f = .ok y ∧
    |y - 57| ≤ |(57 : ℝ) - 69| * 10 ^ (-11 : ℤ) + 10 ^ (-9 : ℤ) :=
  C49_midi_freq_midi realArith_real 57

end examples

end Nova
