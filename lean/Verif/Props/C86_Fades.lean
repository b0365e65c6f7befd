import Verif.Lemmas.Fades
import Verif.Props.C79_Sums

/-!
# C86 fades and crossfades of actual floats and doubles

`times_vec(out, in, slope_argument(gain, slope), n)`, `mix_vec` with two ramped gains and `pan2_vec` with slopes, in the
scalar and the SIMD versions and every build: element `i` is the exact faded signal up to an explicit error.

`d` is the number of roundings: `i + 1` in the scalar versions (the gain accumulates), only `size + i/size + 1` in the SIMD
versions.  Ramp arguments of `double` have the additional error of C14; `pan2_vec_simd` has not, since it does not use ramp
arguments.
-/

namespace Nova
open FP Spec

variable {w : Nat} {F : Fmt w}

/-! ## Weaker hypotheses -/

theorem RampOk.mono {d d' i : ℕ} {B s e e' : ℝ} (h : RampOk F d' B s i e') (hd : d ≤ d') (he : e ≤ e') (he' : 0 ≤ e') :
    RampOk F d B s i e := by
  unfold RampOk at h ⊢
  refine le_trans ?_ h
  refine le_trans (b := (1 + F.u) ^ d * (|B| + i * |s| + e')) ?_
    (mul_le_mul_of_nonneg_right (Acc.pow_mono F hd) (by positivity))
  exact mul_le_mul_of_nonneg_left (by linarith) (zero_le_one.trans (Acc.one_le F _))

theorem FadeOk.mono {d d' i : ℕ} {x B s e e' : ℝ} (h : FadeOk F d' x B s i e') (hd : d ≤ d') (he : e ≤ e') (he' : 0 ≤ e') :
    FadeOk F d x B s i e := by
  refine ⟨RampOk.mono h.1 hd he he', ?_⟩
  refine le_trans ?_ h.2
  refine le_trans (b := (1 + F.u) ^ d * (|x| * (|B| + i * |s| + e'))) ?_
    (mul_le_mul_of_nonneg_right (Acc.pow_mono F hd) (by positivity))
  refine mul_le_mul_of_nonneg_left (mul_le_mul_of_nonneg_left (by linarith) (abs_nonneg x))
    (zero_le_one.trans (Acc.one_le F _))

theorem CrossfadeOk.mono {d d' i : ℕ} {x B s e f x' B' s' e' f' : ℝ} (h : CrossfadeOk F d' x B s x' B' s' i f f')
    (hd : d ≤ d') (he : e ≤ f) (he' : e' ≤ f') (hf : 0 ≤ f) (hf' : 0 ≤ f') : CrossfadeOk F d x B s x' B' s' i e e' := by
  have eta := F.eta_pos
  refine ⟨RampOk.mono h.1 hd he hf, RampOk.mono h.2.1 hd he' hf', ?_⟩
  refine le_trans ?_ h.2.2
  refine le_trans (b := (1 + F.u) ^ d * (|x| * (|B| + i * |s| + f) + |x'| * (|B'| + i * |s'| + f') + 2 * F.eta)) ?_
    (mul_le_mul_of_nonneg_right (Acc.pow_mono F hd) (by positivity))
  have h1 := mul_le_mul_of_nonneg_left (show |B| + i * |s| + e ≤ |B| + i * |s| + f by linarith) (abs_nonneg x)
  have h2 := mul_le_mul_of_nonneg_left (show |B'| + i * |s'| + e' ≤ |B'| + i * |s'| + f' by linarith) (abs_nonneg x')
  exact mul_le_mul_of_nonneg_left (by linarith) (zero_le_one.trans (Acc.one_le F _))

/-! ## `times_vec` with a ramp -/

/-- A fade of `float`s. -/
theorem C86_fade_float (b : Build32) (P : Platform 32) {m : Mem (BitVec 32)} {out : Nat}
    {a : SArg (BitVec 32)} {n : BitVec 32} {x : ℕ → BitVec 32} {gain slope : BitVec 32} (hn : 0 < n.toNat)
    (hmul : b.target.perLine ∣ n.toNat) (hoal : b.target.align ∣ out) (hout : Allocated m out n.toNat)
    (ha : SimdSupplies (b.vec P) b.target.align m out n.toNat a x)
    (ga : ScalarSupplies (b.env P).S m out n.toNat a x) (hg : IsFin binary32 gain) (hs : IsFin binary32 slope)
    (hx : ∀ i < n.toNat, IsFin binary32 (x i))
    (hr : ∀ i < n.toNat, FadeOk binary32 (b.target.size + i + 1) (binary32.toReal (x i)) (binary32.toReal gain)
      (binary32.toReal slope) i 0) :
    ∃ y z : ℕ → BitVec 32,
      BinOp.times.vecSimd (b.vec P) out a (.ramp gain slope) n m = .ok ((), overwrite m out n.toNat y) ∧
      BinOp.times.vec (b.env P).S out a (.ramp gain slope) n m = .ok ((), overwrite m out n.toNat z) ∧
      ∀ i < n.toNat,
        IsFade binary32 (b.target.size + i / b.target.size + 1) (binary32.toReal (x i)) (binary32.toReal gain)
          (binary32.toReal slope) i 0 (y i) ∧
        IsFade binary32 (i + 1) (binary32.toReal (x i)) (binary32.toReal gain) (binary32.toReal slope) i 0 (z i) := by
  refine ⟨_, _, C02_binary_simd b.target (b.env P) .times hn hmul hoal hout ha fun i _ => rfl,
    C02_binary_scalar (b.env P).S .times hn hout ga fun i _ => rfl, fun i hi => ?_⟩
  have hdiv := Nat.div_le_self i b.target.size
  have h1 := FadeOk.mono (d := b.target.size + i / b.target.size + 1) (hr i hi) (by omega) le_rfl le_rfl
  have h2 := FadeOk.mono (d := i + 1) (hr i hi) (by omega) le_rfl le_rfl
  have r1 := C79_ramp_simd_float b P hg hs i (FadeOk.ramp le_rfl h1 (Nat.le_succ _))
  have r2 := C79_ramp_float b P hg hs i (FadeOk.ramp le_rfl h2 (Nat.le_succ _))
  exact ⟨isFade_of le_rfl r1 h1 ((b.prodNear P).L _ _ (hx i hi) r1.1),
    isFade_of le_rfl r2 h2 ((b.prodNear P).S _ _ (hx i hi) r2.1)⟩

/-- A fade of `double`s. -/
theorem C86_fade_double (b : Build64) (P : Platform 64) {m : Mem (BitVec 64)} {out : Nat}
    {a : SArg (BitVec 64)} {n : BitVec 32} {x : ℕ → BitVec 64} {gain slope : BitVec 64} (hn : 0 < n.toNat)
    (hmul : b.target.perLine ∣ n.toNat) (hoal : b.target.align ∣ out) (hout : Allocated m out n.toNat)
    (ha : SimdSupplies (b.vec P) b.target.align m out n.toNat a x)
    (ga : ScalarSupplies (b.env P).S m out n.toNat a x) (hg : IsFin binary64 gain) (hs : IsFin binary64 slope)
    (hsl : b.target.size * |binary64.toReal slope| ≤ 2 ^ 126) (hx : ∀ i < n.toNat, IsFin binary64 (x i))
    (hr : ∀ i < n.toNat, FadeOk binary64 (b.target.size + i + 1) (binary64.toReal (x i)) (binary64.toReal gain)
      (binary64.toReal slope) i ((i / b.target.size : ℕ) * floatStepError b.target.size (binary64.toReal slope))) :
    ∃ y z : ℕ → BitVec 64,
      BinOp.times.vecSimd (b.vec P) out a (.ramp gain slope) n m = .ok ((), overwrite m out n.toNat y) ∧
      BinOp.times.vec (b.env P).S out a (.ramp gain slope) n m = .ok ((), overwrite m out n.toNat z) ∧
      ∀ i < n.toNat,
        IsFade binary64 (b.target.size + i / b.target.size + 1) (binary64.toReal (x i)) (binary64.toReal gain)
          (binary64.toReal slope) i ((i / b.target.size : ℕ) * floatStepError b.target.size (binary64.toReal slope))
          (y i) ∧
        IsFade binary64 (i + 1) (binary64.toReal (x i)) (binary64.toReal gain) (binary64.toReal slope) i 0 (z i) := by
  refine ⟨_, _, C02_binary_simd b.target (b.env P) .times hn hmul hoal hout ha fun i _ => rfl,
    C02_binary_scalar (b.env P).S .times hn hout ga fun i _ => rfl, fun i hi => ?_⟩
  have hdiv := Nat.div_le_self i b.target.size
  have hf0 : 0 ≤ ((i / b.target.size : ℕ) : ℝ) * floatStepError b.target.size (binary64.toReal slope) := by
    unfold floatStepError; positivity
  have h1 := FadeOk.mono (d := b.target.size + i / b.target.size + 1) (hr i hi) (by omega) le_rfl hf0
  have h2 := FadeOk.mono (d := i + 1) (hr i hi) (by omega) hf0 hf0
  have r1 := C79_ramp_simd_double b P hg hs hsl i (FadeOk.ramp hf0 h1 (Nat.le_succ _))
  have r2 := C79_ramp_double b P hg hs i (FadeOk.ramp le_rfl h2 (Nat.le_succ _))
  exact ⟨isFade_of hf0 r1 h1 ((b.prodNear P).L _ _ (hx i hi) r1.1),
    isFade_of le_rfl r2 h2 ((b.prodNear P).S _ _ (hx i hi) r2.1)⟩

/-! ## `mix_vec` with two ramps -/

/-- A crossfade of `float`s. -/
theorem C86_crossfade_float (b : Build32) (P : Platform 32) {m : Mem (BitVec 32)} {out : Nat}
    {a c : SArg (BitVec 32)} {n : BitVec 32} {x x' : ℕ → BitVec 32} {g s g' s' : BitVec 32} (hn : 0 < n.toNat)
    (hmul : b.target.perLine ∣ n.toNat) (hoal : b.target.align ∣ out) (hout : Allocated m out n.toNat)
    (ha : SimdSupplies (b.vec P) b.target.align m out n.toNat a x)
    (ga : ScalarSupplies (b.env P).S m out n.toNat a x)
    (hc : SimdSupplies (b.vec P) b.target.align m out n.toNat c x')
    (gc : ScalarSupplies (b.env P).S m out n.toNat c x')
    (hg : IsFin binary32 g) (hs : IsFin binary32 s) (hg' : IsFin binary32 g') (hs' : IsFin binary32 s')
    (hx : ∀ i < n.toNat, IsFin binary32 (x i)) (hx' : ∀ i < n.toNat, IsFin binary32 (x' i))
    (hr : ∀ i < n.toNat, CrossfadeOk binary32 (b.target.size + i + 2) (binary32.toReal (x i)) (binary32.toReal g)
      (binary32.toReal s) (binary32.toReal (x' i)) (binary32.toReal g') (binary32.toReal s') i 0 0) :
    ∃ y z : ℕ → BitVec 32,
      QuadOp.mix.vecSimd (b.vec P) out a (.ramp g s) c (.ramp g' s') n m = .ok ((), overwrite m out n.toNat y) ∧
      QuadOp.mix.vec (b.env P).S out a (.ramp g s) c (.ramp g' s') n m = .ok ((), overwrite m out n.toNat z) ∧
      ∀ i < n.toNat,
        IsCrossfade binary32 (b.target.size + i / b.target.size + 2) (binary32.toReal (x i)) (binary32.toReal g)
          (binary32.toReal s) (binary32.toReal (x' i)) (binary32.toReal g') (binary32.toReal s') i 0 0 (y i) ∧
        IsCrossfade binary32 (i + 2) (binary32.toReal (x i)) (binary32.toReal g)
          (binary32.toReal s) (binary32.toReal (x' i)) (binary32.toReal g') (binary32.toReal s') i 0 0 (z i) := by
  refine ⟨_, _, C04_quad_simd b.target (b.env P) .mix hn hmul hoal hout ha (fun i _ => rfl) hc fun i _ => rfl,
    C04_quad_scalar (b.env P).S .mix hn hout ga (fun i _ => rfl) gc fun i _ => rfl, fun i hi => ?_⟩
  have hdiv := Nat.div_le_self i b.target.size
  have h1 := CrossfadeOk.mono (d := b.target.size + i / b.target.size + 2) (hr i hi) (by omega) le_rfl le_rfl le_rfl le_rfl
  have h2 := CrossfadeOk.mono (d := i + 2) (hr i hi) (by omega) le_rfl le_rfl le_rfl le_rfl
  have r1 := C79_ramp_simd_float b P hg hs i (CrossfadeOk.ramp0 le_rfl h1 (by omega))
  have r1' := C79_ramp_simd_float b P hg' hs' i (CrossfadeOk.ramp1 le_rfl h1 (by omega))
  have r2 := C79_ramp_float b P hg hs i (CrossfadeOk.ramp0 le_rfl h2 (by omega))
  have r2' := C79_ramp_float b P hg' hs' i (CrossfadeOk.ramp1 le_rfl h2 (by omega))
  constructor
  · have := isCrossfade_of le_rfl le_rfl r1 r1' h1 ((b.prodNear P).L _ _ (hx i hi) r1.1) ((b.prodNear P).L _ _ (hx' i hi) r1'.1)
    rw [← (b.adds P).L] at this
    exact this
  · have := isCrossfade_of le_rfl le_rfl r2 r2' h2 ((b.prodNear P).S _ _ (hx i hi) r2.1) ((b.prodNear P).S _ _ (hx' i hi) r2'.1)
    rw [← (b.adds P).S] at this
    exact this

/-- A crossfade of `double`s. -/
theorem C86_crossfade_double (b : Build64) (P : Platform 64) {m : Mem (BitVec 64)} {out : Nat}
    {a c : SArg (BitVec 64)} {n : BitVec 32} {x x' : ℕ → BitVec 64} {g s g' s' : BitVec 64} (hn : 0 < n.toNat)
    (hmul : b.target.perLine ∣ n.toNat) (hoal : b.target.align ∣ out) (hout : Allocated m out n.toNat)
    (ha : SimdSupplies (b.vec P) b.target.align m out n.toNat a x)
    (ga : ScalarSupplies (b.env P).S m out n.toNat a x)
    (hc : SimdSupplies (b.vec P) b.target.align m out n.toNat c x')
    (gc : ScalarSupplies (b.env P).S m out n.toNat c x')
    (hg : IsFin binary64 g) (hs : IsFin binary64 s) (hg' : IsFin binary64 g') (hs' : IsFin binary64 s')
    (hsl : b.target.size * |binary64.toReal s| ≤ 2 ^ 126) (hsl' : b.target.size * |binary64.toReal s'| ≤ 2 ^ 126)
    (hx : ∀ i < n.toNat, IsFin binary64 (x i)) (hx' : ∀ i < n.toNat, IsFin binary64 (x' i))
    (hr : ∀ i < n.toNat, CrossfadeOk binary64 (b.target.size + i + 2) (binary64.toReal (x i)) (binary64.toReal g)
      (binary64.toReal s) (binary64.toReal (x' i)) (binary64.toReal g') (binary64.toReal s') i
      ((i / b.target.size : ℕ) * floatStepError b.target.size (binary64.toReal s))
      ((i / b.target.size : ℕ) * floatStepError b.target.size (binary64.toReal s'))) :
    ∃ y z : ℕ → BitVec 64,
      QuadOp.mix.vecSimd (b.vec P) out a (.ramp g s) c (.ramp g' s') n m = .ok ((), overwrite m out n.toNat y) ∧
      QuadOp.mix.vec (b.env P).S out a (.ramp g s) c (.ramp g' s') n m = .ok ((), overwrite m out n.toNat z) ∧
      ∀ i < n.toNat,
        IsCrossfade binary64 (b.target.size + i / b.target.size + 2) (binary64.toReal (x i)) (binary64.toReal g)
          (binary64.toReal s) (binary64.toReal (x' i)) (binary64.toReal g') (binary64.toReal s') i
          ((i / b.target.size : ℕ) * floatStepError b.target.size (binary64.toReal s))
          ((i / b.target.size : ℕ) * floatStepError b.target.size (binary64.toReal s')) (y i) ∧
        IsCrossfade binary64 (i + 2) (binary64.toReal (x i)) (binary64.toReal g)
          (binary64.toReal s) (binary64.toReal (x' i)) (binary64.toReal g') (binary64.toReal s') i 0 0 (z i) := by
  refine ⟨_, _, C04_quad_simd b.target (b.env P) .mix hn hmul hoal hout ha (fun i _ => rfl) hc fun i _ => rfl,
    C04_quad_scalar (b.env P).S .mix hn hout ga (fun i _ => rfl) gc fun i _ => rfl, fun i hi => ?_⟩
  have hdiv := Nat.div_le_self i b.target.size
  have hf : ∀ v : ℝ, 0 ≤ ((i / b.target.size : ℕ) : ℝ) * floatStepError b.target.size v := by
    intro v; unfold floatStepError; positivity
  have h1 := CrossfadeOk.mono (d := b.target.size + i / b.target.size + 2) (hr i hi) (by omega) le_rfl le_rfl (hf _) (hf _)
  have h2 := CrossfadeOk.mono (d := i + 2) (hr i hi) (by omega) (hf _) (hf _) (hf _) (hf _)
  have r1 := C79_ramp_simd_double b P hg hs hsl i (CrossfadeOk.ramp0 (hf _) h1 (by omega))
  have r1' := C79_ramp_simd_double b P hg' hs' hsl' i (CrossfadeOk.ramp1 (hf _) h1 (by omega))
  have r2 := C79_ramp_double b P hg hs i (CrossfadeOk.ramp0 le_rfl h2 (by omega))
  have r2' := C79_ramp_double b P hg' hs' i (CrossfadeOk.ramp1 le_rfl h2 (by omega))
  constructor
  · have := isCrossfade_of (hf _) (hf _) r1 r1' h1 ((b.prodNear P).L _ _ (hx i hi) r1.1) ((b.prodNear P).L _ _ (hx' i hi) r1'.1)
    rw [← (b.adds P).L] at this
    exact this
  · have := isCrossfade_of le_rfl le_rfl r2 r2' h2 ((b.prodNear P).S _ _ (hx i hi) r2.1) ((b.prodNear P).S _ _ (hx' i hi) r2'.1)
    rw [← (b.adds P).S] at this
    exact this

/-! ## `pan2_vec` with slopes -/

/-- The gain of `pan2_vec_simd`. -/
theorem panRamp_isRamp (t : Target) {E : Env (BitVec w)} (hE : Adds F E) (h8 : t = .avxFloat → MulEight F E)
    {base slope : BitVec w} (hb : IsFin F base) (hs : IsFin F slope) (i : ℕ)
    (hr : RampOk F (t.size + i / t.size) (F.toReal base) (F.toReal slope) i 0) :
    IsRamp F (t.size + i / t.size) (F.toReal base) (F.toReal slope) i 0 (panRamp (t.vec E) base slope i) := by
  have hsz := t.vec_size E
  have ei : i / t.size * t.size + i % t.size = i := Nat.div_add_mod' i _
  unfold RampOk at hr
  rw [add_zero] at hr
  obtain ⟨l, hl, e⟩ : ∃ l : Fin (t.vec E).size, (l : ℕ) = i % t.size ∧
      panRamp (t.vec E) base slope i = panRampReg (t.vec E) base slope (i / t.size) l := by
    refine ⟨⟨i % (t.vec E).size, Nat.mod_lt _ (t.vec E).size_pos⟩, by rw [← hsz], ?_⟩
    unfold panRamp
    rw [show i / (t.vec E).size = i / t.size by rw [hsz]]
  rw [e]
  set j := i / t.size with hj
  have hl0 := setSlope_lane_acc t hE hb hs l (RmpOk.mono (k := i) (d := t.size + j) hr
    (by rw [hl]; exact Nat.mod_le _ _) (Nat.le_add_right _ _))
  have hinc : 0 < j → FP.Acc F t.size (t.size * F.toReal slope) (t.size * |F.toReal slope|) 0
      ((t.vec E).setSlope base slope).2 := by
    intro hj0
    have hle : t.size ≤ i := by
      by_contra h
      rw [hj, Nat.div_eq_of_lt (by omega)] at hj0
      exact absurd hj0 (lt_irrefl 0)
    have := setSlope_step_acc t (base := base) hE h8 hs
      (show RmpOk F _ _ _ _ from RmpOk.mono (k := i) (d := t.size + j) hr hle (by omega))
    unfold Rmp at this
    exact this.congr (by push_cast; ring) (by push_cast; ring) rfl
  have hi : (i : ℝ) = j * t.size + (l : ℕ) := by rw [hl]; exact_mod_cast ei.symm
  have := Acc.fold (F := F) (g := (t.vec E).lane.add) (by rw [t.lane_eq]; exact hE.L)
    (acc := fun i => panRampReg (t.vec E) base slope i l) (x := fun _ => ((t.vec E).setSlope base slope).2)
    (T' := fun _ => t.size * F.toReal slope) (B' := fun _ => t.size * |F.toReal slope|) (f' := fun _ => 0) hl0 j
    (fun i _ => by
      show (t.vec E).lane.add _ ((t.vec E).setVec _ l) = _
      rw [(t.lawful E).setVec])
    (fun i hi => hinc (by omega)) (by
      refine le_trans (le_of_eq ?_) hr
      simp only [Finset.sum_const, Finset.card_range, nsmul_eq_mul]
      rw [hi]
      push_cast
      ring)
  have h2 := this.congr (T := F.toReal base + i * F.toReal slope) (B := |F.toReal base| + i * |F.toReal slope|) (f := 0)
    (by simp only [Finset.sum_const, Finset.card_range, nsmul_eq_mul]; rw [hi]; push_cast; ring)
    (by simp only [Finset.sum_const, Finset.card_range, nsmul_eq_mul]; rw [hi]; push_cast; ring)
    (by simp)
  exact ⟨h2.fin, h2.tol⟩

/-- `pan2_vec` and `pan2_vec_simd` of `float`s with slopes. -/
theorem C86_pan_float (b : Build32) (P : Platform 32) {m : Mem (BitVec 32)} {out0 out1 inp : Nat}
    {n : BitVec 32} {x : ℕ → BitVec 32} {g s g' s' : BitVec 32} (hn : 0 < n.toNat)
    (hmul : b.target.perLine ∣ n.toNat) (a0 : b.target.align ∣ out0) (a1 : b.target.align ∣ out1)
    (ai : b.target.align ∣ inp) (hdis : Disjoint2 out0 out1 n.toNat) (hin : Holds m inp n.toNat x)
    (h0 : Allocated m out0 n.toNat) (h1 : Allocated m out1 n.toNat)
    (p0 : SafePlacement out0 inp n.toNat) (p1 : SafePlacement out1 inp n.toNat)
    (hg : IsFin binary32 g) (hs : IsFin binary32 s) (hg' : IsFin binary32 g') (hs' : IsFin binary32 s')
    (hx : ∀ i < n.toNat, IsFin binary32 (x i))
    (hr : ∀ i < n.toNat, FadeOk binary32 (b.target.size + i + 1) (binary32.toReal (x i)) (binary32.toReal g)
      (binary32.toReal s) i 0)
    (hr' : ∀ i < n.toNat, FadeOk binary32 (b.target.size + i + 1) (binary32.toReal (x i)) (binary32.toReal g')
      (binary32.toReal s') i 0) :
    ∃ y y' z z' : ℕ → BitVec 32,
      pan2VecRampSimd (b.vec P) out0 out1 inp g s g' s' n m =
        .ok ((), overwrite (overwrite m out0 n.toNat y) out1 n.toNat y') ∧
      pan2VecRamp (b.env P) out0 out1 inp g s g' s' n m =
        .ok ((), overwrite (overwrite m out0 n.toNat z) out1 n.toNat z') ∧
      ∀ i < n.toNat,
        IsFade binary32 (b.target.size + i / b.target.size + 1) (binary32.toReal (x i)) (binary32.toReal g)
          (binary32.toReal s) i 0 (y i) ∧
        IsFade binary32 (b.target.size + i / b.target.size + 1) (binary32.toReal (x i)) (binary32.toReal g')
          (binary32.toReal s') i 0 (y' i) ∧
        IsFade binary32 (i + 1) (binary32.toReal (x i)) (binary32.toReal g) (binary32.toReal s) i 0 (z i) ∧
        IsFade binary32 (i + 1) (binary32.toReal (x i)) (binary32.toReal g') (binary32.toReal s') i 0 (z' i) := by
  have h8 : b.target = .avxFloat → MulEight binary32 (b.env P) := fun _ => mul_eight32 b P
  refine ⟨_, _, _, _, pan2_ramp_simd_ok b.target (b.env P) hn hmul a0 a1 ai hdis hin h0 h1 p0 p1,
    pan2_ramp_scalar_ok (b.env P) hn hdis hin h0 h1 p0 p1, fun i hi => ?_⟩
  have hdiv := Nat.div_le_self i b.target.size
  have k1 := FadeOk.mono (d := b.target.size + i / b.target.size + 1) (hr i hi) (by omega) le_rfl le_rfl
  have k2 := FadeOk.mono (d := i + 1) (hr i hi) (by omega) le_rfl le_rfl
  have k1' := FadeOk.mono (d := b.target.size + i / b.target.size + 1) (hr' i hi) (by omega) le_rfl le_rfl
  have k2' := FadeOk.mono (d := i + 1) (hr' i hi) (by omega) le_rfl le_rfl
  have r1 := panRamp_isRamp b.target (b.adds P) h8 hg hs i (FadeOk.ramp le_rfl k1 (Nat.le_succ _))
  have r2 := C79_ramp_float b P hg hs i (FadeOk.ramp le_rfl k2 (Nat.le_succ _))
  have r1' := panRamp_isRamp b.target (b.adds P) h8 hg' hs' i (FadeOk.ramp le_rfl k1' (Nat.le_succ _))
  have r2' := C79_ramp_float b P hg' hs' i (FadeOk.ramp le_rfl k2' (Nat.le_succ _))
  exact ⟨isFade_of le_rfl r1 k1 ((b.prodNear P).L _ _ (hx i hi) r1.1),
    isFade_of le_rfl r1' k1' ((b.prodNear P).L _ _ (hx i hi) r1'.1),
    isFade_of le_rfl r2 k2 ((b.prodNear P).S _ _ (hx i hi) r2.1),
    isFade_of le_rfl r2' k2' ((b.prodNear P).S _ _ (hx i hi) r2'.1)⟩

/-- `pan2_vec` and `pan2_vec_simd` of `double`s with slopes: no error from a conversion to `float`. -/
theorem C86_pan_double (b : Build64) (P : Platform 64) {m : Mem (BitVec 64)} {out0 out1 inp : Nat}
    {n : BitVec 32} {x : ℕ → BitVec 64} {g s g' s' : BitVec 64} (hn : 0 < n.toNat)
    (hmul : b.target.perLine ∣ n.toNat) (a0 : b.target.align ∣ out0) (a1 : b.target.align ∣ out1)
    (ai : b.target.align ∣ inp) (hdis : Disjoint2 out0 out1 n.toNat) (hin : Holds m inp n.toNat x)
    (h0 : Allocated m out0 n.toNat) (h1 : Allocated m out1 n.toNat)
    (p0 : SafePlacement out0 inp n.toNat) (p1 : SafePlacement out1 inp n.toNat)
    (hg : IsFin binary64 g) (hs : IsFin binary64 s) (hg' : IsFin binary64 g') (hs' : IsFin binary64 s')
    (hx : ∀ i < n.toNat, IsFin binary64 (x i))
    (hr : ∀ i < n.toNat, FadeOk binary64 (b.target.size + i + 1) (binary64.toReal (x i)) (binary64.toReal g)
      (binary64.toReal s) i 0)
    (hr' : ∀ i < n.toNat, FadeOk binary64 (b.target.size + i + 1) (binary64.toReal (x i)) (binary64.toReal g')
      (binary64.toReal s') i 0) :
    ∃ y y' z z' : ℕ → BitVec 64,
      pan2VecRampSimd (b.vec P) out0 out1 inp g s g' s' n m =
        .ok ((), overwrite (overwrite m out0 n.toNat y) out1 n.toNat y') ∧
      pan2VecRamp (b.env P) out0 out1 inp g s g' s' n m =
        .ok ((), overwrite (overwrite m out0 n.toNat z) out1 n.toNat z') ∧
      ∀ i < n.toNat,
        IsFade binary64 (b.target.size + i / b.target.size + 1) (binary64.toReal (x i)) (binary64.toReal g)
          (binary64.toReal s) i 0 (y i) ∧
        IsFade binary64 (b.target.size + i / b.target.size + 1) (binary64.toReal (x i)) (binary64.toReal g')
          (binary64.toReal s') i 0 (y' i) ∧
        IsFade binary64 (i + 1) (binary64.toReal (x i)) (binary64.toReal g) (binary64.toReal s) i 0 (z i) ∧
        IsFade binary64 (i + 1) (binary64.toReal (x i)) (binary64.toReal g') (binary64.toReal s') i 0 (z' i) := by
  have h8 : b.target = .avxFloat → MulEight binary64 (b.env P) := fun h => by cases b <;> simp [Build64.target] at h
  refine ⟨_, _, _, _, pan2_ramp_simd_ok b.target (b.env P) hn hmul a0 a1 ai hdis hin h0 h1 p0 p1,
    pan2_ramp_scalar_ok (b.env P) hn hdis hin h0 h1 p0 p1, fun i hi => ?_⟩
  have hdiv := Nat.div_le_self i b.target.size
  have k1 := FadeOk.mono (d := b.target.size + i / b.target.size + 1) (hr i hi) (by omega) le_rfl le_rfl
  have k2 := FadeOk.mono (d := i + 1) (hr i hi) (by omega) le_rfl le_rfl
  have k1' := FadeOk.mono (d := b.target.size + i / b.target.size + 1) (hr' i hi) (by omega) le_rfl le_rfl
  have k2' := FadeOk.mono (d := i + 1) (hr' i hi) (by omega) le_rfl le_rfl
  have r1 := panRamp_isRamp b.target (b.adds P) h8 hg hs i (FadeOk.ramp le_rfl k1 (Nat.le_succ _))
  have r2 := C79_ramp_double b P hg hs i (FadeOk.ramp le_rfl k2 (Nat.le_succ _))
  have r1' := panRamp_isRamp b.target (b.adds P) h8 hg' hs' i (FadeOk.ramp le_rfl k1' (Nat.le_succ _))
  have r2' := C79_ramp_double b P hg' hs' i (FadeOk.ramp le_rfl k2' (Nat.le_succ _))
  exact ⟨isFade_of le_rfl r1 k1 ((b.prodNear P).L _ _ (hx i hi) r1.1),
    isFade_of le_rfl r1' k1' ((b.prodNear P).L _ _ (hx i hi) r1'.1),
    isFade_of le_rfl r2 k2 ((b.prodNear P).S _ _ (hx i hi) r2.1),
    isFade_of le_rfl r2' k2' ((b.prodNear P).S _ _ (hx i hi) r2'.1)⟩

/-! ## In numbers -/

/-- A signal in [-1, 1] and a gain whose ramp stays in [-1, 1] (`|gain| + i*|slope| ≤ 2`): every condition holds, and the
error is at most `(d + 1) * 2^-22` for up to four million roundings. -/
theorem C86_in_numbers {d i : ℕ} {x gain slope : ℝ} (hd : d ≤ 2 ^ 22) (hx : |x| ≤ 1) (hg : |gain| + i * |slope| ≤ 2) :
    FadeOk binary32 d x gain slope i 0 ∧ ∀ r, IsFade binary32 d x gain slope i 0 r →
      |binary32.toReal r - x * (gain + i * slope)| ≤ (d + 1) / 2 ^ 22 := by
  have hd' : (d : ℝ) ≤ 2 ^ 22 := by exact_mod_cast hd
  have h0 : 0 ≤ |gain| + i * |slope| := by positivity
  have hgr := growth_le (F := binary32) (d := d) (by rw [Fmt.u32]; linarith)
  have h2 : (1 + binary32.u) ^ d ≤ 2 := by rw [Fmt.u32] at hgr ⊢; linarith
  have h1 := Acc.one_le binary32 d
  have hp : |x| * (|gain| + i * |slope|) ≤ 2 := by
    calc _ ≤ 1 * (2 : ℝ) := mul_le_mul hx hg h0 (by norm_num)
      _ = 2 := one_mul _
  have hp0 : 0 ≤ |x| * (|gain| + i * |slope|) := mul_nonneg (abs_nonneg x) h0
  have big : (2 : ℝ) * 2 ≤ 2 ^ binary32.bias := by
    rw [bias32]
    calc (2 : ℝ) * 2 = 2 ^ 2 := by norm_num
      _ ≤ 2 ^ 127 := pow_le_pow_right₀ (by norm_num) (by norm_num)
  refine ⟨⟨?_, ?_⟩, ?_⟩
  · unfold RampOk
    rw [add_zero]
    exact (mul_le_mul h2 hg h0 (by norm_num)).trans big
  · rw [add_zero]
    exact (mul_le_mul h2 hp hp0 (by norm_num)).trans big
  · intro r hr
    refine hr.2.trans ?_
    rw [mul_zero, zero_add]
    have e1 : ((1 + binary32.u) ^ d - 1) * (|x| * (|gain| + i * |slope|)) ≤ (2 * (d * binary32.u)) * 2 :=
      mul_le_mul (by linarith) hp hp0 (by have := binary32.u_pos; positivity)
    have e2 : (1 + binary32.u) ^ d * binary32.eta ≤ 2 * binary32.eta :=
      mul_le_mul_of_nonneg_right h2 binary32.eta_pos.le
    have e3 : 2 * binary32.eta ≤ 1 / 2 ^ 22 := by
      rw [Fmt.eta32]; norm_num
    rw [Fmt.u32] at e1
    have e4 : 2 * ((d : ℝ) * (1 / 2 ^ 24)) * 2 = d / 2 ^ 22 := by ring
    rw [Fmt.u32] at e2 ⊢
    rw [add_div]
    linarith

/-- A fade from 1 by 0.001 per sample over 1000 samples of a signal in [-1, 1], 16 at a time: at most 1017 roundings, and
the error is at most 0.0003. -/
example (x : ℝ) (hx : |x| ≤ 1) (i : ℕ) (hi : i < 1000) :
    FadeOk binary32 1017 x 1 (-1 / 1000) i 0 ∧
    ∀ r, IsFade binary32 1017 x 1 (-1 / 1000) i 0 r →
      |binary32.toReal r - x * (1 + i * (-1 / 1000))| ≤ 3 / 10000 := by
  have hi' : (i : ℝ) ≤ 1000 := by exact_mod_cast hi.le
  have hg : |(1 : ℝ)| + i * |(-1 / 1000 : ℝ)| ≤ 2 := by
    rw [abs_one, show |(-1 / 1000 : ℝ)| = 1 / 1000 by rw [abs_of_neg] <;> norm_num]
    linarith
  obtain ⟨h1, h2⟩ := C86_in_numbers (d := 1017) (by norm_num) hx hg
  exact ⟨h1, fun r hr => (h2 r hr).trans (by norm_num)⟩

end Nova
