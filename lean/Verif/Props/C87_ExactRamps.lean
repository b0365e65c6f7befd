import Verif.Lemmas.ExactRamps
import Verif.Props.C78_Same
import Verif.Props.C79_Sums

/-!
# C87 ramps without rounding errors

A ramp whose values and whose multiples of the slope are numbers of the format (`RampRepresentable`), for example a fade
from 1 to 0 in 64 steps, is computed exactly by the scalar and by the SIMD loops, in every build.  Therefore both versions
of `times_vec`, `mix_vec` and `pan2_vec` give the same numbers, wherever the class multiplies with a multiplication.

With other slopes the versions differ (`C87_negation`).
-/

namespace Nova
open FP Spec

variable {w : Nat} {F : Fmt w}

theorem Spec.RampRepresentable.ok {B s : ℝ} {n : ℕ} (h : RampRepresentable F B s n) : ExOk F B s n := by
  intro p k hp hk
  obtain ⟨h1, h2⟩ := h k hk
  rcases Nat.le_one_iff_eq_zero_or_eq_one.mp hp with rfl | rfl
  · convert h2 using 1; push_cast; ring
  · convert h1 using 1; push_cast; ring

theorem Spec.RampRepresentable.mono {B s : ℝ} {n k : ℕ} (h : RampRepresentable F B s n) (hk : k ≤ n) :
    RampRepresentable F B s k := fun l hl => h l (hl.trans hk)

/-! ## Which ramps these are -/

theorem representable_grid {k : ℤ} {s : ℕ} (hk : |k| ≤ 2 ^ (F.mb + 1)) (hs : s + F.mb + 1 ≤ F.bias + F.scale) :
    Representable F (k * 2 ^ s / 2 ^ F.scale) := by
  have hk' : k.natAbs ≤ 2 ^ (F.mb + 1) := by
    rw [← Int.natCast_natAbs] at hk
    exact_mod_cast hk
  obtain ⟨c, hc⟩ := mag_exists (mb := F.mb) (m := k.natAbs) s hk'
  have hlt : c < F.infCode := by
    have := F.rne_lt_infCode (N := k.natAbs * 2 ^ s) (D := 1) (by decide) (by
      rw [Nat.mul_one, ← pow_add]
      calc k.natAbs * 2 ^ s ≤ 2 ^ (F.mb + 1) * 2 ^ s := Nat.mul_le_mul_right _ hk'
        _ = 2 ^ (F.mb + 1 + s) := by rw [← pow_add]
        _ ≤ 2 ^ (F.bias + F.scale) := Nat.pow_le_pow_right (by decide) (by omega))
    rwa [rne_exact (c := c) (by decide) (by rw [Nat.mul_one, hc])] at this
  refine ⟨F.pack (decide (k < 0)) c, F.isFinite_pack _ hlt, ?_⟩
  rw [F.toReal_pack _ hlt, hc]
  have hn : ((k.natAbs : ℕ) : ℝ) = |(k : ℝ)| := by
    rw [← Int.cast_abs, ← Int.natCast_natAbs]; rfl
  push_cast
  rw [hn]
  by_cases h : k < 0
  · rw [decide_eq_true h, if_pos rfl, abs_of_neg (by exact_mod_cast h)]; ring
  · rw [decide_eq_false h, if_neg (by decide), abs_of_nonneg (by exact_mod_cast not_lt.mp h)]; ring

/-- `float`s: `a / 2^q + i * c / 2^q` with `|a| + n * |c| ≤ 2^24`. -/
theorem C87_which_float (a c : ℤ) (q n : ℕ) (hq : q ≤ 149) (h : |a| + n * |c| ≤ 2 ^ 24) :
    RampRepresentable binary32 (a / 2 ^ q) (c / 2 ^ q) n := by
  intro k hk
  have hkc : |(k : ℤ) * c| ≤ n * |c| := by
    rw [abs_mul, Nat.abs_cast]
    exact mul_le_mul_of_nonneg_right (by exact_mod_cast hk) (abs_nonneg c)
  have e : (2 : ℝ) ^ (149 - q) / 2 ^ binary32.scale = 1 / 2 ^ q := by
    rw [scale32, div_eq_div_iff (by positivity) (by positivity), ← pow_add, one_mul]
    congr 1; omega
  have g := fun (z : ℤ) (hz : |z| ≤ 2 ^ 24) => representable_grid (F := binary32) (k := z) (s := 149 - q) hz
    (by rw [scale32, bias32, show binary32.mb = 23 from rfl]; omega)
  constructor
  · have := g (a + k * c) ((abs_add_le _ _).trans (by linarith))
    rw [mul_div_assoc, e] at this
    convert this using 1; push_cast; ring
  · have := g (k * c) (by have := abs_nonneg a; linarith)
    rw [mul_div_assoc, e] at this
    convert this using 1; push_cast; ring

/-- `double`s: `a / 2^q + i * c / 2^q` with `|a| + n * |c| ≤ 2^53`. -/
theorem C87_which_double (a c : ℤ) (q n : ℕ) (hq : q ≤ 1074) (h : |a| + n * |c| ≤ 2 ^ 53) :
    RampRepresentable binary64 (a / 2 ^ q) (c / 2 ^ q) n := by
  intro k hk
  have hkc : |(k : ℤ) * c| ≤ n * |c| := by
    rw [abs_mul, Nat.abs_cast]
    exact mul_le_mul_of_nonneg_right (by exact_mod_cast hk) (abs_nonneg c)
  have e : (2 : ℝ) ^ (1074 - q) / 2 ^ binary64.scale = 1 / 2 ^ q := by
    rw [scale64, div_eq_div_iff (by positivity) (by positivity), ← pow_add, one_mul]
    congr 1; omega
  have g := fun (z : ℤ) (hz : |z| ≤ 2 ^ 53) => representable_grid (F := binary64) (k := z) (s := 1074 - q) hz
    (by rw [scale64, show binary64.bias = 1023 from rfl, show binary64.mb = 52 from rfl]; omega)
  constructor
  · have := g (a + k * c) ((abs_add_le _ _).trans (by linarith))
    rw [mul_div_assoc, e] at this
    convert this using 1; push_cast; ring
  · have := g (k * c) (by have := abs_nonneg a; linarith)
    rw [mul_div_assoc, e] at this
    convert this using 1; push_cast; ring

/-! ## The ramps -/

theorem isRampExact {B s : ℝ} {i : ℕ} {r : BitVec w} (h : Ex F B s 1 i r) : IsFin F r ∧ F.toReal r = B + i * s :=
  ⟨h.1, by rw [h.2]; push_cast; ring⟩

theorem reg_index (t : Target) {α : Type} (E : Env α) (i : ℕ) :
    ∃ l : Fin (t.vec E).size, (l : ℕ) = i % t.size ∧ i = i / t.size * t.size + l ∧
      (∀ base slope, simdRamp (t.vec E) base slope i = simdRampReg (t.vec E) base slope (i / t.size) l) ∧
      ∀ base slope, panRamp (t.vec E) base slope i = panRampReg (t.vec E) base slope (i / t.size) l := by
  have hsz := t.vec_size E
  have ei : i / t.size * t.size + i % t.size = i := Nat.div_add_mod' i _
  have e1 : i % (t.vec E).size = i % t.size := by rw [hsz]
  refine ⟨⟨i % (t.vec E).size, Nat.mod_lt _ (t.vec E).size_pos⟩, e1, ?_, ?_, ?_⟩
  · show i = i / t.size * t.size + i % (t.vec E).size
    rw [e1, ei]
  · intro base slope
    unfold simdRamp
    rw [show i / (t.vec E).size = i / t.size by rw [hsz]]
  · intro base slope
    unfold panRamp
    rw [show i / (t.vec E).size = i / t.size by rw [hsz]]

theorem le_of_div_pos {i z : ℕ} (h : 0 < i / z) : z ≤ i := by
  by_contra hc
  rw [Nat.div_eq_of_lt (by omega)] at h
  exact absurd h (lt_irrefl 0)

theorem step_exact (t : Target) {E : Env (BitVec w)} (hE : Adds F E) (h8 : t = .avxFloat → Eight F E)
    {base slope : BitVec w} (hs : IsFin F slope) (h : ExOk F (F.toReal base) (F.toReal slope) t.size) :
    IsFin F ((t.vec E).setSlope base slope).2 ∧ F.toReal ((t.vec E).setSlope base slope).2 = t.size * F.toReal slope := by
  have := setSlope_step_ex t (base := base) hE h8 hs h
  exact ⟨this.1, by rw [this.2]; push_cast; ring⟩

/-- The gain of `pan2_vec_simd`. -/
theorem panRamp_exact (t : Target) {E : Env (BitVec w)} (hE : Adds F E) (h8 : t = .avxFloat → Eight F E)
    {base slope : BitVec w} (hb : IsFin F base) (hs : IsFin F slope) (i : ℕ)
    (hr : RampRepresentable F (F.toReal base) (F.toReal slope) i) :
    IsFin F (panRamp (t.vec E) base slope i) ∧
    F.toReal (panRamp (t.vec E) base slope i) = F.toReal base + i * F.toReal slope := by
  obtain ⟨l, -, hi, -, hp⟩ := reg_index t E i
  have hok := hr.ok
  have := regs_ex t hE hb hs (reg := panRampReg (t.vec E) base slope) l rfl (fun j => rfl) (i / t.size)
    (fun hj => step_exact t hE h8 hs (hok.mono (le_of_div_pos hj))) (by rw [← hi]; exact hok)
  rw [← hi, ← hp] at this
  exact isRampExact this

/-- A ramp argument of `float`s is exact. -/
theorem C87_ramp_float (b : Build32) (P : Platform 32) {base slope : BitVec 32} (hb : IsFin binary32 base)
    (hs : IsFin binary32 slope) (i : ℕ)
    (hr : RampRepresentable binary32 (binary32.toReal base) (binary32.toReal slope) i) :
    (IsFin binary32 (simdRamp (b.vec P) base slope i) ∧
      binary32.toReal (simdRamp (b.vec P) base slope i) = binary32.toReal base + i * binary32.toReal slope) ∧
    IsFin binary32 (scalarRamp (b.env P).S base slope i) ∧
      binary32.toReal (scalarRamp (b.env P).S base slope i) = binary32.toReal base + i * binary32.toReal slope := by
  have hok := hr.ok
  refine ⟨?_, isRampExact (scalarRamp_ex (b.adds P) hb hs i hok)⟩
  obtain ⟨l, -, hi, hp, -⟩ := reg_index b.target (b.env P) i
  have hv : (b.target.vec (b.env P)).viaFloat = (b.env P).viaFloat := by cases b <;> rfl
  have := regs_ex b.target (b.adds P) hb hs (reg := simdRampReg (b.target.vec (b.env P)) base slope) l rfl
    (fun j => rfl) (i / b.target.size)
    (fun hj => by
      rw [hv]
      exact step_exact b.target (b.adds P) (fun _ => eight32 b P) hs (hok.mono (le_of_div_pos hj)))
    (by rw [← hi]; exact hok)
  rw [← hi, ← hp] at this
  exact isRampExact this

theorem narrow_exact {x : BitVec 64} (hx : IsFin binary64 x) (h : Representable binary32 (binary64.toReal x)) :
    IsFin binary32 (narrow x) ∧ binary32.toReal (narrow x) = binary64.toReal x := by
  obtain ⟨r, hr, he⟩ := h
  have hw := widen_value hr
  rcases same_of_real binary64 hx hw.1 (by rw [hw.2, he]) with e | ⟨e, -⟩
  · rw [e, narrow_widen hr, hw.2]
    exact ⟨hr, rfl⟩
  · have e2 : narrow x = binary32.pack (binary64.neg x) 0 := by
      unfold narrow
      rw [binary64.isFinite_not_nan hx, binary64.isFinite_not_inf hx, e]
      simp only [Bool.false_eq_true, if_false]
      exact binary32.packRnd_mag _ (Nat.two_pow_pos _) (Nat.zero_le _) (by simp)
    have e3 : binary64.toReal x = 0 := by
      rw [binary64.toReal_eq, e]; simp
    rw [e2, e3]
    refine ⟨binary32.isFinite_pack _ binary32.infCode_pos, ?_⟩
    rw [binary32.toReal_pack _ binary32.infCode_pos]; simp

/-- A ramp argument of `double`s is exact, given that the increment of a register is a `float` (C14). -/
theorem C87_ramp_double (b : Build64) (P : Platform 64) {base slope : BitVec 64} (hb : IsFin binary64 base)
    (hs : IsFin binary64 slope) (i : ℕ)
    (hf : Representable binary32 (b.target.size * binary64.toReal slope))
    (hr : RampRepresentable binary64 (binary64.toReal base) (binary64.toReal slope) i) :
    (IsFin binary64 (simdRamp (b.vec P) base slope i) ∧
      binary64.toReal (simdRamp (b.vec P) base slope i) = binary64.toReal base + i * binary64.toReal slope) ∧
    IsFin binary64 (scalarRamp (b.env P).S base slope i) ∧
      binary64.toReal (scalarRamp (b.env P).S base slope i) = binary64.toReal base + i * binary64.toReal slope := by
  have hok := hr.ok
  refine ⟨?_, isRampExact (scalarRamp_ex (b.adds P) hb hs i hok)⟩
  obtain ⟨l, -, hi, hp, -⟩ := reg_index b.target (b.env P) i
  have hv : (b.target.vec (b.env P)).viaFloat = fun x => widen (narrow x) := by cases b <;> rfl
  have := regs_ex b.target (b.adds P) hb hs (reg := simdRampReg (b.target.vec (b.env P)) base slope) l rfl
    (fun j => rfl) (i / b.target.size)
    (fun hj => by
      rw [hv]
      obtain ⟨s1, s2⟩ := step_exact b.target (base := base) (b.adds P) (fun h => by cases b <;> simp [Build64.target] at h) hs
        (hok.mono (le_of_div_pos hj))
      obtain ⟨n1, n2⟩ := narrow_exact s1 (by rw [s2]; exact hf)
      have hw := widen_value n1
      exact ⟨hw.1, by rw [hw.2, n2, s2]⟩)
    (by rw [← hi]; exact hok)
  rw [← hi, ← hp] at this
  exact isRampExact this

/-! ## The calls -/

theorem same_mul {x y z : BitVec w} (hx : IsFin F x) (hy : IsFin F y) (hz : IsFin F z) (h : Same F y z) :
    Same F (F.mul x y) (F.mul x z) := by
  rcases h with rfl | ⟨h1, h2⟩
  · exact .refl F _
  · right
    rw [F.mul_finite hx hy, F.mul_finite hx hz, h1, h2]
    constructor <;>
    · rw [F.packRnd_mag (c := 0) _ (Nat.two_pow_pos _) (Nat.zero_le _) (by simp), F.code_pack]
      have := F.infCode_lt; omega

theorem units_zero {x : BitVec w} (h : F.code x = 0) : F.units x = 0 := by
  have := F.natAbs_units x
  rw [h, mag_zero] at this
  omega

theorem same_add_left {x y z : BitVec w} (h : Same F y z) : Same F (F.add y x) (F.add z x) := by
  rcases h with rfl | ⟨h1, h2⟩
  · exact .refl F _
  · have ny : F.isNaN y = false := by unfold Fmt.isNaN; simp [h1]
    have nz : F.isNaN z = false := by unfold Fmt.isNaN; simp [h2]
    have iy : F.isInf y = false := by unfold Fmt.isInf; have := F.infCode_pos; simp [h1]; omega
    have iz : F.isInf z = false := by unfold Fmt.isInf; have := F.infCode_pos; simp [h2]; omega
    unfold Fmt.add
    rw [ny, nz, iy, iz, units_zero h1, units_zero h2]
    simp only [Bool.false_or, Bool.false_eq_true, if_false]
    by_cases hn : F.isNaN x = true
    · rw [if_pos hn, if_pos hn]
      unfold Fmt.nan2
      rw [ny, nz]
      exact .refl F _
    · rw [if_neg hn, if_neg hn]
      by_cases hi : F.isInf x = true
      · rw [if_pos hi, if_pos hi]; exact .refl F _
      · rw [if_neg hi, if_neg hi]
        by_cases h0 : (0 : ℤ) + F.units x = 0
        · right
          rw [if_pos h0, if_pos h0, F.code_pack, F.code_pack]
          · exact ⟨rfl, rfl⟩
          all_goals have := F.infCode_lt; omega
        · rw [if_neg h0, if_neg h0]; exact .refl F _

theorem same_add_right {x y z : BitVec w} (h : Same F y z) : Same F (F.add x y) (F.add x z) := by
  rcases h with rfl | ⟨h1, h2⟩
  · exact .refl F _
  · have ny : F.isNaN y = false := by unfold Fmt.isNaN; simp [h1]
    have nz : F.isNaN z = false := by unfold Fmt.isNaN; simp [h2]
    have iy : F.isInf y = false := by unfold Fmt.isInf; have := F.infCode_pos; simp [h1]; omega
    have iz : F.isInf z = false := by unfold Fmt.isInf; have := F.infCode_pos; simp [h2]; omega
    unfold Fmt.add
    rw [ny, nz, iy, iz, units_zero h1, units_zero h2]
    simp only [Bool.or_false, Bool.false_and, Bool.false_eq_true, if_false]
    by_cases hn : F.isNaN x = true
    · rw [if_pos hn, if_pos hn]
      unfold Fmt.nan2
      rw [hn]
      exact .refl F _
    · rw [if_neg hn, if_neg hn]
      by_cases hi : F.isInf x = true
      · rw [if_pos hi, if_pos hi]; exact .refl F _
      · rw [if_neg hi, if_neg hi]
        by_cases h0 : F.units x + (0 : ℤ) = 0
        · right
          rw [if_pos h0, if_pos h0, F.code_pack, F.code_pack]
          · exact ⟨rfl, rfl⟩
          all_goals have := F.infCode_lt; omega
        · rw [if_neg h0, if_neg h0]; exact .refl F _

theorem Spec.Same.trans {x y z : BitVec w} (h : Same F x y) (h' : Same F y z) : Same F x z := by
  rcases h with rfl | ⟨h1, h2⟩
  · exact h'
  · rcases h' with rfl | ⟨-, h3⟩
    · exact .inr ⟨h1, h2⟩
    · exact .inr ⟨h1, h3⟩

theorem same_add {x y x' y' : BitVec w} (h : Same F x x') (h' : Same F y y') : Same F (F.add x y) (F.add x' y') :=
  (same_add_left h).trans (same_add_right h')

/-- Fades of `float`s: both versions give the same numbers. -/
theorem C87_fade_float (b : Build32) (hb : multiplies b = true) (P : Platform 32) {m : Mem (BitVec 32)} {out : Nat}
    {a : SArg (BitVec 32)} {n : BitVec 32} {x : ℕ → BitVec 32} {gain slope : BitVec 32} (hn : 0 < n.toNat)
    (hmul : b.target.perLine ∣ n.toNat) (hoal : b.target.align ∣ out) (hout : Allocated m out n.toNat)
    (ha : SimdSupplies (b.vec P) b.target.align m out n.toNat a x)
    (ga : ScalarSupplies (b.env P).S m out n.toNat a x) (hg : IsFin binary32 gain) (hs : IsFin binary32 slope)
    (hx : ∀ i < n.toNat, IsFin binary32 (x i))
    (hr : RampRepresentable binary32 (binary32.toReal gain) (binary32.toReal slope) n.toNat) :
    ∃ y z : ℕ → BitVec 32,
      BinOp.times.vecSimd (b.vec P) out a (.ramp gain slope) n m = .ok ((), overwrite m out n.toNat y) ∧
      BinOp.times.vec (b.env P).S out a (.ramp gain slope) n m = .ok ((), overwrite m out n.toNat z) ∧
      ∀ i < n.toNat, Same binary32 (y i) (z i) := by
  refine ⟨_, _, C02_binary_simd b.target (b.env P) .times hn hmul hoal hout ha fun i _ => rfl,
    C02_binary_scalar (b.env P).S .times hn hout ga fun i _ => rfl, fun i hi => ?_⟩
  obtain ⟨⟨f1, v1⟩, f2, v2⟩ := C87_ramp_float b P hg hs i (hr.mono hi.le)
  have e : (b.env P).L.mul = binary32.mul := lane_mul32' b hb P
  show Same binary32 ((b.env P).L.mul _ _) (binary32.mul _ _)
  rw [e]
  exact same_mul (hx i hi) f1 f2 (same_of_real binary32 f1 f2 (v1.trans v2.symm))

/-- Crossfades of `float`s: both versions give the same numbers. -/
theorem C87_crossfade_float (b : Build32) (hb : multiplies b = true) (P : Platform 32) {m : Mem (BitVec 32)} {out : Nat}
    {a c : SArg (BitVec 32)} {n : BitVec 32} {x x' : ℕ → BitVec 32} {g s g' s' : BitVec 32} (hn : 0 < n.toNat)
    (hmul : b.target.perLine ∣ n.toNat) (hoal : b.target.align ∣ out) (hout : Allocated m out n.toNat)
    (ha : SimdSupplies (b.vec P) b.target.align m out n.toNat a x)
    (ga : ScalarSupplies (b.env P).S m out n.toNat a x)
    (hc : SimdSupplies (b.vec P) b.target.align m out n.toNat c x')
    (gc : ScalarSupplies (b.env P).S m out n.toNat c x')
    (hg : IsFin binary32 g) (hs : IsFin binary32 s) (hg' : IsFin binary32 g') (hs' : IsFin binary32 s')
    (hx : ∀ i < n.toNat, IsFin binary32 (x i)) (hx' : ∀ i < n.toNat, IsFin binary32 (x' i))
    (hr : RampRepresentable binary32 (binary32.toReal g) (binary32.toReal s) n.toNat)
    (hr' : RampRepresentable binary32 (binary32.toReal g') (binary32.toReal s') n.toNat) :
    ∃ y z : ℕ → BitVec 32,
      QuadOp.mix.vecSimd (b.vec P) out a (.ramp g s) c (.ramp g' s') n m = .ok ((), overwrite m out n.toNat y) ∧
      QuadOp.mix.vec (b.env P).S out a (.ramp g s) c (.ramp g' s') n m = .ok ((), overwrite m out n.toNat z) ∧
      ∀ i < n.toNat, Same binary32 (y i) (z i) := by
  refine ⟨_, _, C04_quad_simd b.target (b.env P) .mix hn hmul hoal hout ha (fun i _ => rfl) hc fun i _ => rfl,
    C04_quad_scalar (b.env P).S .mix hn hout ga (fun i _ => rfl) gc fun i _ => rfl, fun i hi => ?_⟩
  obtain ⟨⟨f1, v1⟩, f2, v2⟩ := C87_ramp_float b P hg hs i (hr.mono hi.le)
  obtain ⟨⟨f1', v1'⟩, f2', v2'⟩ := C87_ramp_float b P hg' hs' i (hr'.mono hi.le)
  have e : (b.env P).L.mul = binary32.mul := lane_mul32' b hb P
  show Same binary32 ((b.env P).L.add ((b.env P).L.mul _ _) ((b.env P).L.mul _ _))
    (binary32.add (binary32.mul _ _) (binary32.mul _ _))
  rw [e, (b.adds P).L]
  exact same_add (same_mul (hx i hi) f1 f2 (same_of_real binary32 f1 f2 (v1.trans v2.symm)))
    (same_mul (hx' i hi) f1' f2' (same_of_real binary32 f1' f2' (v1'.trans v2'.symm)))

/-- Panning `float`s with slopes: both versions give the same numbers. -/
theorem C87_pan_float (b : Build32) (hb : multiplies b = true) (P : Platform 32) {m : Mem (BitVec 32)}
    {out0 out1 inp : Nat} {n : BitVec 32} {x : ℕ → BitVec 32} {g s g' s' : BitVec 32} (hn : 0 < n.toNat)
    (hmul : b.target.perLine ∣ n.toNat) (a0 : b.target.align ∣ out0) (a1 : b.target.align ∣ out1)
    (ai : b.target.align ∣ inp) (hdis : Disjoint2 out0 out1 n.toNat) (hin : Holds m inp n.toNat x)
    (h0 : Allocated m out0 n.toNat) (h1 : Allocated m out1 n.toNat)
    (p0 : SafePlacement out0 inp n.toNat) (p1 : SafePlacement out1 inp n.toNat)
    (hg : IsFin binary32 g) (hs : IsFin binary32 s) (hg' : IsFin binary32 g') (hs' : IsFin binary32 s')
    (hx : ∀ i < n.toNat, IsFin binary32 (x i))
    (hr : RampRepresentable binary32 (binary32.toReal g) (binary32.toReal s) n.toNat)
    (hr' : RampRepresentable binary32 (binary32.toReal g') (binary32.toReal s') n.toNat) :
    ∃ y y' z z' : ℕ → BitVec 32,
      pan2VecRampSimd (b.vec P) out0 out1 inp g s g' s' n m =
        .ok ((), overwrite (overwrite m out0 n.toNat y) out1 n.toNat y') ∧
      pan2VecRamp (b.env P) out0 out1 inp g s g' s' n m =
        .ok ((), overwrite (overwrite m out0 n.toNat z) out1 n.toNat z') ∧
      ∀ i < n.toNat, Same binary32 (y i) (z i) ∧ Same binary32 (y' i) (z' i) := by
  have h8 : b.target = .avxFloat → Eight binary32 (b.env P) := fun _ => eight32 b P
  refine ⟨_, _, _, _, pan2_ramp_simd_ok b.target (b.env P) hn hmul a0 a1 ai hdis hin h0 h1 p0 p1,
    pan2_ramp_scalar_ok (b.env P) hn hdis hin h0 h1 p0 p1, fun i hi => ?_⟩
  obtain ⟨f1, v1⟩ := panRamp_exact b.target (b.adds P) h8 hg hs i (hr.mono hi.le)
  obtain ⟨f1', v1'⟩ := panRamp_exact b.target (b.adds P) h8 hg' hs' i (hr'.mono hi.le)
  obtain ⟨-, f2, v2⟩ := C87_ramp_float b P hg hs i (hr.mono hi.le)
  obtain ⟨-, f2', v2'⟩ := C87_ramp_float b P hg' hs' i (hr'.mono hi.le)
  have e : (b.env P).L.mul = binary32.mul := lane_mul32' b hb P
  show Same binary32 ((b.env P).L.mul _ _) (binary32.mul _ _) ∧ Same binary32 ((b.env P).L.mul _ _) (binary32.mul _ _)
  rw [e]
  exact ⟨same_mul (hx i hi) f1 f2 (same_of_real binary32 f1 f2 (v1.trans v2.symm)),
    same_mul (hx i hi) f1' f2' (same_of_real binary32 f1' f2' (v1'.trans v2'.symm))⟩

/-- Panning `double`s with slopes: both versions give the same numbers, without a condition on `float`s. -/
theorem C87_pan_double (b : Build64) (P : Platform 64) {m : Mem (BitVec 64)}
    {out0 out1 inp : Nat} {n : BitVec 32} {x : ℕ → BitVec 64} {g s g' s' : BitVec 64} (hn : 0 < n.toNat)
    (hmul : b.target.perLine ∣ n.toNat) (a0 : b.target.align ∣ out0) (a1 : b.target.align ∣ out1)
    (ai : b.target.align ∣ inp) (hdis : Disjoint2 out0 out1 n.toNat) (hin : Holds m inp n.toNat x)
    (h0 : Allocated m out0 n.toNat) (h1 : Allocated m out1 n.toNat)
    (p0 : SafePlacement out0 inp n.toNat) (p1 : SafePlacement out1 inp n.toNat)
    (hg : IsFin binary64 g) (hs : IsFin binary64 s) (hg' : IsFin binary64 g') (hs' : IsFin binary64 s')
    (hx : ∀ i < n.toNat, IsFin binary64 (x i))
    (hr : RampRepresentable binary64 (binary64.toReal g) (binary64.toReal s) n.toNat)
    (hr' : RampRepresentable binary64 (binary64.toReal g') (binary64.toReal s') n.toNat) :
    ∃ y y' z z' : ℕ → BitVec 64,
      pan2VecRampSimd (b.vec P) out0 out1 inp g s g' s' n m =
        .ok ((), overwrite (overwrite m out0 n.toNat y) out1 n.toNat y') ∧
      pan2VecRamp (b.env P) out0 out1 inp g s g' s' n m =
        .ok ((), overwrite (overwrite m out0 n.toNat z) out1 n.toNat z') ∧
      ∀ i < n.toNat, Same binary64 (y i) (z i) ∧ Same binary64 (y' i) (z' i) := by
  have h8 : b.target = .avxFloat → Eight binary64 (b.env P) := fun h => by cases b <;> simp [Build64.target] at h
  refine ⟨_, _, _, _, pan2_ramp_simd_ok b.target (b.env P) hn hmul a0 a1 ai hdis hin h0 h1 p0 p1,
    pan2_ramp_scalar_ok (b.env P) hn hdis hin h0 h1 p0 p1, fun i hi => ?_⟩
  obtain ⟨f1, v1⟩ := panRamp_exact b.target (b.adds P) h8 hg hs i (hr.mono hi.le)
  obtain ⟨f1', v1'⟩ := panRamp_exact b.target (b.adds P) h8 hg' hs' i (hr'.mono hi.le)
  obtain ⟨f2, v2⟩ := isRampExact (scalarRamp_ex (b.adds P) hg hs i (hr.mono hi.le).ok)
  obtain ⟨f2', v2'⟩ := isRampExact (scalarRamp_ex (b.adds P) hg' hs' i (hr'.mono hi.le).ok)
  have e : (b.env P).L.mul = binary64.mul := by cases b <;> rfl
  show Same binary64 ((b.env P).L.mul _ _) (binary64.mul _ _) ∧ Same binary64 ((b.env P).L.mul _ _) (binary64.mul _ _)
  rw [e]
  exact ⟨same_mul (hx i hi) f1 f2 (same_of_real binary64 f1 f2 (v1.trans v2.symm)),
    same_mul (hx i hi) f1' f2' (same_of_real binary64 f1' f2' (v1'.trans v2'.symm))⟩

/-- Fades of `double`s: both versions give the same numbers, given that the increment of a register is a `float`. -/
theorem C87_fade_double (b : Build64) (P : Platform 64) {m : Mem (BitVec 64)} {out : Nat}
    {a : SArg (BitVec 64)} {n : BitVec 32} {x : ℕ → BitVec 64} {gain slope : BitVec 64} (hn : 0 < n.toNat)
    (hmul : b.target.perLine ∣ n.toNat) (hoal : b.target.align ∣ out) (hout : Allocated m out n.toNat)
    (ha : SimdSupplies (b.vec P) b.target.align m out n.toNat a x)
    (ga : ScalarSupplies (b.env P).S m out n.toNat a x) (hg : IsFin binary64 gain) (hs : IsFin binary64 slope)
    (hx : ∀ i < n.toNat, IsFin binary64 (x i))
    (hf : Representable binary32 (b.target.size * binary64.toReal slope))
    (hr : RampRepresentable binary64 (binary64.toReal gain) (binary64.toReal slope) n.toNat) :
    ∃ y z : ℕ → BitVec 64,
      BinOp.times.vecSimd (b.vec P) out a (.ramp gain slope) n m = .ok ((), overwrite m out n.toNat y) ∧
      BinOp.times.vec (b.env P).S out a (.ramp gain slope) n m = .ok ((), overwrite m out n.toNat z) ∧
      ∀ i < n.toNat, Same binary64 (y i) (z i) := by
  refine ⟨_, _, C02_binary_simd b.target (b.env P) .times hn hmul hoal hout ha fun i _ => rfl,
    C02_binary_scalar (b.env P).S .times hn hout ga fun i _ => rfl, fun i hi => ?_⟩
  obtain ⟨⟨f1, v1⟩, f2, v2⟩ := C87_ramp_double b P hg hs i hf (hr.mono hi.le)
  have e : (b.env P).L.mul = binary64.mul := by cases b <;> rfl
  show Same binary64 ((b.env P).L.mul _ _) (binary64.mul _ _)
  rw [e]
  exact same_mul (hx i hi) f1 f2 (same_of_real binary64 f1 f2 (v1.trans v2.symm))

/-! ## Examples -/

theorem one_float : IsFin binary32 0x3f800000#32 ∧ binary32.toReal 0x3f800000#32 = 1 := by
  obtain ⟨h1, h2⟩ := val32 (x := 0x3f800000#32) 1 (by decide +kernel)
  exact ⟨h1, by rw [h2]; norm_num⟩

theorem slope_float : IsFin binary32 0xbc800000#32 ∧ binary32.toReal 0xbc800000#32 = -1 / 64 := by
  obtain ⟨h1, h2⟩ := val32 (x := 0xbc800000#32) (-1 / 64) (by decide +kernel)
  exact ⟨h1, by rw [h2]; norm_num⟩

/-- The fade from 1 to 0 in 64 steps. -/
theorem fade64 : RampRepresentable binary32 (binary32.toReal 0x3f800000#32) (binary32.toReal 0xbc800000#32) 64 := by
  rw [one_float.2, slope_float.2]
  have := C87_which_float 64 (-1) 6 64 (by decide) (by norm_num)
  norm_num at this ⊢
  exact this

theorem perLine64 (b : Build32) : b.target.perLine ∣ 64 := by
  have h : ∀ t : Target, t.perLine ∣ 64 := by intro t; cases t <;> first | decide | exact (show 16 ∣ 64 by decide)
  exact h _

/-- A fade-out of 64 samples in place, in every build with a multiplication. -/
example (b : Build32) (hb : multiplies b = true) (P : Platform 32) (x : BitVec 32) (hx : IsFin binary32 x) :
    ∃ y z : ℕ → BitVec 32,
      BinOp.times.vecSimd (b.vec P) 0 (.ptr 0) (.ramp 0x3f800000#32 0xbc800000#32) 64#32
        (fun i => if i < 64 then some x else none) =
          .ok ((), overwrite (fun i => if i < 64 then some x else none) 0 64 y) ∧
      BinOp.times.vec (b.env P).S 0 (.ptr 0) (.ramp 0x3f800000#32 0xbc800000#32) 64#32
        (fun i => if i < 64 then some x else none) =
          .ok ((), overwrite (fun i => if i < 64 then some x else none) 0 64 z) ∧
      ∀ i < 64, Same binary32 (y i) (z i) := by
  have hm : Holds (fun i => if i < 64 then some x else none) 0 64 fun _ => x := fun i hi => by
    show (if 0 + i < 64 then some x else none) = some x
    rw [if_pos (by omega)]
  exact C87_fade_float b hb P (n := 64#32) (x := fun _ => x) (by decide) (perLine64 b) (dvd_zero _)
    (fun i hi => by have := hm i hi; simp only at this; rw [this]; rfl)
    ⟨dvd_zero _, hm, .inl le_rfl⟩ ⟨hm, .inl le_rfl⟩ one_float.1 slope_float.1 (fun _ _ => hx) fade64

/-- With a slope of 0.1 the versions differ: from 1, after four steps, the scalar loop has 1.4000001 and the SSE loop 1.4. -/
theorem C87_negation (P : Platform 32) (s : Bool) (f : Sse.Flags) :
    scalarRamp ((Build32.sse s f).env P).S 0x3f800000#32 0x3dcccccd#32 4 = 0x3fb33334#32 ∧
    simdRamp ((Build32.sse s f).vec P) 0x3f800000#32 0x3dcccccd#32 4 = 0x3fb33333#32 := by
  have hS := ((Build32.sse s f).adds P).S
  have hL := ((Build32.sse s f).adds P).L
  constructor
  · rw [scalarRamp, scalarRamp, scalarRamp, scalarRamp, scalarRamp, hS, hS, hS, hS]
    decide +kernel
  · have h : ∀ B S : BitVec 32, simdRamp ((Build32.sse s f).vec P) B S 4 =
        ((Build32.sse s f).env P).L.add B (((Build32.sse s f).env P).S.add
          (((Build32.sse s f).env P).S.add S S) (((Build32.sse s f).env P).S.add S S)) := fun B S => by
      have e : simdRamp ((Build32.sse s f).vec P) B S 4 = simdRampReg ((Build32.sse s f).vec P) B S (4 / 4)
          ⟨4 % 4, Nat.mod_lt 4 (show 0 < 4 by decide)⟩ := rfl
      rw [e]
      rfl
    rw [h, hS, hS, hL]
    decide +kernel

end Nova
