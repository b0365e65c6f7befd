import Verif.Float.Convert
import Verif.Float.Track
import Verif.Lemmas.FloatSums
import Verif.Props.C13_Ramps

/-!
# Ramps in floating point (helper lemmas, no properties)
-/

namespace Nova
open FP Finset

variable {w : Nat} {F : Fmt w}

/-- `r` is `p * base + k * slope` computed with at most `d` additions. -/
def Rmp (F : Fmt w) (B s : ℝ) (p k d : ℕ) (r : BitVec w) : Prop :=
  Acc F d (p * B + k * s) (p * |B| + k * |s|) 0 r

/-- `|base| + k * |slope|`, with the possible growth by rounding, is in range. -/
def RmpOk (F : Fmt w) (B s : ℝ) (k d : ℕ) : Prop := (1 + F.u) ^ d * (|B| + k * |s|) ≤ 2 ^ F.bias

theorem RmpOk.mono {B s : ℝ} {k d k' d' : ℕ} (h : RmpOk F B s k d) (hk : k' ≤ k) (hd : d' ≤ d) : RmpOk F B s k' d' := by
  refine le_trans (mul_le_mul (Acc.pow_mono F hd) ?_ ?_ ?_) h
  · have : (k' : ℝ) ≤ k := by exact_mod_cast hk
    have := mul_le_mul_of_nonneg_right this (abs_nonneg s)
    linarith
  · positivity
  · exact zero_le_one.trans (Acc.one_le F d)

namespace Rmp
variable {B s : ℝ} {p k d q l d' D K : ℕ} {r t : BitVec w}

theorem mono (h : Rmp F B s p k d r) (hd : d ≤ d') : Rmp F B s p k d' r := Acc.mono h hd

theorem add_same (hr : Rmp F B s p k d r) (hs : Rmp F B s q l d t) (hM : RmpOk F B s (k + l) d) (hp : p + q ≤ 1) :
    Rmp F B s (p + q) (k + l) (d + 1) (F.add r t) := by
  refine (Acc.add hr hs ?_).congr ?_ ?_ (by ring)
  · refine le_trans (mul_le_mul_of_nonneg_left ?_ (zero_le_one.trans (Acc.one_le F d))) hM
    have : ((p : ℝ) + q) ≤ 1 := by exact_mod_cast hp
    have := mul_le_mul_of_nonneg_right this (abs_nonneg B)
    push_cast
    linarith
  · push_cast; ring
  · push_cast; ring

/-- Sum of two partial ramps. -/
theorem add (hr : Rmp F B s p k d r) (hs : Rmp F B s q l d' t) (hM : RmpOk F B s K D) (hp : p + q ≤ 1)
    (hk : k + l ≤ K) (hd : max d d' ≤ D) : Rmp F B s (p + q) (k + l) (max d d' + 1) (F.add r t) :=
  add_same (hr.mono (le_max_left _ _)) (hs.mono (le_max_right _ _)) (hM.mono hk hd) hp

theorem start (h : F.isFinite r = true) : Rmp F (F.toReal r) s 1 0 0 r :=
  (Acc.exact h).congr (by push_cast; ring) (by push_cast; ring) rfl

theorem slope (h : F.isFinite r = true) : Rmp F B (F.toReal r) 0 1 0 r :=
  (Acc.exact h).congr (by push_cast; ring) (by push_cast; ring) rfl

theorem zero : Rmp F B s 0 0 0 F.posZero :=
  (Acc.zero 0).congr (by push_cast; ring) (by push_cast; ring) rfl

end Rmp

variable {E : Env (BitVec w)} {base slope : BitVec w}

theorem diff_acc (hE : Adds F E) {B : ℝ} {D : ℕ} (hs : F.isFinite slope = true) :
    ∀ k, k ≤ D → RmpOk F B (F.toReal slope) k D → Rmp F B (F.toReal slope) 0 k k (Base.diff E.S slope k)
  | 0, _, _ => by rw [Base.diff, hE.zS]; exact Rmp.zero
  | k + 1, hk, hM => by
    rw [Base.diff, hE.S]
    have := (diff_acc hE hs k (by omega) (hM.mono (by omega) le_rfl)).add (Rmp.slope (B := B) hs) hM (by omega) le_rfl
      (by rw [max_eq_left (Nat.zero_le k)]; omega)
    rw [max_eq_left (Nat.zero_le k)] at this
    exact this

/-- `slope * 8` on AVX. -/
def MulEight (F : Fmt w) (E : Env (BitVec w)) : Prop :=
  ∀ s, F.isFinite s = true → 8 * |F.toReal s| ≤ 2 ^ F.bias →
    F.isFinite (E.S.mul s (E.S.lit 8)) = true ∧ F.toReal (E.S.mul s (E.S.lit 8)) = 8 * F.toReal s

/-- `set_slope`: the lanes. -/
theorem setSlope_lane_acc (t : Target) (hE : Adds F E) (hb : F.isFinite base = true) (hs : F.isFinite slope = true)
    (l : Fin (t.vec E).size) (hM : RmpOk F (F.toReal base) (F.toReal slope) l t.size) :
    Rmp F (F.toReal base) (F.toReal slope) 1 l t.size (((t.vec E).setSlope base slope).1 l) := by
  have b0 : Rmp F (F.toReal base) (F.toReal slope) 1 0 0 base := Rmp.start hb
  have s1 : Rmp F (F.toReal base) (F.toReal slope) 0 1 0 slope := Rmp.slope hs
  have gen : ∀ l : Fin 4, RmpOk F (F.toReal base) (F.toReal slope) l 4 →
      Rmp F (F.toReal base) (F.toReal slope) 1 l 4 ((Base.setSlope E.S 4 base slope).1 l) := by
    intro l hM
    show Rmp _ _ _ _ _ _ (E.S.add base (Base.diff E.S slope l))
    rw [hE.S]
    have hd := diff_acc hE (B := F.toReal base) hs l (by omega) hM
    have := b0.add hd hM (by omega) (by omega) (by omega)
    rw [Nat.zero_add] at this
    exact this.mono (by omega)
  cases t with
  | genericFloat => exact gen l hM
  | genericDouble => exact gen l hM
  | sse a b =>
    revert hM l
    apply lanes4_forall (P := fun l v => RmpOk F (F.toReal base) (F.toReal slope) l 4 →
      Rmp F (F.toReal base) (F.toReal slope) 1 l 4 v)
    · intro hM; exact b0.mono (by omega)
    · intro hM; rw [hE.S]
      exact (b0.add s1 hM (by omega) (by omega) (by simp)).mono (by simp)
    · intro hM; rw [hE.S, hE.S]
      have a := s1.add s1 hM (by omega) (by omega) (by simp)
      exact (b0.add a hM (by omega) (by omega) (by simp)).mono (by simp)
    · intro hM; rw [hE.S, hE.S, hE.S]
      have a := s1.add s1 hM (by omega) (by omega) (by simp)
      have c := b0.add a hM (by omega) (by omega) (by simp)
      exact (c.add s1 hM (by omega) (by omega) (by simp)).mono (by simp)
  | sse2 =>
    revert hM l
    apply lanes2_forall (P := fun l v => RmpOk F (F.toReal base) (F.toReal slope) l 2 →
      Rmp F (F.toReal base) (F.toReal slope) 1 l 2 v)
    · intro hM; exact b0.mono (by omega)
    · intro hM; rw [hE.S]
      exact (b0.add s1 hM (by omega) (by omega) (by simp)).mono (by simp)
  | avxFloat =>
    have chain : ∀ k, k < 8 → RmpOk F (F.toReal base) (F.toReal slope) k 8 →
        Rmp F (F.toReal base) (F.toReal slope) 1 k k (scalarRamp E.S base slope k) := by
      intro k
      induction k with
      | zero => intro _ _; exact b0
      | succ k ih =>
        intro hk hM
        rw [scalarRamp, hE.S]
        have := (ih (by omega) (hM.mono (by omega) le_rfl)).add s1 hM (by omega) (by omega) (by omega)
        rw [max_eq_left (Nat.zero_le k)] at this
        exact this
    revert hM l
    apply lanes8_forall (P := fun l v => RmpOk F (F.toReal base) (F.toReal slope) l 8 →
      Rmp F (F.toReal base) (F.toReal slope) 1 l 8 v) <;>
      intro hM <;> refine (chain _ (by omega) hM).mono (by omega)
  | avxDouble =>
    revert hM l
    apply lanes4_forall (P := fun l v => RmpOk F (F.toReal base) (F.toReal slope) l 4 →
      Rmp F (F.toReal base) (F.toReal slope) 1 l 4 v)
    · intro hM; exact b0.mono (by omega)
    · intro hM; rw [hE.S]
      exact (b0.add s1 hM (by omega) (by omega) (by simp)).mono (by simp)
    · intro hM; rw [hE.S, hE.S]
      have a := b0.add s1 hM (by omega) (by omega) (by simp)
      exact (a.add s1 hM (by omega) (by omega) (by simp)).mono (by simp)
    · intro hM; rw [hE.S, hE.S, hE.S]
      have a := b0.add s1 hM (by omega) (by omega) (by simp)
      have c := a.add s1 hM (by omega) (by omega) (by simp)
      exact (c.add s1 hM (by omega) (by omega) (by simp)).mono (by simp)
  | neon =>
    revert hM l
    apply lanes4_forall (P := fun l v => RmpOk F (F.toReal base) (F.toReal slope) l 4 →
      Rmp F (F.toReal base) (F.toReal slope) 1 l 4 v)
    · intro hM; exact b0.mono (by omega)
    · intro hM; rw [hE.S]
      exact (b0.add s1 hM (by omega) (by omega) (by simp)).mono (by simp)
    · intro hM; rw [hE.S, hE.S]
      have a := b0.add s1 hM (by omega) (by omega) (by simp)
      exact (a.add s1 hM (by omega) (by omega) (by simp)).mono (by simp)
    · intro hM; rw [hE.S, hE.S, hE.S]
      have a := b0.add s1 hM (by omega) (by omega) (by simp)
      have c := a.add s1 hM (by omega) (by omega) (by simp)
      exact (c.add s1 hM (by omega) (by omega) (by simp)).mono (by simp)
  | altivec =>
    revert hM l
    apply lanes4_forall (P := fun l v => RmpOk F (F.toReal base) (F.toReal slope) l 4 →
      Rmp F (F.toReal base) (F.toReal slope) 1 l 4 v)
    · intro hM; exact b0.mono (by omega)
    · intro hM; rw [hE.S]
      exact (b0.add s1 hM (by omega) (by omega) (by simp)).mono (by simp)
    · intro hM; rw [hE.S, hE.S]
      have a := b0.add s1 hM (by omega) (by omega) (by simp)
      exact (a.add s1 hM (by omega) (by omega) (by simp)).mono (by simp)
    · intro hM; rw [hE.S, hE.S, hE.S]
      have a := b0.add s1 hM (by omega) (by omega) (by simp)
      have c := a.add s1 hM (by omega) (by omega) (by simp)
      exact (c.add s1 hM (by omega) (by omega) (by simp)).mono (by simp)

/-- `set_slope`: the increment to the next register. -/
theorem setSlope_step_acc (t : Target) (hE : Adds F E) (h8 : t = .avxFloat → MulEight F E) (hs : F.isFinite slope = true)
    (hM : RmpOk F (F.toReal base) (F.toReal slope) t.size t.size) :
    Rmp F (F.toReal base) (F.toReal slope) 0 t.size t.size ((t.vec E).setSlope base slope).2 := by
  have s1 : Rmp F (F.toReal base) (F.toReal slope) 0 1 0 slope := Rmp.slope hs
  cases t with
  | genericFloat => exact diff_acc hE (B := F.toReal base) hs 4 le_rfl hM
  | genericDouble => exact diff_acc hE (B := F.toReal base) hs 4 le_rfl hM
  | sse a b =>
    show Rmp _ _ _ _ _ _ (E.S.add (E.S.add slope slope) (E.S.add slope slope))
    simp only [hE.S]
    have a := s1.add s1 hM (by omega) (by simp [Target.size]) (by simp [Target.size])
    exact (a.add a hM (by omega) (by simp [Target.size]) (by simp [Target.size])).mono (by simp [Target.size])
  | sse2 =>
    show Rmp _ _ _ _ _ _ (E.S.add slope slope)
    simp only [hE.S]
    exact (s1.add s1 hM (by omega) (by simp [Target.size]) (by simp [Target.size])).mono (by simp [Target.size])
  | avxFloat =>
    have h0 : 8 * |F.toReal slope| ≤ 2 ^ F.bias := by
      refine le_trans ?_ hM
      have := Acc.one_le F 8
      have h2 : 0 ≤ |F.toReal base| + 8 * |F.toReal slope| := by positivity
      have := mul_le_mul_of_nonneg_right this h2
      have h3 := abs_nonneg (F.toReal base)
      simp only [Target.size]
      push_cast
      linarith
    obtain ⟨f, e⟩ := h8 rfl slope hs h0
    have := Acc.exact f
    rw [e] at this
    refine (this.mono (Nat.zero_le 8)).congr ?_ ?_ rfl
    · simp [Target.size]
    · rw [abs_mul]; simp [Target.size]
  | avxDouble =>
    show Rmp _ _ _ _ _ _ (E.S.add (E.S.add (E.S.add slope slope) slope) slope)
    simp only [hE.S]
    have a := s1.add s1 hM (by omega) (by simp [Target.size]) (by simp [Target.size])
    have c := a.add s1 hM (by omega) (by simp [Target.size]) (by simp [Target.size])
    exact (c.add s1 hM (by omega) (by simp [Target.size]) (by simp [Target.size])).mono (by simp [Target.size])
  | neon =>
    show Rmp _ _ _ _ _ _ (E.S.add (E.S.add (E.S.add slope slope) slope) slope)
    simp only [hE.S]
    have a := s1.add s1 hM (by omega) (by simp [Target.size]) (by simp [Target.size])
    have c := a.add s1 hM (by omega) (by simp [Target.size]) (by simp [Target.size])
    exact (c.add s1 hM (by omega) (by simp [Target.size]) (by simp [Target.size])).mono (by simp [Target.size])
  | altivec =>
    show Rmp _ _ _ _ _ _ (E.S.add (E.S.add (E.S.add slope slope) slope) slope)
    simp only [hE.S]
    have a := s1.add s1 hM (by omega) (by simp [Target.size]) (by simp [Target.size])
    have c := a.add s1 hM (by omega) (by simp [Target.size]) (by simp [Target.size])
    exact (c.add s1 hM (by omega) (by simp [Target.size]) (by simp [Target.size])).mono (by simp [Target.size])

/-- A ramp in a scalar loop. -/
theorem scalarRamp_acc (hE : Adds F E) (hb : F.isFinite base = true) (hs : F.isFinite slope = true) (i : ℕ)
    (hM : RmpOk F (F.toReal base) (F.toReal slope) i i) :
    Rmp F (F.toReal base) (F.toReal slope) 1 i i (scalarRamp E.S base slope i) := by
  induction i with
  | zero => exact Rmp.start hb
  | succ i ih =>
    rw [scalarRamp, hE.S]
    have := (ih (hM.mono (by omega) (by omega))).add (Rmp.slope hs) hM le_rfl (by omega) (by omega)
    rw [max_eq_left (Nat.zero_le i)] at this
    exact this

/-- A register of a ramp in a SIMD loop.  `f` bounds what the conversion of the increment to `float` adds. -/
theorem simdRampReg_acc (t : Target) (hE : Adds F E) (hb : F.isFinite base = true) (hs : F.isFinite slope = true)
    {f : ℝ} (hf : 0 ≤ f) (j : ℕ) (l : Fin (t.vec E).size)
    (hinc : 0 < j → Acc F t.size (t.size * F.toReal slope) (t.size * |F.toReal slope|) f
      (E.viaFloat ((t.vec E).setSlope base slope).2))
    (hM : (1 + F.u) ^ (t.size + j) * (|F.toReal base| + (j * t.size + l : ℕ) * |F.toReal slope| + j * f) ≤ 2 ^ F.bias) :
    Acc F (t.size + j) (F.toReal base + (j * t.size + l : ℕ) * F.toReal slope)
      (|F.toReal base| + (j * t.size + l : ℕ) * |F.toReal slope|) (j * f) (simdRampReg (t.vec E) base slope j l) := by
  have hv : (t.vec E).viaFloat = E.viaFloat := by cases t <;> rfl
  have hjf : 0 ≤ (j : ℝ) * f := by positivity
  have h0 : RmpOk F (F.toReal base) (F.toReal slope) l t.size := by
    refine le_trans (mul_le_mul (Acc.pow_mono F (Nat.le_add_right _ j)) ?_ (by positivity)
      (zero_le_one.trans (Acc.one_le F _))) hM
    have : ((l : ℕ) : ℝ) ≤ (j * t.size + l : ℕ) := by exact_mod_cast Nat.le_add_left _ _
    have := mul_le_mul_of_nonneg_right this (abs_nonneg (F.toReal slope))
    linarith
  have hl := setSlope_lane_acc t hE hb hs l h0
  have := Acc.fold (F := F) (g := (t.vec E).lane.add) (by rw [t.lane_eq]; exact hE.L)
    (acc := fun i => simdRampReg (t.vec E) base slope i l) (x := fun _ => E.viaFloat ((t.vec E).setSlope base slope).2)
    (T' := fun _ => t.size * F.toReal slope) (B' := fun _ => t.size * |F.toReal slope|) (f' := fun _ => f) hl j
    (fun i _ => by
      show (t.vec E).lane.add _ ((t.vec E).setVec ((t.vec E).viaFloat _) l) = _
      rw [(t.lawful E).setVec, hv])
    (fun i hi => hinc (by omega)) (by
      refine le_trans (le_of_eq ?_) hM
      simp only [Finset.sum_const, Finset.card_range, nsmul_eq_mul]
      push_cast
      ring)
  refine this.congr ?_ ?_ ?_
  · simp only [Finset.sum_const, Finset.card_range, nsmul_eq_mul]; push_cast; ring
  · simp only [Finset.sum_const, Finset.card_range, nsmul_eq_mul]; push_cast; ring
  · simp only [Finset.sum_const, Finset.card_range, nsmul_eq_mul]; ring

theorem lit8 : litD32 8 = 0x41000000#32 := by decide +kernel

theorem mul_eight32 (b : Build32) (P : Platform 32) : MulEight binary32 (b.env P) := by
  intro s hs h
  have h8 : (b.env P).S.lit = litD32 := rfl
  have hm : (b.env P).S.mul = binary32.mul := rfl
  have v8 : binary32.toReal 0x41000000#32 = 8 := by
    have := isVal_value (x := 0x41000000#32) (q := 8) (by decide +kernel)
    exact_mod_cast this
  rw [h8, hm, lit8]
  obtain ⟨t, m, hc, h1, h2⟩ := code_decomp 23 (binary32.code s)
  have hmag : mag 23 (binary32.code s) = m * 2 ^ t := by rw [hc]; exact mag_decomp 23 h1.le h2
  have hv : |binary32.toReal s| = (m : ℝ) * 2 ^ t / 2 ^ 149 := by
    have hq : (0 : ℝ) ≤ (mag 23 (binary32.code s) : ℝ) / 2 ^ 149 := div_nonneg (Nat.cast_nonneg _) (pow_nonneg zero_le_two _)
    have e : binary32.toReal s = (if binary32.neg s = true then -1 else 1) * ((mag 23 (binary32.code s) : ℝ) / 2 ^ 149) := binary32.toReal_eq s
    rw [e, abs_mul, show |(if binary32.neg s = true then -1 else 1 : ℝ)| = 1 by
      cases binary32.neg s <;> simp, one_mul, abs_of_nonneg hq, hmag, Nat.cast_mul, Nat.cast_pow, Nat.cast_ofNat]
  have hp : |binary32.toReal s * binary32.toReal 0x41000000#32| = (m : ℝ) * 2 ^ (t + 3) / 2 ^ 149 := by
    rw [v8, abs_mul, hv, show |(8 : ℝ)| = 8 by norm_num, pow_add]; ring
  have := mul_exact32 hs (show IsFin binary32 0x41000000#32 by decide) (m := m) (s := t + 3) h1.le (by
    rw [← hp, v8, abs_mul, show |(8 : ℝ)| = 8 by norm_num, mul_comm]; rw [bias32] at h; exact h) hp
  rw [v8] at this
  exact ⟨this.1, this.2.trans (mul_comm _ _)⟩

end Nova
