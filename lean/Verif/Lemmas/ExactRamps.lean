import Verif.Lemmas.Fades
import Verif.SpecSame

/-!
# Ramps without rounding (helper lemmas, no properties)
-/

namespace Nova
open FP Spec

variable {w : Nat} {F : Fmt w}

/-- A sum that is a number of the format is computed without rounding. -/
theorem add_exact {x y : BitVec w} (hx : F.isFinite x = true) (hy : F.isFinite y = true)
    (h : Representable F (F.toReal x + F.toReal y)) :
    F.isFinite (F.add x y) = true ∧ F.toReal (F.add x y) = F.toReal x + F.toReal y := by
  obtain ⟨r, hr, he⟩ := h
  have hu : F.units r = F.units x + F.units y := by
    unfold Fmt.toReal at he
    rw [← add_div, div_left_inj' (by positivity)] at he
    exact_mod_cast he
  have hsum : F.toReal x + F.toReal y = F.toReal r := he.symm
  rw [hsum, F.add_finite hx hy, ← hu]
  by_cases h0 : F.units r = 0
  · rw [if_pos h0]
    refine ⟨F.isFinite_pack _ F.infCode_pos, ?_⟩
    rw [F.toReal_pack _ F.infCode_pos, mag_zero]
    unfold Fmt.toReal
    rw [h0]; simp
  · rw [if_neg h0]
    have hc : F.code r < F.infCode := by
      unfold IsFin Fmt.isFinite at hr; simpa using hr
    rw [F.packRnd_mag _ (by decide) hc.le (by rw [Nat.mul_one]; exact F.natAbs_units r)]
    refine ⟨F.isFinite_pack _ hc, ?_⟩
    rw [F.toReal_pack _ hc, F.toReal_eq]
    have : decide (F.units r < 0) = F.neg r := by
      have hn := F.natAbs_units r
      unfold Fmt.units at h0 ⊢
      cases hneg : F.neg r
      · simp only [hneg] at h0 ⊢
        rw [decide_eq_false]; simp
      · simp only [hneg] at h0 ⊢
        rw [decide_eq_true]
        simp at h0 ⊢
        omega
    rw [this]

theorem mul_exact {x y : BitVec w} (hx : F.isFinite x = true) (hy : F.isFinite y = true)
    (h : Representable F (F.toReal x * F.toReal y)) :
    F.isFinite (F.mul x y) = true ∧ F.toReal (F.mul x y) = F.toReal x * F.toReal y := by
  obtain ⟨r, hr, he⟩ := h
  have hc : F.code r < F.infCode := by
    unfold IsFin Fmt.isFinite at hr; simpa using hr
  have hpos : (0 : ℝ) < 2 ^ F.scale := by positivity
  have hm : mag F.mb (F.code x) * mag F.mb (F.code y) = mag F.mb (F.code r) * 2 ^ F.scale := by
    have h2 : |F.toReal r| = |F.toReal x| * |F.toReal y| := by rw [he, abs_mul]
    have ab : ∀ z : BitVec w, |F.toReal z| = (mag F.mb (F.code z) : ℝ) / 2 ^ F.scale := by
      intro z
      rw [F.toReal_eq, abs_mul, show |(if F.neg z = true then -1 else 1 : ℝ)| = 1 by cases F.neg z <;> simp, one_mul,
        abs_of_nonneg (by positivity)]
    rw [ab, ab, ab, div_mul_div_comm, div_eq_div_iff hpos.ne' (by positivity)] at h2
    have h3 : (mag F.mb (F.code r) : ℝ) * 2 ^ F.scale = mag F.mb (F.code x) * mag F.mb (F.code y) := by
      have : (2 : ℝ) ^ F.scale ≠ 0 := hpos.ne'
      apply mul_right_cancel₀ this
      linarith
    exact_mod_cast h3.symm
  rw [F.mul_finite hx hy, F.packRnd_mag _ (Nat.two_pow_pos _) hc.le hm]
  refine ⟨F.isFinite_pack _ hc, ?_⟩
  rw [F.toReal_pack _ hc, F.toReal_eq x, F.toReal_eq y]
  have h4 : ((mag F.mb (F.code r) : ℕ) : ℝ) / 2 ^ F.scale =
      (mag F.mb (F.code x) : ℝ) / 2 ^ F.scale * ((mag F.mb (F.code y) : ℝ) / 2 ^ F.scale) := by
    rw [div_mul_div_comm, div_eq_div_iff hpos.ne' (by positivity)]
    have : (mag F.mb (F.code x) : ℝ) * mag F.mb (F.code y) = mag F.mb (F.code r) * 2 ^ F.scale := by exact_mod_cast hm
    rw [this]; ring
  rw [h4]
  cases F.neg x <;> cases F.neg y <;> simp

/-- The literal `8` and the multiplication by it. -/
def Eight (F : Fmt w) (E : Env (BitVec w)) : Prop :=
  (∀ s, E.S.mul s (E.S.lit 8) = F.mul s (E.S.lit 8)) ∧ F.isFinite (E.S.lit 8) = true ∧ F.toReal (E.S.lit 8) = 8

theorem eight32 (b : Build32) (P : Platform 32) : Eight binary32 (b.env P) := by
  have h8 : (b.env P).S.lit = litD32 := rfl
  refine ⟨fun _ => rfl, ?_, ?_⟩
  · rw [h8, lit8]; decide
  · rw [h8, lit8]
    have := isVal_value (x := 0x41000000#32) (q := 8) (by decide +kernel)
    exact_mod_cast this

/-- `r` is exactly `p * base + k * slope`. -/
def Ex (F : Fmt w) (B s : ℝ) (p k : ℕ) (r : BitVec w) : Prop :=
  F.isFinite r = true ∧ F.toReal r = p * B + k * s

/-- All values on the way are numbers of the format. -/
def ExOk (F : Fmt w) (B s : ℝ) (K : ℕ) : Prop := ∀ p k : ℕ, p ≤ 1 → k ≤ K → Representable F (p * B + k * s)

theorem ExOk.mono {B s : ℝ} {k k' : ℕ} (h : ExOk F B s k) (hk : k' ≤ k) : ExOk F B s k' :=
  fun p l hp hl => h p l hp (hl.trans hk)

namespace Ex
variable {B s : ℝ} {p k q l K : ℕ} {r t : BitVec w}

theorem add (hr : Ex F B s p k r) (hs : Ex F B s q l t) (hM : ExOk F B s K) (hp : p + q ≤ 1) (hk : k + l ≤ K) :
    Ex F B s (p + q) (k + l) (F.add r t) := by
  have e : F.toReal r + F.toReal t = (p + q : ℕ) * B + (k + l : ℕ) * s := by
    rw [hr.2, hs.2]; push_cast; ring
  have := add_exact hr.1 hs.1 (by rw [e]; exact hM _ _ hp hk)
  rw [e] at this
  exact this

theorem start (h : F.isFinite r = true) : Ex F (F.toReal r) s 1 0 r := ⟨h, by push_cast; ring⟩

theorem slope (h : F.isFinite r = true) : Ex F B (F.toReal r) 0 1 r := ⟨h, by push_cast; ring⟩

theorem zero : Ex F B s 0 0 F.posZero := by
  refine ⟨by rw [Fmt.posZero]; exact F.isFinite_pack _ F.infCode_pos, ?_⟩
  rw [Fmt.posZero, F.toReal_pack _ F.infCode_pos, mag_zero]; simp

end Ex

variable {E : Env (BitVec w)} {base slope : BitVec w}

theorem diff_ex (hE : Adds F E) {B : ℝ} (hs : F.isFinite slope = true) :
    ∀ k, ExOk F B (F.toReal slope) k → Ex F B (F.toReal slope) 0 k (Base.diff E.S slope k)
  | 0, _ => by rw [Base.diff, hE.zS]; exact Ex.zero
  | k + 1, hM => by
    rw [Base.diff, hE.S]
    exact (diff_ex hE hs k (hM.mono (by omega))).add (Ex.slope (B := B) hs) hM (by omega) le_rfl

/-- `set_slope`: the lanes. -/
theorem setSlope_lane_ex (t : Target) (hE : Adds F E) (hb : F.isFinite base = true) (hs : F.isFinite slope = true)
    (l : Fin (t.vec E).size) (hM : ExOk F (F.toReal base) (F.toReal slope) l) :
    Ex F (F.toReal base) (F.toReal slope) 1 l (((t.vec E).setSlope base slope).1 l) := by
  have b0 : Ex F (F.toReal base) (F.toReal slope) 1 0 base := Ex.start hb
  have s1 : Ex F (F.toReal base) (F.toReal slope) 0 1 slope := Ex.slope hs
  have gen : ∀ l : Fin 4, ExOk F (F.toReal base) (F.toReal slope) l →
      Ex F (F.toReal base) (F.toReal slope) 1 l ((Base.setSlope E.S 4 base slope).1 l) := by
    intro l hM
    show Ex _ _ _ _ _ (E.S.add base (Base.diff E.S slope l))
    rw [hE.S]
    have hd := diff_ex hE (B := F.toReal base) hs l hM
    have := b0.add hd hM (by omega) (by omega)
    rw [Nat.zero_add] at this
    exact this
  cases t with
  | genericFloat => exact gen l hM
  | genericDouble => exact gen l hM
  | sse a b =>
    revert hM l
    apply lanes4_forall (P := fun l v => ExOk F (F.toReal base) (F.toReal slope) l →
      Ex F (F.toReal base) (F.toReal slope) 1 l v)
    · intro hM; exact b0
    · intro hM; rw [hE.S]
      exact (b0.add s1 hM (by omega) (by omega))
    · intro hM; rw [hE.S, hE.S]
      have a := s1.add s1 hM (by omega) (by omega)
      exact (b0.add a hM (by omega) (by omega))
    · intro hM; rw [hE.S, hE.S, hE.S]
      have a := s1.add s1 hM (by omega) (by omega)
      have c := b0.add a hM (by omega) (by omega)
      exact (c.add s1 hM (by omega) (by omega))
  | sse2 =>
    revert hM l
    apply lanes2_forall (P := fun l v => ExOk F (F.toReal base) (F.toReal slope) l →
      Ex F (F.toReal base) (F.toReal slope) 1 l v)
    · intro hM; exact b0
    · intro hM; rw [hE.S]
      exact (b0.add s1 hM (by omega) (by omega))
  | avxFloat =>
    have chain : ∀ k, k < 8 → ExOk F (F.toReal base) (F.toReal slope) k →
        Ex F (F.toReal base) (F.toReal slope) 1 k (scalarRamp E.S base slope k) := by
      intro k
      induction k with
      | zero => intro _ _; exact b0
      | succ k ih =>
        intro hk hM
        rw [scalarRamp, hE.S]
        have := (ih (by omega) (hM.mono (by omega))).add s1 hM (by omega) (by omega)
        exact this
    revert hM l
    apply lanes8_forall (P := fun l v => ExOk F (F.toReal base) (F.toReal slope) l →
      Ex F (F.toReal base) (F.toReal slope) 1 l v) <;>
      intro hM <;> refine (chain _ (by omega) hM)
  | avxDouble =>
    revert hM l
    apply lanes4_forall (P := fun l v => ExOk F (F.toReal base) (F.toReal slope) l →
      Ex F (F.toReal base) (F.toReal slope) 1 l v)
    · intro hM; exact b0
    · intro hM; rw [hE.S]
      exact (b0.add s1 hM (by omega) (by omega))
    · intro hM; rw [hE.S, hE.S]
      have a := b0.add s1 hM (by omega) (by omega)
      exact (a.add s1 hM (by omega) (by omega))
    · intro hM; rw [hE.S, hE.S, hE.S]
      have a := b0.add s1 hM (by omega) (by omega)
      have c := a.add s1 hM (by omega) (by omega)
      exact (c.add s1 hM (by omega) (by omega))
  | neon =>
    revert hM l
    apply lanes4_forall (P := fun l v => ExOk F (F.toReal base) (F.toReal slope) l →
      Ex F (F.toReal base) (F.toReal slope) 1 l v)
    · intro hM; exact b0
    · intro hM; rw [hE.S]
      exact (b0.add s1 hM (by omega) (by omega))
    · intro hM; rw [hE.S, hE.S]
      have a := b0.add s1 hM (by omega) (by omega)
      exact (a.add s1 hM (by omega) (by omega))
    · intro hM; rw [hE.S, hE.S, hE.S]
      have a := b0.add s1 hM (by omega) (by omega)
      have c := a.add s1 hM (by omega) (by omega)
      exact (c.add s1 hM (by omega) (by omega))
  | altivec =>
    revert hM l
    apply lanes4_forall (P := fun l v => ExOk F (F.toReal base) (F.toReal slope) l →
      Ex F (F.toReal base) (F.toReal slope) 1 l v)
    · intro hM; exact b0
    · intro hM; rw [hE.S]
      exact (b0.add s1 hM (by omega) (by omega))
    · intro hM; rw [hE.S, hE.S]
      have a := b0.add s1 hM (by omega) (by omega)
      exact (a.add s1 hM (by omega) (by omega))
    · intro hM; rw [hE.S, hE.S, hE.S]
      have a := b0.add s1 hM (by omega) (by omega)
      have c := a.add s1 hM (by omega) (by omega)
      exact (c.add s1 hM (by omega) (by omega))

/-- `set_slope`: the increment to the next register. -/
theorem setSlope_step_ex (t : Target) (hE : Adds F E) (h8 : t = .avxFloat → Eight F E) (hs : F.isFinite slope = true)
    (hM : ExOk F (F.toReal base) (F.toReal slope) t.size) :
    Ex F (F.toReal base) (F.toReal slope) 0 t.size ((t.vec E).setSlope base slope).2 := by
  have s1 : Ex F (F.toReal base) (F.toReal slope) 0 1 slope := Ex.slope hs
  cases t with
  | genericFloat => exact diff_ex hE (B := F.toReal base) hs 4 hM
  | genericDouble => exact diff_ex hE (B := F.toReal base) hs 4 hM
  | sse a b =>
    show Ex _ _ _ _ _ (E.S.add (E.S.add slope slope) (E.S.add slope slope))
    simp only [hE.S]
    have a := s1.add s1 hM (by omega) (by simp [Target.size])
    exact (a.add a hM (by omega) (by simp [Target.size]))
  | sse2 =>
    show Ex _ _ _ _ _ (E.S.add slope slope)
    simp only [hE.S]
    exact (s1.add s1 hM (by omega) (by simp [Target.size]))
  | avxFloat =>
    obtain ⟨e, f, v⟩ := h8 rfl
    show Ex _ _ _ _ _ (E.S.mul slope (E.S.lit 8))
    rw [e]
    have h := hM 0 8 (by omega) le_rfl
    have := mul_exact hs f (by rw [v]; convert h using 1; push_cast; ring)
    refine ⟨this.1, ?_⟩
    rw [this.2, v]
    simp [Target.size]; ring
  | avxDouble =>
    show Ex _ _ _ _ _ (E.S.add (E.S.add (E.S.add slope slope) slope) slope)
    simp only [hE.S]
    have a := s1.add s1 hM (by omega) (by simp [Target.size])
    have c := a.add s1 hM (by omega) (by simp [Target.size])
    exact (c.add s1 hM (by omega) (by simp [Target.size]))
  | neon =>
    show Ex _ _ _ _ _ (E.S.add (E.S.add (E.S.add slope slope) slope) slope)
    simp only [hE.S]
    have a := s1.add s1 hM (by omega) (by simp [Target.size])
    have c := a.add s1 hM (by omega) (by simp [Target.size])
    exact (c.add s1 hM (by omega) (by simp [Target.size]))
  | altivec =>
    show Ex _ _ _ _ _ (E.S.add (E.S.add (E.S.add slope slope) slope) slope)
    simp only [hE.S]
    have a := s1.add s1 hM (by omega) (by simp [Target.size])
    have c := a.add s1 hM (by omega) (by simp [Target.size])
    exact (c.add s1 hM (by omega) (by simp [Target.size]))

/-- A ramp in a scalar loop. -/
theorem scalarRamp_ex (hE : Adds F E) (hb : F.isFinite base = true) (hs : F.isFinite slope = true) (i : ℕ)
    (hM : ExOk F (F.toReal base) (F.toReal slope) i) :
    Ex F (F.toReal base) (F.toReal slope) 1 i (scalarRamp E.S base slope i) := by
  induction i with
  | zero => exact Ex.start hb
  | succ i ih =>
    rw [scalarRamp, hE.S]
    exact (ih (hM.mono (by omega))).add (Ex.slope hs) hM le_rfl le_rfl

/-- A register of a ramp in a SIMD loop. -/
theorem regs_ex (t : Target) (hE : Adds F E) (hb : F.isFinite base = true) (hs : F.isFinite slope = true)
    {reg : ℕ → Fin (t.vec E).size → BitVec w} {inc : BitVec w} (l : Fin (t.vec E).size)
    (h0 : reg 0 l = ((t.vec E).setSlope base slope).1 l)
    (hreg : ∀ j, reg (j + 1) l = (t.vec E).lane.add (reg j l) ((t.vec E).setVec inc l))
    (j : ℕ) (hinc : 0 < j → F.isFinite inc = true ∧ F.toReal inc = t.size * F.toReal slope)
    (hM : ExOk F (F.toReal base) (F.toReal slope) (j * t.size + l)) :
    Ex F (F.toReal base) (F.toReal slope) 1 (j * t.size + l) (reg j l) := by
  induction j with
  | zero =>
    rw [h0, Nat.zero_mul, Nat.zero_add]
    exact setSlope_lane_ex t hE hb hs l (hM.mono (by omega))
  | succ j ih =>
    have e : (j + 1) * t.size + (l : ℕ) = j * t.size + l + t.size := by rw [Nat.succ_mul]; omega
    rw [e] at hM ⊢
    obtain ⟨i1, i2⟩ := hinc (Nat.succ_pos j)
    have h1 := ih (fun _ => ⟨i1, i2⟩) (hM.mono (Nat.le_add_right _ _))
    have h2 : Ex F (F.toReal base) (F.toReal slope) 0 t.size inc := ⟨i1, by rw [i2]; push_cast; ring⟩
    rw [hreg, (t.lawful E).setVec, t.lane_eq, hE.L]
    exact h1.add h2 hM le_rfl le_rfl

end Nova
