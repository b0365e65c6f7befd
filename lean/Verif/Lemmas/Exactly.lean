import Verif.SpecExact
import Verif.Lemmas.OrderLanes

/-! # Results without rounding (helper lemmas, no properties) -/

namespace Nova
open FP Spec VecMath

theorem coe_max' (a b : ℝ) : ((max a b : ℝ) : EReal) = max (a : EReal) (b : EReal) :=
  Monotone.map_max (f := fun t : ℝ => (t : EReal)) (fun _ _ h => EReal.coe_le_coe_iff.mpr h)
theorem coe_min' (a b : ℝ) : ((min a b : ℝ) : EReal) = min (a : EReal) (b : EReal) :=
  Monotone.map_min (f := fun t : ℝ => (t : EReal)) (fun _ _ h => EReal.coe_le_coe_iff.mpr h)

section generic
variable {w : Nat} {F : Fmt w}

theorem exactly_of_value {r : BitVec w} {v : ℝ} (h : Num F r) (hv : F.toEReal r = (v : EReal)) : Exactly F r v := by
  rcases Fmt.num_cases h with ⟨-, -, e⟩ | ⟨-, -, e⟩ | ⟨f, -, e⟩
  · rw [e] at hv; exact absurd hv.symm (EReal.coe_ne_bot _)
  · rw [e] at hv; exact absurd hv.symm (EReal.coe_ne_top _)
  · rw [e] at hv; exact ⟨f, by exact_mod_cast hv⟩

theorem Spec.Exactly.value {r : BitVec w} {v : ℝ} (h : Exactly F r v) : Num F r ∧ F.toEReal r = (v : EReal) :=
  ⟨F.isFinite_not_nan h.1, by rw [F.toEReal_of_finite h.1, h.2]⟩

theorem Spec.Exactly.representable {r : BitVec w} {v : ℝ} (h : Exactly F r v) : Representable F v := ⟨r, h.1, h.2⟩

/-- Rounding does not change a number of the format. -/
theorem exactly_of_rounded {r : BitVec w} {v : ℝ} (h : F.IsRndE (v : EReal) r) (hv : Representable F v) : Exactly F r v := by
  obtain ⟨z, hz, e⟩ := hv
  have s : F.IsRndE (v : EReal) z := by
    have := Fmt.IsRndE.self (F.isFinite_not_nan hz)
    rwa [F.toEReal_of_finite hz, e] at this
  refine exactly_of_value h.1 ?_
  rw [le_antisymm (h.mono s le_rfl) (s.mono h le_rfl), F.toEReal_of_finite hz, e]

theorem Spec.Exactly.add {x y : BitVec w} {a b : ℝ} (hx : Exactly F x a) (hy : Exactly F y b) (h : Representable F (a + b)) :
    Exactly F (F.add x y) (a + b) := by
  have := Fmt.add_rounds hx.1 hy.1
  rw [hx.2, hy.2] at this
  exact exactly_of_rounded this.ereal h

theorem Spec.Exactly.negate {x : BitVec w} {a : ℝ} (hx : Exactly F x a) : Exactly F (F.negate x) (-a) :=
  ⟨by unfold IsFin; rw [F.isFinite_negate]; exact hx.1, by rw [F.toReal_negate, hx.2]⟩

theorem Spec.Exactly.sub {x y : BitVec w} {a b : ℝ} (hx : Exactly F x a) (hy : Exactly F y b) (h : Representable F (a - b)) :
    Exactly F (F.sub x y) (a - b) := by
  rw [F.sub_num (F.isFinite_not_nan hx.1) (F.isFinite_not_nan hy.1), sub_eq_add_neg]
  exact hx.add hy.negate (by rwa [← sub_eq_add_neg])

theorem Spec.Exactly.mul {x y : BitVec w} {a b : ℝ} (hx : Exactly F x a) (hy : Exactly F y b) (h : Representable F (a * b)) :
    Exactly F (F.mul x y) (a * b) := by
  have := Fmt.mul_rounds hx.1 hy.1
  rw [hx.2, hy.2] at this
  exact exactly_of_rounded this.ereal h

theorem Spec.Exactly.fma {x y z : BitVec w} {a b c : ℝ} (hx : Exactly F x a) (hy : Exactly F y b) (hz : Exactly F z c)
    (h : Representable F (a * b + c)) : Exactly F (F.fma x y z) (a * b + c) := by
  have := Fmt.fma_rounds hx.1 hy.1 hz.1
  rw [hx.2, hy.2, hz.2] at this
  exact exactly_of_rounded this.ereal h

theorem Spec.Exactly.code_ne {x : BitVec w} {a : ℝ} (hx : Exactly F x a) (h : a ≠ 0) : F.code x ≠ 0 := by
  intro hc
  have := hx.2
  rw [F.toReal_eq, hc, mag_zero] at this
  simp at this
  exact h this.symm

theorem Spec.Exactly.div {x y : BitVec w} {a b : ℝ} (hx : Exactly F x a) (hy : Exactly F y b) (h0 : b ≠ 0)
    (h : Representable F (a / b)) : Exactly F (F.div x y) (a / b) := by
  have := Fmt.div_rounds hx.1 hy.1 (hy.code_ne h0)
  rw [hx.2, hy.2] at this
  exact exactly_of_rounded this.ereal h

theorem abs_real (z : BitVec w) : |F.toReal z| = (mag F.mb (F.code z) : ℝ) / 2 ^ F.scale := by
  rw [F.toReal_eq, abs_mul, show |(if F.neg z = true then -1 else 1 : ℝ)| = 1 by cases F.neg z <;> simp, one_mul,
    abs_of_nonneg (by positivity)]

/-- A square root that is a number of the format is returned. -/
theorem Spec.Exactly.sqrt {x : BitVec w} {a b : ℝ} (hx : Exactly F x a) (hn : F.neg x = false) (hb : 0 ≤ b) (hab : b * b = a)
    (h : Representable F b) : Exactly F (F.sqrt x) b := by
  obtain ⟨z, hz, e⟩ := h
  have hc := F.finite_code hz
  have ha : 0 ≤ a := by rw [← hab]; exact mul_self_nonneg b
  have mz : b = (mag F.mb (F.code z) : ℝ) / 2 ^ F.scale := by rw [← abs_real, e, abs_of_nonneg hb]
  have mx : a = (mag F.mb (F.code x) : ℝ) / 2 ^ F.scale := by rw [← abs_real, hx.2, abs_of_nonneg ha]
  have hp : (0 : ℝ) < 2 ^ F.scale := by positivity
  have hq : mag F.mb (F.code z) * mag F.mb (F.code z) = mag F.mb (F.code x) * 2 ^ F.scale := by
    have : (mag F.mb (F.code z) : ℝ) * mag F.mb (F.code z) = mag F.mb (F.code x) * 2 ^ F.scale := by
      rw [mz, mx] at hab
      field_simp at hab
      linarith
    exact_mod_cast this
  unfold Fmt.sqrt
  rw [F.isFinite_not_nan hx.1, F.isFinite_not_inf hx.1, hn, if_neg (by decide)]
  by_cases h0 : F.isZero x = true
  · rw [if_pos h0]
    have hc0 : F.code x = 0 := by simpa [Fmt.isZero] using h0
    have a0 : a = 0 := by rw [mx, hc0, mag_zero]; simp
    have b0 : b = 0 := by rw [a0] at hab; exact mul_self_eq_zero.mp hab
    rw [b0, ← a0]; exact hx
  · rw [if_neg h0, if_neg (by decide), if_neg (by decide)]
    have hr : isqrt (mag F.mb (F.code x) * 2 ^ F.scale) = mag F.mb (F.code z) := by
      obtain ⟨l, u⟩ := isqrt_spec (mag F.mb (F.code x) * 2 ^ F.scale)
      rw [← hq] at l u ⊢
      refine le_antisymm (Nat.mul_self_le_mul_self_iff.mp l) (Nat.lt_succ_iff.mp (Nat.mul_self_lt_mul_self_iff.mp u))
    dsimp only
    rw [hr, if_pos hq, F.packRnd_mag false (c := F.code z) (by decide) hc.le (by ring)]
    refine ⟨F.isFinite_pack _ hc, ?_⟩
    rw [F.toReal_pack _ hc, mz]
    simp

theorem max_exactly {f : BitVec w → BitVec w → BitVec w} (h : IsMax F f) {x y : BitVec w} {a b : ℝ} (hx : Exactly F x a)
    (hy : Exactly F y b) : Exactly F (f x y) (max a b) := by
  refine exactly_of_value (h.num hx.value.1 hy.value.1) ?_
  rw [h.val _ _ hx.value.1 hy.value.1, hx.value.2, hy.value.2, coe_max']

theorem min_exactly {f : BitVec w → BitVec w → BitVec w} (h : IsMin F f) {x y : BitVec w} {a b : ℝ} (hx : Exactly F x a)
    (hy : Exactly F y b) : Exactly F (f x y) (min a b) := by
  refine exactly_of_value (h.num hx.value.1 hy.value.1) ?_
  rw [h.val _ _ hx.value.1 hy.value.1, hx.value.2, hy.value.2, coe_min']

theorem OrderOps.mul_exactly {A : Arith (BitVec w)} (O : OrderOps F A) {x y : BitVec w} {a b : ℝ} (hx : Exactly F x a)
    (hy : Exactly F y b) (h : Representable F (a * b)) : Exactly F (A.mul x y) (a * b) := by
  have := O.mul x y (O.mul_ok x y hx.value.1 hy.value.1 (.inl ⟨hx.1, hy.1⟩))
  rw [hx.value.2, hy.value.2, ← EReal.coe_mul] at this
  exact exactly_of_rounded this h

/-- A fused or separate multiplication and addition. -/
def MaddExact (F : Fmt w) (A : Arith (BitVec w)) : Prop := ∀ {x y z : BitVec w} {a b c : ℝ}, Exactly F x a → Exactly F y b →
  Exactly F z c → Representable F (a * b) → Representable F (a * b + c) → Exactly F (A.madd x y z) (a * b + c)

theorem fused_exactly (f : Bool) {x y z : BitVec w} {a b c : ℝ} (hx : Exactly F x a) (hy : Exactly F y b) (hz : Exactly F z c)
    (h : Representable F (a * b)) (h' : Representable F (a * b + c)) :
    Exactly F (if f then F.fma x y z else F.add (F.mul x y) z) (a * b + c) := by
  cases f
  · exact (hx.mul hy h).add hz h'
  · exact hx.fma hy hz h'

theorem madd_exact32 (b : Build32) (P : Platform 32) : MaddExact binary32 (b.lane P) := by
  intro x y z u v t hx hy hz h h'
  cases b with
  | generic => exact fused_exactly false hx hy hz h h'
  | sse s f => exact fused_exactly f.fma hx hy hz h h'
  | avx f => exact fused_exactly f hx hy hz h h'
  | neon =>
    rw [add_comm] at h' ⊢
    rw [mul_comm] at h h' ⊢
    exact hz.add (hy.mul hx h) h'
  | altivec => exact hx.fma hy hz h'

theorem madd_exact64 (b : Build64) (P : Platform 64) : MaddExact binary64 (b.lane P) := by
  intro x y z u v t hx hy hz h h'
  cases b with
  | generic => exact fused_exactly false hx hy hz h h'
  | sse2 s f => exact fused_exactly f hx hy hz h h'
  | avx f => exact fused_exactly f hx hy hz h h'

theorem allExact_one {s v : ℝ} (h : AllExact F [s] v) : s = v ∧ Representable F s :=
  ⟨by simpa using h.2, h.1 s (by simp)⟩
theorem allExact_two {s t v : ℝ} (h : AllExact F [s, t] v) : t = v ∧ Representable F s ∧ Representable F t :=
  ⟨by simpa using h.2, h.1 s (by simp), h.1 t (by simp)⟩
theorem allExact_three {s t u v : ℝ} (h : AllExact F [s, t, u] v) :
    u = v ∧ Representable F s ∧ Representable F t ∧ Representable F u :=
  ⟨by simpa using h.2, h.1 s (by simp), h.1 t (by simp), h.1 u (by simp)⟩
theorem allExact_nil {v : ℝ} (h : AllExact F [] v) : False := by simpa using h.2

theorem binary_exactly {A : Arith (BitVec w)} (O : OrderOps F A) (op : BinOp) {x y : BitVec w} {a b v : ℝ} (hx : Exactly F x a)
    (hy : Exactly F y b) (h : AllExact F (BinSteps op a b) v) (ho : op = .over → A.div = F.div) :
    Exactly F (op.f A x y) v := by
  cases op with
  | plus =>
    obtain ⟨rfl, r⟩ := allExact_one h
    change Exactly F (A.add x y) _; rw [O.add]; exact hx.add hy r
  | sum =>
    obtain ⟨rfl, r⟩ := allExact_one h
    change Exactly F (A.add x y) _; rw [O.add]; exact hx.add hy r
  | minus =>
    obtain ⟨rfl, r⟩ := allExact_one h
    change Exactly F (A.sub x y) _; rw [O.sub]; exact hx.sub hy r
  | times =>
    obtain ⟨rfl, r⟩ := allExact_one h
    exact O.mul_exactly hx hy r
  | over =>
    unfold BinSteps at h
    dsimp only at h
    by_cases h0 : b = 0
    · rw [if_pos h0] at h; exact (allExact_nil h).elim
    · rw [if_neg h0] at h
      obtain ⟨rfl, r⟩ := allExact_one h
      change Exactly F (A.div x y) _; rw [ho rfl]; exact hx.div hy h0 r
  | min =>
    obtain ⟨rfl, r⟩ := allExact_one h
    exact min_exactly O.min hx hy
  | max =>
    obtain ⟨rfl, r⟩ := allExact_one h
    exact max_exactly O.max hx hy
  | clip2 =>
    obtain ⟨rfl, r⟩ := allExact_one h
    have := clip2_spec F O.max O.min O.zero O.sub hx.value.1 hy.value.1
    refine exactly_of_value this.1 ?_
    change F.toEReal (Functor.clip2 A x y) = _
    rw [this.2, hx.value.2, hy.value.2, coe_max', coe_min', EReal.coe_neg]
  | _ => exact (allExact_nil h).elim

theorem ternary_exactly {A : Arith (BitVec w)} (O : OrderOps F A) (hm : MaddExact F A) (h1 : Exactly F (F.ofInt 1) 1) (op : TerOp)
    {x y z : BitVec w} {a b c v : ℝ} (hx : Exactly F x a) (hy : Exactly F y b) (hz : Exactly F z c)
    (h : AllExact F (TerSteps op a b c) v) : Exactly F (op.f A x y z) v := by
  cases op with
  | clip =>
    obtain ⟨rfl, -⟩ := allExact_one h
    exact max_exactly O.max (min_exactly O.min hx hz) hy
  | muladd =>
    obtain ⟨rfl, r, s⟩ := allExact_two h
    exact hm hx hy hz r s
  | ampmod =>
    obtain ⟨rfl, r, s, t⟩ := allExact_three h
    change Exactly F (A.mul x (A.add A.one (A.mul y z))) _
    rw [O.one, O.add]
    exact O.mul_exactly hx (h1.add (O.mul_exactly hy hz r) s) t
  | sum =>
    obtain ⟨rfl, r, s⟩ := allExact_two h
    change Exactly F (A.add (A.add x y) z) _
    rw [O.add]
    exact (hx.add hy r).add hz s

theorem quad_exactly {A : Arith (BitVec w)} (O : OrderOps F A) (op : QuadOp)
    {x y z u : BitVec w} {a b c d v : ℝ} (hx : Exactly F x a) (hy : Exactly F y b) (hz : Exactly F z c) (hu : Exactly F u d)
    (h : AllExact F (QuadSteps op a b c d) v) : Exactly F (op.f A x y z u) v := by
  cases op with
  | mix =>
    obtain ⟨rfl, r, s, t⟩ := allExact_three h
    change Exactly F (A.add (A.mul x y) (A.mul z u)) _
    rw [O.add]
    exact (O.mul_exactly hx hy r).add (O.mul_exactly hz hu s) t
  | sum =>
    obtain ⟨rfl, r, s, t⟩ := allExact_three h
    change Exactly F (A.add (A.add x y) (A.add z u)) _
    rw [O.add]
    exact (hx.add hy r).add (hz.add hu s) t

theorem OrderOps.square_exactly {A : Arith (BitVec w)} (O : OrderOps F A) {x : BitVec w} {a : ℝ} (hx : Exactly F x a)
    (h : Representable F (a * a)) : Exactly F (A.square x) (a * a) := by
  rw [O.square]; exact O.mul_exactly hx hx h

theorem OrderOps.cube_exactly {A : Arith (BitVec w)} (O : OrderOps F A) {x : BitVec w} {a : ℝ} (hx : Exactly F x a)
    (h : Representable F (a * a)) (h' : Representable F (a * a * a)) : Exactly F (A.cube x) (a * a * a) := by
  rcases O.cube x with e | e <;> rw [e]
  · rw [mul_comm] at h' ⊢
    exact O.mul_exactly hx (O.mul_exactly hx hx h) h'
  · exact O.mul_exactly (O.mul_exactly hx hx h) hx h'

theorem softclip_exactly (hk : SoftValues F) {x : BitVec w} {a v : ℝ} (hx : Exactly F x a)
    (h : AllExact F (UnSteps .softclip a) v) : Exactly F (Scalar.softclip F x) v := by
  have hfa : Exactly F (F.fabs x) |a| := ⟨by unfold IsFin; simpa using hx.1, by rw [F.toReal_fabs, hx.2]⟩
  have hl : F.ltb (F.fabs x) (F.ofRat 0.5) = true ↔ |a| < 1 / 2 := by
    rw [F.ltb_iff_value, hfa.value.2, F.toEReal_of_finite hk.hf, hk.h, show (0.5 : ℝ) = 1 / 2 by norm_num]
    constructor
    · rintro ⟨-, -, h⟩; exact_mod_cast h
    · intro h; exact ⟨hfa.value.1, F.isFinite_not_nan hk.hf, by exact_mod_cast h⟩
  have hq : Exactly F (F.ofRat 0.25) (1 / 4) := ⟨hk.qf, by rw [hk.q]; norm_num⟩
  unfold UnSteps at h
  dsimp only at h
  unfold Scalar.softclip
  dsimp only
  by_cases hs : |a| < 1 / 2
  · rw [if_pos hs] at h
    obtain ⟨rfl, -⟩ := allExact_one h
    rw [if_pos (hl.mpr hs)]; exact hx
  · rw [if_neg hs] at h
    obtain ⟨rfl, r, s⟩ := allExact_two h
    rw [if_neg (fun c => hs (hl.mp c))]
    refine (hfa.sub hq r).div hx ?_ s
    rintro rfl; norm_num at hs

/-- A square root with the sign of its argument. -/
theorem signedSqrt_exactly {r x : BitVec w} {a v : ℝ} (hx : Exactly F x a) (hr : Num F r) (hn : F.neg r = F.neg x)
    (hf : F.fabs r = F.sqrt (F.fabs x)) (h : AllExact F (UnSteps .signedSqrt a) v) : Exactly F r v := by
  obtain ⟨rfl, z, hz, e⟩ := allExact_one h
  have hfa : Exactly F (F.fabs x) |a| := ⟨by unfold IsFin; simpa using hx.1, by rw [F.toReal_fabs, hx.2]⟩
  have sg : |sgn a * Real.sqrt (|a|)| = Real.sqrt |a| := by
    rw [abs_mul, abs_of_nonneg (Real.sqrt_nonneg _)]
    unfold sgn
    split
    · simp
    · split
      · rename_i h0; rw [h0]; simp
      · simp
  have rep : Representable F (Real.sqrt |a|) := by
    refine ⟨F.fabs z, by unfold IsFin; simpa using hz, ?_⟩
    rw [F.toReal_fabs, e, sg]
  have sq : Exactly F (F.fabs r) (Real.sqrt |a|) := by
    rw [hf]
    exact hfa.sqrt (F.neg_fabs x) (Real.sqrt_nonneg _) (Real.mul_self_sqrt (abs_nonneg a)) rep
  have fr : IsFin F r := by
    have := sq.1
    unfold IsFin at this ⊢
    simpa using this
  refine ⟨fr, ?_⟩
  have v := sq.2
  rw [F.toReal_fabs] at v
  rw [← v]
  have er := F.toReal_eq r
  have ex := F.toReal_eq x
  have ar := abs_real (F := F) r
  have ax := abs_real (F := F) x
  rw [hx.2] at ex ax
  rw [er, hn]
  rw [← ar]
  rw [← ax] at ex
  unfold sgn
  generalize F.neg x = s at *
  generalize |F.toReal r| = t at *
  cases s
  · simp only [Bool.false_eq_true, if_false, one_mul] at ex ⊢
    rcases eq_or_lt_of_le (abs_nonneg a) with h0 | h0
    · rw [← h0] at v
      rw [v]; simp
    · rw [← ex] at h0
      rw [if_pos h0, one_mul, abs_of_nonneg (by rw [v]; exact Real.sqrt_nonneg _)]
  · simp only [if_true] at ex ⊢
    rcases eq_or_lt_of_le (abs_nonneg a) with h0 | h0
    · rw [← h0] at v
      rw [v]; simp
    · have : a < 0 := by linarith
      rw [if_neg (by linarith), if_neg (by linarith), neg_one_mul, abs_neg, abs_of_nonneg (by rw [v]; exact Real.sqrt_nonneg _),
        neg_one_mul]

end generic

end Nova
