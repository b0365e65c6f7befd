import Verif.Lemmas.ContractOff
import Verif.Lemmas.BasicFinal
import Verif.Props.C52_Reciprocal
import Verif.Props.C74_Pow
import Verif.Props.C77_Units

/-!
# Unit conversions, the reciprocal and the mixing functions with contraction
-/

namespace Nova
open FP VecMath
namespace Contract
variable {c : Bool} {V : LaneOps 32}

theorem powOk (h : V.Ieee) (hV : IsX86Class V) (g y : BitVec 32) : ∀ R ∈ vecPow c V g y, PowOk g y R :=
  fun R hR h1 h2 h3 h4 h5 => vecPow_error h hV h1 h2 h3 h4 h5 R hR

/-- The logarithm to another base: rounded, and as an exact product. -/
theorem vecLogBase_error (h : V.Ieee) (hV : IsX86Class V) {x r : BitVec 32} (hx : IsNormal x)
    (hn : 0 < binary32.toReal x) {k : ℝ} (hc0 : 1 / 4 ≤ k) (hc1 : k ≤ 2) (hr : IsFin binary32 r)
    (hc : |binary32.toReal r - k| ≤ 1 / 2 ^ 24 * k) :
    ∀ o ∈ vecLogBase c V r x, ∃ l, o = .prod l r ∧ IsFin binary32 l ∧ |binary32.toReal l| ≤ 101 ∧
      IsFin binary32 (binary32.mul l r) ∧
      |binary32.toReal (binary32.mul l r) - Real.log (binary32.toReal x) * k| ≤
        1 / 2 ^ 21 * |Real.log (binary32.toReal x) * k| ∧
      |binary32.toReal l * binary32.toReal r - Real.log (binary32.toReal x) * k| ≤
        1 / 2 ^ 21 * |Real.log (binary32.toReal x) * k| := by
  intro o ho
  unfold vecLogBase at ho
  rw [List.mem_map] at ho
  obtain ⟨l, hl, rfl⟩ := ho
  obtain ⟨f, e⟩ := vecLog_error h hV hx (neg_of_toReal hn) l hl
  obtain ⟨ha, hu⟩ := log_away h hV hx hn
  refine ⟨l, rfl, f, ?_, logBase_of f e ha hu hc0 hc1 hr hc⟩
  generalize Real.log (binary32.toReal x) = L at *
  have := abs_add_le (binary32.toReal l - L) L
  rw [sub_add_cancel] at this
  norm_num at e ⊢
  linarith

theorem invLog2 : 1 / 4 ≤ 1 / Real.log 2 ∧ 1 / Real.log 2 ≤ 2 := by
  have L1 := Real.log_two_gt_d9
  have L2 := Real.log_two_lt_d9
  exact ⟨by rw [le_div_iff₀ (by linarith)]; linarith, by rw [div_le_iff₀ (by linarith)]; linarith⟩

theorem invLog10 : 1 / 4 ≤ 1 / Real.log 10 ∧ 1 / Real.log 10 ≤ 2 := by
  obtain ⟨L1, L2⟩ := log_ten
  norm_num at L1 L2
  exact ⟨by rw [le_div_iff₀ (by linarith)]; linarith, by rw [div_le_iff₀ (by linarith)]; linarith⟩

theorem log2_error (h : V.Ieee) (hV : IsX86Class V) {P : Platform 32} (hP : P.GoodLogs) {x : BitVec 32} (hx : IsNormal x)
    (hn : 0 < binary32.toReal x) : ∀ o ∈ vecLogBase c V P.r2 x, ∃ l, o = .prod l P.r2 ∧ IsFin binary32 l ∧
      |binary32.toReal l| ≤ 101 ∧ IsFin binary32 (binary32.mul l P.r2) ∧
      |binary32.toReal (binary32.mul l P.r2) - Real.logb 2 (binary32.toReal x)| ≤
        1 / 2 ^ 21 * |Real.logb 2 (binary32.toReal x)| ∧
      |binary32.toReal l * binary32.toReal P.r2 - Real.logb 2 (binary32.toReal x)| ≤
        1 / 2 ^ 21 * |Real.logb 2 (binary32.toReal x)| := by
  have := vecLogBase_error (c := c) h hV hx hn invLog2.1 invLog2.2 hP.fin2 hP.two
  rw [mul_one_div] at this
  exact this

theorem log10_error (h : V.Ieee) (hV : IsX86Class V) {P : Platform 32} (hP : P.GoodLogs) {x : BitVec 32} (hx : IsNormal x)
    (hn : 0 < binary32.toReal x) : ∀ o ∈ vecLogBase c V P.r10 x, ∃ l, o = .prod l P.r10 ∧ IsFin binary32 l ∧
      |binary32.toReal l| ≤ 101 ∧ IsFin binary32 (binary32.mul l P.r10) ∧
      |binary32.toReal (binary32.mul l P.r10) - Real.logb 10 (binary32.toReal x)| ≤
        1 / 2 ^ 21 * |Real.logb 10 (binary32.toReal x)| ∧
      |binary32.toReal l * binary32.toReal P.r10 - Real.logb 10 (binary32.toReal x)| ≤
        1 / 2 ^ 21 * |Real.logb 10 (binary32.toReal x)| := by
  have := vecLogBase_error (c := c) h hV hx hn invLog10.1 invLog10.2 hP.fin10 hP.ten
  rw [mul_one_div] at this
  exact this

/-! ## Sums with a constant -/

theorem freq2oct_fused {l r : BitVec 32} {L : ℝ} (f1 : IsFin binary32 l) (f2 : IsFin binary32 r)
    (e : |binary32.toReal l * binary32.toReal r - L| ≤ 1.75e-7 + 4.77e-7 * |L|) (hB : |L| ≤ 250) :
    IsFin binary32 (binary32.fma l r 0x40980000#32) ∧
    |binary32.toReal (binary32.fma l r 0x40980000#32) - (L + 4.75)| ≤ 5e-7 + 5.4e-7 * |L| := by
  obtain ⟨v1, v2⟩ := val475
  have hL := abs_nonneg L
  have a1 := abs_add_le (binary32.toReal l * binary32.toReal r - L) (L + 4.75)
  have a2 := abs_add_le L 4.75
  rw [abs_of_pos (a := (4.75 : ℝ)) (by norm_num)] at a2
  rw [show binary32.toReal l * binary32.toReal r - L + (L + 4.75) = binary32.toReal l * binary32.toReal r + 4.75 by ring] at a1
  obtain ⟨f, g⟩ := fma_near32 f1 f2 v1 (by
    rw [v2]; generalize binary32.toReal l * binary32.toReal r = q at *; norm_num at *; linarith)
  refine ⟨f, ?_⟩
  rw [v2] at g
  have a3 := abs_sub_le (binary32.toReal (binary32.fma l r 0x40980000#32)) (binary32.toReal l * binary32.toReal r + 4.75) (L + 4.75)
  rw [show binary32.toReal l * binary32.toReal r + 4.75 - (L + 4.75) = binary32.toReal l * binary32.toReal r - L by ring] at a3
  generalize binary32.toReal l * binary32.toReal r = q at *
  generalize |L| = l1 at *
  norm_num at *
  linarith

theorem freq2midi_fused {l : BitVec 32} {L : ℝ} (f1 : IsFin binary32 l)
    (e : |binary32.toReal l - L| ≤ 1.75e-7 + 4.77e-7 * |L|) (hB : |L| ≤ 250) :
    IsFin binary32 (binary32.fma l 0x41400000#32 0x428a0000#32) ∧
    |binary32.toReal (binary32.fma l 0x41400000#32 0x428a0000#32) - (L * 12 + 69)| ≤ 6.5e-6 + 7.3e-6 * |L| := by
  obtain ⟨v1, v2⟩ := val69
  obtain ⟨w1, w2⟩ := val12
  have hL := abs_nonneg L
  have e' : |binary32.toReal l * 12 - L * 12| ≤ 2.1e-6 + 5.73e-6 * |L| := by
    rw [← sub_mul, abs_mul, abs_of_pos (a := (12 : ℝ)) (by norm_num)]
    norm_num at e ⊢
    linarith
  have a1 := abs_add_le (binary32.toReal l * 12 - L * 12) (L * 12 + 69)
  have a2 := abs_add_le (L * 12) 69
  rw [abs_of_pos (a := (69 : ℝ)) (by norm_num), abs_mul, abs_of_pos (a := (12 : ℝ)) (by norm_num)] at a2
  rw [show binary32.toReal l * 12 - L * 12 + (L * 12 + 69) = binary32.toReal l * 12 + 69 by ring] at a1
  obtain ⟨f, g⟩ := fma_near32 f1 w1 v1 (by
    rw [v2, w2]; generalize binary32.toReal l * 12 = q at *; norm_num at *; linarith)
  refine ⟨f, ?_⟩
  rw [v2, w2] at g
  have a3 := abs_sub_le (binary32.toReal (binary32.fma l 0x41400000#32 0x428a0000#32)) (binary32.toReal l * 12 + 69) (L * 12 + 69)
  rw [show binary32.toReal l * 12 + 69 - (L * 12 + 69) = binary32.toReal l * 12 - L * 12 by ring] at a3
  generalize binary32.toReal l * 12 = q at *
  generalize |q - L * 12| = d at *
  generalize |L * 12 + 69| = d2 at *
  generalize |L| = l1 at *
  norm_num at *
  linarith

/-! ## Multiplication and addition -/

/-- The class computes `madd` with one or with two roundings. -/
theorem madd_cases (b : Build32) (hb : b.simdMath = true) (P : Platform 32) {x y z r : BitVec 32}
    (hr : r ∈ madd c (b.ops P) x y z) : r = binary32.fma x y z ∨ r = binary32.add (binary32.mul x y) z := by
  unfold madd at hr
  rw [List.mem_cons] at hr
  rcases hr with rfl | hr
  · cases b with
    | sse s f => change (Sse.ops f (P.x86 binary32)).madd x y z = _ ∨ (Sse.ops f (P.x86 binary32)).madd x y z = _
                 rw [madd_sse]; cases f.fma <;> simp
    | avx f => change (AvxF.ops f (P.x86 binary32)).madd x y z = _ ∨ (AvxF.ops f (P.x86 binary32)).madd x y z = _
               rw [madd_avx]; cases f <;> simp
    | _ => exact absurd hb (by decide)
  · split at hr
    · rcases mem_sums hr with rfl | ⟨-, u, v, e, rfl⟩ | ⟨-, u, v, e, -⟩
      · exact .inr rfl
      · cases e; exact .inl rfl
      · cases e
    · simp at hr

/-- The refined reciprocal. -/
theorem reciprocal_residual (b : Build32) (hb : b.simdMath = true) (P : Platform 32) {x : BitVec 32} {ε : ℝ}
    (h : GoodEstimate x (P.rcp x) ε) : ∀ r ∈ vecReciprocalNewton c (b.ops P) x, IsFin binary32 r ∧
      |1 - binary32.toReal x * binary32.toReal r| ≤ ε ^ 2 + 4 / 2 ^ 24 := by
  intro r hr
  unfold vecReciprocalNewton at hr
  rw [List.mem_flatMap] at hr
  obtain ⟨d, hd, hr⟩ := hr
  have e : (b.ops P).fastReciprocal x = P.rcp x := by
    cases b <;> first | rfl | exact absurd hb (by decide)
  rw [e, (b.templates hb P).ieee.one] at hd
  rw [e] at hr
  have D : IsFin binary32 d ∧ |binary32.toReal d - (1 - binary32.toReal x * binary32.toReal (P.rcp x))| ≤ 3 / 2 ^ 25 := by
    rcases mem_diffs hd with rfl | ⟨-, u, v, e, -⟩ | ⟨-, u, v, e, rfl⟩
    · exact diff_two_steps h
    · cases e
    · cases e; exact diff_one_step h
  rcases madd_cases b hb P hr with rfl | rfl
  · exact newton_fma h D.1 D.2
  · exact newton_mul_add h D.1 D.2

theorem reciprocal_error (b : Build32) (hb : b.simdMath = true) (P : Platform 32) {x : BitVec 32}
    (h : GoodEstimate x (P.rcp x) (3 / 2 ^ 13)) : ∀ r ∈ vecReciprocalNewton c (b.ops P) x, IsFin binary32 r ∧
      |binary32.toReal r - 1 / binary32.toReal x| ≤ 1 / 2 ^ 21 * |1 / binary32.toReal x| := by
  intro r hr
  obtain ⟨f, h1⟩ := reciprocal_residual b hb P h r hr
  refine ⟨f, ?_⟩
  have hx : binary32.toReal x ≠ 0 := by
    intro h0
    have := h.x_low
    rw [h0, abs_zero] at this
    norm_num at this
  generalize binary32.toReal r = Z at *
  generalize binary32.toReal x = X at *
  rw [show Z - 1 / X = -(1 - X * Z) * (1 / X) by field_simp; ring, abs_mul, abs_neg]
  exact mul_le_mul_of_nonneg_right (h1.trans (by norm_num)) (abs_nonneg _)

/-- The exponential. -/
theorem vecExp_error (h : V.Ieee) (hV : IsX86Class V) {x : BitVec 32} (hx : IsFin binary32 x)
    (hlo : -87.33 ≤ binary32.toReal x) (hhi : binary32.toReal x < 11629080 / 2 ^ 17) :
    ∀ r ∈ vecExp c V (.reg x), IsFin binary32 r ∧
      |binary32.toReal r - Real.exp (binary32.toReal x)| ≤ 1 / 2 ^ 21 * Real.exp (binary32.toReal x) := by
  intro r hr
  have hm := below_maxlogf hx hhi
  have hr' := not_saturated (a := .reg x) h hx (by change _ ≤ binary32.toReal x; norm_num at *; linarith) hhi.le r hr
  have h1 : Tr V.one 1 0 1 := by rw [h.one]; exact one_track
  obtain ⟨X, hX, n, e⟩ := exp_scaled (a := .reg x) h hV h1 hx hx hlo hm
    (by change |binary32.toReal x| ≤ _; rw [abs_le]; constructor <;> norm_num at * <;> linarith)
    (by change binary32.toReal x ≤ _; norm_num at *; linarith) r hr'
  obtain rfl : X = binary32.toReal x := by rcases hX with e | ⟨-, e⟩ <;> exact e
  exact ⟨n.2, e.trans (mul_le_mul_of_nonneg_right (by norm_num) (Real.exp_pos _).le)⟩

/-- The amplitude modulation. -/
theorem ampmod_error {s m a : BitVec 32} (hs : IsFin binary32 s) (hm : IsFin binary32 m) (ha : IsFin binary32 a)
    (h1 : |binary32.toReal s| ≤ 2 ^ 60) (h2 : |binary32.toReal m * binary32.toReal a| ≤ 2 ^ 60) :
    ∀ g ∈ add c (.reg 0x3f800000#32) (.prod m a), IsFin binary32 (binary32.mul s g) ∧
      |binary32.toReal (binary32.mul s g) - binary32.toReal s * (1 + binary32.toReal m * binary32.toReal a)| ≤
        1.8e-7 * (|binary32.toReal s| * (1 + |binary32.toReal m * binary32.toReal a|)) + 1 / 2 ^ 150 := by
  intro g hg
  rcases mem_sums hg with rfl | ⟨-, u, v, e, -⟩ | ⟨-, u, v, e, rfl⟩
  · exact ampmod_near hs hm ha h1 h2
  · cases e
  · cases e
    obtain ⟨o1, o2⟩ := val32 (x := 0x3f800000#32) 1 (by decide +kernel)
    rw [Rat.cast_one] at o2
    have v0 := abs_nonneg (binary32.toReal m * binary32.toReal a)
    have hv := abs_add_le (binary32.toReal m * binary32.toReal a) 1
    rw [abs_one] at hv
    obtain ⟨f, e⟩ := fma_near32 hm ha o1 (by rw [o2]; refine hv.trans ?_; norm_num [-abs_mul] at h2 ⊢; linarith)
    refine ampmod_of hs f ?_ h1 h2
    rw [o2] at e
    rw [add_comm 1]
    refine e.trans ?_
    generalize |binary32.toReal m * binary32.toReal a| = g1 at *
    generalize |binary32.toReal m * binary32.toReal a + 1| = g2 at *
    norm_num
    linarith

theorem mix_fused {s t u v : BitVec 32} (hs : IsFin binary32 s) (ht : IsFin binary32 t) (hu : IsFin binary32 u)
    (hv : IsFin binary32 v) (h1 : |binary32.toReal s * binary32.toReal t| ≤ 2 ^ 125)
    (h2 : |binary32.toReal u * binary32.toReal v| ≤ 2 ^ 125) :
    IsFin binary32 (binary32.fma s t (binary32.mul u v)) ∧
    |binary32.toReal (binary32.fma s t (binary32.mul u v)) -
        (binary32.toReal s * binary32.toReal t + binary32.toReal u * binary32.toReal v)| ≤
      1.2e-7 * (|binary32.toReal s * binary32.toReal t| + |binary32.toReal u * binary32.toReal v|) + 1 / 2 ^ 148 := by
  obtain ⟨f2, e2⟩ := mul_near32 hu hv (h2.trans (by norm_num))
  generalize binary32.mul u v = q at *
  have F := fma_near32 hs ht f2
  generalize binary32.toReal s * binary32.toReal t = a at *
  generalize binary32.toReal u * binary32.toReal v = d at *
  have a0 := abs_nonneg a
  have d0 := abs_nonneg d
  have t1 := abs_add_le a (binary32.toReal q)
  have t2 := abs_add_le (binary32.toReal q - d) d
  rw [sub_add_cancel] at t2
  obtain ⟨f3, e3⟩ := F (by norm_num at *; linarith)
  refine ⟨f3, ?_⟩
  have t3 := abs_sub_le (binary32.toReal (binary32.fma s t q)) (a + binary32.toReal q) (a + d)
  rw [add_sub_add_left_eq_sub] at t3
  clear F h1 h2
  generalize |a| = a1 at *
  generalize |d| = d1 at *
  norm_num at *
  linarith

end Contract
end Nova
