import Verif.Lemmas.TrigGap
import Verif.Props.C99_Contract
import Verif.Props.C66_Documented

/-!
# C66 the documented relative error of sin, cos and tan

detail/vec_math.hpp:31: "the approximation of mathematical functions should have a maximum relative error of below 5e-7f".
The reduction of the argument subtracts a multiple of π/2 known to about 49 bits.  What is lost is noticed only where the
result is tiny compared to the argument, so the documented bound holds

* for every float of magnitude up to 8192 whose sine (or cosine, or both for the tangent) is at least `2^-26` times its
  magnitude (`C66_trig_partial`), whatever products and sums the compiler fuses (`C66_trig_contract_partial`);
* without this condition for the sine up to 9.42 and for cosine and tangent up to 4.71 (`C66_trig_range_partial`).

The limits cannot be moved: the float next to 3π/2 = 4.712389 has a cosine wrong by 1e-6 (`C66_negation_cos`).
-/

namespace Nova
open FP VecMath

/-- The documented accuracy: the relative error of `y` as a value of `v` is at most 5e-7. -/
def Documented (y : BitVec 32) (v : ℝ) : Prop := IsFin binary32 y ∧ |binary32.toReal y - v| ≤ 5e-7 * |v|

/-- Whatever is fused.  Missing: arguments close to a zero or pole, where the bound is false (`C66_negation`,
`C66_negation_cos`), and arguments beyond 8192. -/
theorem C66_trig_contract_partial (c : Bool) (b : Build32) (hb : b.simdMath = true) (P : Platform 32) (x : BitVec 32)
    (hx : IsFin binary32 x) (hr : |binary32.toReal x| ≤ 8192) :
    (1 / 2 ^ 26 * |binary32.toReal x| ≤ |Real.sin (binary32.toReal x)| →
      ∀ r ∈ Contract.unary c (b.ops P) (b.lane P) P.r2 P.r10 .sin x,
        ∃ y, r = .ok y ∧ Documented y (Real.sin (binary32.toReal x))) ∧
    (1 / 2 ^ 26 * |binary32.toReal x| ≤ |Real.cos (binary32.toReal x)| →
      ∀ r ∈ Contract.unary c (b.ops P) (b.lane P) P.r2 P.r10 .cos x,
        ∃ y, r = .ok y ∧ Documented y (Real.cos (binary32.toReal x))) ∧
    (1 / 2 ^ 26 * |binary32.toReal x| ≤ |Real.sin (binary32.toReal x)| →
      1 / 2 ^ 26 * |binary32.toReal x| ≤ |Real.cos (binary32.toReal x)| →
      ∀ r ∈ Contract.unary c (b.ops P) (b.lane P) P.r2 P.r10 .tan x,
        ∃ y, r = .ok y ∧ Documented y (Real.tan (binary32.toReal x))) := by
  have h := (b.templates hb P).ieee
  have e : (5e-7 : ℝ) = 5 / 10 ^ 7 := by norm_num
  refine ⟨fun hs r hm => ?_, fun hs r hm => ?_, fun hs hc r hm => ?_⟩
  · exact contract_map hm fun y hy => ⟨(Contract.vecSin_rel h hx hr hs y hy).fin, by
      rw [e]; exact (Contract.vecSin_rel h hx hr hs y hy).err⟩
  · exact contract_map hm fun y hy => ⟨(Contract.vecCos_rel h hx hr hs y hy).fin, by
      rw [e]; exact (Contract.vecCos_rel h hx hr hs y hy).err⟩
  · exact contract_map hm fun y hy => ⟨(Contract.vecTan_rel h hx hr hs hc y hy).1, by
      rw [e]; exact (Contract.vecTan_rel h hx hr hs hc y hy).2⟩

/-- The documented accuracy of sin, cos and tan away from zeros and poles.  Missing: see
`C66_trig_contract_partial`. -/
theorem C66_trig_partial (b : Build32) (hb : b.simdMath = true) (P : Platform 32) (x : BitVec 32)
    (hx : IsFin binary32 x) (hr : |binary32.toReal x| ≤ 8192) :
    (1 / 2 ^ 26 * |binary32.toReal x| ≤ |Real.sin (binary32.toReal x)| →
      Documented ((b.lane P).sin x) (Real.sin (binary32.toReal x))) ∧
    (1 / 2 ^ 26 * |binary32.toReal x| ≤ |Real.cos (binary32.toReal x)| →
      Documented ((b.lane P).cos x) (Real.cos (binary32.toReal x))) ∧
    (1 / 2 ^ 26 * |binary32.toReal x| ≤ |Real.sin (binary32.toReal x)| →
      1 / 2 ^ 26 * |binary32.toReal x| ≤ |Real.cos (binary32.toReal x)| →
      Documented ((b.lane P).tan x) (Real.tan (binary32.toReal x))) := by
  have ok {op : UnOp} {f : BitVec 32} {v : ℝ} (e : op.f (b.lane P) x = .ok f)
      (H : ∀ r ∈ Contract.unary false (b.ops P) (b.lane P) P.r2 P.r10 op x, ∃ y, r = .ok y ∧ Documented y v) :
      Documented f v := by
    obtain ⟨y, e1, e2⟩ := H _ (C99_possible_unary false b hb P op x)
    rw [e] at e1
    cases e1
    exact e2
  obtain ⟨h1, h2, h3⟩ := C66_trig_contract_partial false b hb P x hx hr
  exact ⟨fun h => ok (op := .sin) rfl (h1 h), fun h => ok (op := .cos) rfl (h2 h), fun h h' => ok (op := .tan) rfl (h3 h h')⟩

/-- The documented accuracy for the arguments up to 4.71, for the sine up to 9.42.  Missing: larger arguments, of which
only those in `C66_trig_partial` are as accurate (`C66_negation_cos`). -/
theorem C66_trig_range_partial (b : Build32) (hb : b.simdMath = true) (P : Platform 32) (x : BitVec 32)
    (hx : IsFin binary32 x) :
    (|binary32.toReal x| ≤ 9.42 → Documented ((b.lane P).sin x) (Real.sin (binary32.toReal x))) ∧
    (|binary32.toReal x| ≤ 4.71 → Documented ((b.lane P).cos x) (Real.cos (binary32.toReal x)) ∧
      Documented ((b.lane P).tan x) (Real.tan (binary32.toReal x))) := by
  refine ⟨fun h => ?_, fun h => ⟨?_, ?_⟩⟩
  · exact (C66_trig_partial b hb P x hx (h.trans (by norm_num))).1 (sin_not_small' h)
  · exact (C66_trig_partial b hb P x hx (h.trans (by norm_num))).2.1 (cos_not_small' h)
  · exact (C66_trig_partial b hb P x hx (h.trans (by norm_num))).2.2 (sin_not_small' (h.trans (by norm_num)))
      (cos_not_small' h)

/-- The cosine of 4.71238899230957, close to 3π/2. -/
theorem cos_near_3pi2 : |Real.cos (2470649 / 2 ^ 19) - 119248804 / 10 ^ 16| ≤ 1 / 10 ^ 16 := by
  have P1 := Real.pi_gt_d20
  have P2 := Real.pi_lt_d20
  have e : (2470649 / 2 ^ 19 : ℝ) = (2470649 / 2 ^ 19 - 3 * (Real.pi / 2)) + ((3 : ℕ) : ℝ) * (Real.pi / 2) := by
    push_cast; ring
  rw [e, cos_quadrant]
  norm_num only [reduceIte]
  generalize ht : (2470649 / 2 ^ 19 - 3 * (Real.pi / 2) : ℝ) = t at *
  rw [show (2470649 / 524288 - 3 * (Real.pi / 2) : ℝ) = t by rw [← ht]; norm_num]
  have t1 : 119248804 / 10 ^ 16 < t := by rw [← ht]; norm_num at *; linarith
  have t2 : t < 119248805 / 10 ^ 16 := by rw [← ht]; norm_num at *; linarith
  have s1 : Real.sin t ≤ t := Real.sin_le (by norm_num at *; linarith)
  have s2 : t - t ^ 3 / 6 < Real.sin t := Real.sin_gt_sub_cube (by norm_num at *; linarith)
  have s3 : t ^ 3 ≤ 1 / 10 ^ 20 := by
    have : t ^ 3 ≤ (1 / 10 ^ 7) ^ 3 := pow_le_pow_left₀ (by norm_num at *; linarith) (by norm_num at *; linarith) 3
    norm_num at *
    linarith
  rw [abs_le]
  norm_num at *
  constructor <;> linarith

theorem cos_3pi2_bits (b : Build32) (hb : b.simdMath = true) (P : Platform 32) :
    (b.lane P).cos 0x4096cbe4#32 = 0x324cde20#32 := by
  rw [(b.templates hb P).cos]
  cases b with
  | sse s f =>
    change vecCos (Sse.ops f (P.x86 binary32)) _ = _
    rw [sse_cos0]
    obtain ⟨f1, f2, f3⟩ := f
    cases f1 <;> cases f2 <;> cases f3 <;> decide +kernel
  | avx f =>
    change vecCos (AvxF.ops f (P.x86 binary32)) _ = _
    rw [avx_cos0]
    cases f <;> decide +kernel
  | _ => exact absurd hb (by decide)

/-- Already the cosine of 4.712389, the float next to 3π/2, misses the documented bound: it is wrong by 1e-6. -/
theorem C66_negation_cos (b : Build32) (hb : b.simdMath = true) (P : Platform 32) :
    IsFin binary32 0x4096cbe4#32 ∧ binary32.toReal 0x4096cbe4#32 = 2470649 / 2 ^ 19 ∧
    1e-6 * |Real.cos (2470649 / 2 ^ 19)| <
      |binary32.toReal ((b.lane P).cos 0x4096cbe4#32) - Real.cos (2470649 / 2 ^ 19)| := by
  refine ⟨by decide, ?_, ?_⟩
  · rw [isVal_value (q := 2470649 / 2 ^ 19) (by decide +kernel)]; norm_num
  · rw [cos_3pi2_bits b hb P]
    have w : binary32.toReal 0x324cde20#32 = 419569 / 2 ^ 45 := by
      rw [isVal_value (q := 419569 / 2 ^ 45) (by decide +kernel)]; norm_num
    rw [w]
    have := abs_le.mp cos_near_3pi2
    generalize Real.cos (2470649 / 2 ^ 19) = s at *
    rw [abs_of_pos (a := s) (by norm_num at *; linarith), lt_abs]
    norm_num at *
    first
    | (left; linarith)
    | (right; linarith)

/-- The hypotheses are met: 3.1415927410125732, the float next to π, whose sine is -8.7e-8. -/
example (P : Platform 32) : Documented (((Build32.avx true).lane P).sin 0x40490fdb#32)
    (Real.sin (binary32.toReal 0x40490fdb#32)) := by
  refine (C66_trig_range_partial (.avx true) rfl P _ (by decide)).1 ?_
  have := isVal_value (x := 0x40490fdb#32) (q := 13176795 / 2 ^ 22) (by decide +kernel)
  rw [this]
  push_cast
  rw [abs_of_pos (by norm_num)]
  norm_num

/-- They are met far from zero too: the tangent of 1000.5. -/
example (P : Platform 32) : Documented (((Build32.avx true).lane P).tan 0x447a2000#32)
    (Real.tan (binary32.toReal 0x447a2000#32)) := by
  have hv := isVal_value (x := 0x447a2000#32) (q := 2001 / 2) (by decide +kernel)
  have P1 := Real.pi_gt_d6
  have P2 := Real.pi_lt_d6
  have e : ((2001 / 2 : ℚ) : ℝ) = (2001 / 2 - 637 * (Real.pi / 2)) + ((637 : ℕ) : ℝ) * (Real.pi / 2) := by
    push_cast; ring
  have s := sin_quadrant (2001 / 2 - 637 * (Real.pi / 2)) 637
  have c := cos_quadrant (2001 / 2 - 637 * (Real.pi / 2)) 637
  rw [← e] at s c
  norm_num only [reduceIte] at s c
  have ha : |2001 / 2 - 637 * (Real.pi / 2)| ≤ 0.7864 := by rw [abs_le]; norm_num; constructor <;> linarith
  have hl : 0.01 ≤ |2001 / 2 - 637 * (Real.pi / 2)| := by
    rw [le_abs]; norm_num
    first
    | (left; linarith)
    | (right; linarith)
  have k1 := cos_large' (ha.trans (by norm_num))
  have k2 := sin_lower1 ha
  refine (C66_trig_partial (.avx true) rfl P _ (by decide) ?_).2.2 ?_ ?_
  · rw [hv]; push_cast; rw [abs_of_pos (by norm_num)]; norm_num
  · rw [hv]; push_cast at s ⊢; rw [s, abs_of_pos (a := (2001 / 2 : ℝ)) (by norm_num)]
    refine le_trans ?_ (k1.trans (le_abs_self _))
    norm_num
  · rw [hv]; push_cast at c ⊢; rw [c, abs_of_pos (a := (2001 / 2 : ℝ)) (by norm_num)]
    try rw [abs_neg]
    refine le_trans ?_ k2
    norm_num at hl ⊢
    linarith

end Nova
