import Verif.Lemmas.Quiet
import Verif.Lemmas.TanhFinal
import Verif.Lemmas.ContractReduce
import Verif.Lemmas.RootFinal

/-!
# sin and cos never exceed one
-/

namespace Nova
open FP VecMath

namespace Contract

/-- What is subtracted from one is not negative. -/
theorem cos_correction {c : Bool} {q z r : BitVec 32} (hq : IsFin binary32 q) (hz : IsFin binary32 z)
    (hq1 : |binary32.toReal q| ≤ 0.03) (hz1 : 1 / 2 ^ 27 ≤ binary32.toReal z) (hz2 : binary32.toReal z ≤ 1)
    (hr : r ∈ sub c (.prod q z) (.prod 0x3f000000#32 z)) : IsFin binary32 r ∧ binary32.toReal r ≤ 0 ∧ -1 ≤ binary32.toReal r := by
  have hz0 : 0 < binary32.toReal z := lt_of_lt_of_le (by norm_num) hz1
  have k1 : |binary32.toReal q * binary32.toReal z| ≤ 0.03 * binary32.toReal z := by
    rw [abs_mul, abs_of_pos hz0]; exact mul_le_mul_of_nonneg_right hq1 hz0.le
  have hf : IsFin binary32 0x3f000000#32 := by decide
  obtain ⟨fa, va⟩ := mul_near32 hq hz (k1.trans (by norm_num at *; linarith))
  have k2 : |binary32.toReal 0x3f000000#32 * binary32.toReal z| = 1 / 2 * binary32.toReal z := by
    rw [toReal_half32', abs_mul, abs_of_pos hz0, abs_of_pos (by norm_num)]
  obtain ⟨fb, vb⟩ := mul_near32 hf hz (by rw [k2]; norm_num at *; linarith)
  rw [k2, toReal_half32'] at vb
  have ba : |binary32.toReal (binary32.mul q z)| ≤ 0.04 * binary32.toReal z := by
    have := abs_add_le (binary32.toReal (binary32.mul q z) - binary32.toReal q * binary32.toReal z)
      (binary32.toReal q * binary32.toReal z)
    rw [sub_add_cancel] at this
    generalize |binary32.toReal q * binary32.toReal z| = w at *
    norm_num at *
    linarith
  have bb : |binary32.toReal (binary32.mul 0x3f000000#32 z) - 1 / 2 * binary32.toReal z| ≤ 0.01 * binary32.toReal z := by
    refine vb.trans ?_
    norm_num at *
    linarith
  have fin {v : ℝ} {r : BitVec 32} (h1 : -0.6 * binary32.toReal z ≤ v) (h2 : v ≤ -0.4 * binary32.toReal z)
      (h : IsFin binary32 r ∧ |binary32.toReal r - v| ≤ 1 / 2 ^ 24 * |v| + 1 / 2 ^ 150) :
      IsFin binary32 r ∧ binary32.toReal r ≤ 0 ∧ -1 ≤ binary32.toReal r := by
    refine ⟨h.1, ?_⟩
    have hv : v < 0 := by linarith
    have h3 := h.2
    rw [abs_of_neg hv] at h3
    have := abs_le.mp h3
    norm_num at *
    constructor <;> linarith
  rw [abs_le] at ba bb k1
  rcases mem_diffs hr with e | ⟨-, s, t, e, rfl⟩ | ⟨-, s, t, e, rfl⟩
  · rw [e]
    change IsFin binary32 (binary32.sub (binary32.mul q z) (binary32.mul 0x3f000000#32 z)) ∧
      binary32.toReal (binary32.sub (binary32.mul q z) (binary32.mul 0x3f000000#32 z)) ≤ 0 ∧
      -1 ≤ binary32.toReal (binary32.sub (binary32.mul q z) (binary32.mul 0x3f000000#32 z))
    have hb : |binary32.toReal (binary32.mul q z) - binary32.toReal (binary32.mul 0x3f000000#32 z)| ≤ 1 := by
      rw [abs_le]; norm_num at *; constructor <;> linarith
    have hs := sub_near32 fa fb (hb.trans (by norm_num))
    refine fin ?_ ?_ ⟨hs.1, hs.2.trans (by first | exact le_rfl | linarith [show (0:ℝ) < 1 / 2 ^ 150 by norm_num])⟩
    · norm_num at *; linarith
    · norm_num at *; linarith
  · cases e
    change IsFin binary32 (binary32.fma q z (binary32.negate (binary32.mul 0x3f000000#32 z))) ∧ _
    have hb : |binary32.toReal q * binary32.toReal z + binary32.toReal (binary32.negate (binary32.mul 0x3f000000#32 z))| ≤ 1 := by
      rw [binary32.toReal_negate, abs_le]; norm_num at *; constructor <;> linarith
    have hs := fma_near32 hq hz (by unfold IsFin; rw [binary32.isFinite_negate]; exact fb) (hb.trans (by norm_num))
    refine fin ?_ ?_ hs
    · rw [binary32.toReal_negate]; norm_num at *; linarith
    · rw [binary32.toReal_negate]; norm_num at *; linarith
  · cases e
    change IsFin binary32 (binary32.fma (binary32.negate 0x3f000000#32) z (binary32.mul q z)) ∧ _
    have hb : |binary32.toReal (binary32.negate 0x3f000000#32) * binary32.toReal z + binary32.toReal (binary32.mul q z)| ≤ 1 := by
      rw [binary32.toReal_negate, toReal_half32', abs_le]; norm_num at *; constructor <;> linarith
    have hs := fma_near32 (by decide : IsFin binary32 (binary32.negate 0x3f000000#32)) hz fa (hb.trans (by norm_num))
    refine fin ?_ ?_ hs
    · rw [binary32.toReal_negate, toReal_half32']; norm_num at *; linarith
    · rw [binary32.toReal_negate, toReal_half32']; norm_num at *; linarith

theorem cosPoly_le {c : Bool} {x : BitVec 32} {v : ℝ} (hx : Tr x v (4728/10^11) 0.7864) :
    ∀ r ∈ cosPoly c (binary32.mul x x), |binary32.toReal r| ≤ 1 := by
  intro r hr
  by_cases hsmall : |binary32.toReal x| ≤ 1 / 2 ^ 13
  · rw [cosPoly_quiet hx.fin hsmall r hr, toReal_one32', abs_one]
  have hlow := (trig_polys hx).2 r hr
  unfold cosPoly at hr
  try dsimp only at hr
  simp only [List.mem_flatMap] at hr
  obtain ⟨p1, m1, p2, m2, p3, m3, m4⟩ := hr
  have hz := trig_square hx
  have t1 := Op.const (x := litD 2.443315711809948e-5) (6716135/2^38) (205/2^23) (by decide +kernel) (by norm_num)
  have t2 := Op.const (x := litD 1.388731625493765e-3) (5964557/2^32) (2913/2^21) (by decide +kernel) (by norm_num)
  have t3 := Op.const (x := litD 4.166664568298827e-2) (11184805/2^28) (2731/2^16) (by decide +kernel) (by norm_num)
  have t6 := Op.mul (D := 4059/2^28) (E := 4077/2^50) t1 hz.op (by norm_num) (by norm_num) (by norm_num)
  have t7 := Op.sub (D := 2945/2^21) (E := 3073/2^45) m1 t6 t2 (by norm_num) (by norm_num) (by norm_num)
  have t8 := Op.mul (D := 911/2^20) (E := 1153/2^42) t7 hz.op (by norm_num) (by norm_num) (by norm_num)
  have t9 := Op.add (D := 697/2^14) (E := 3077/2^40) m2 t8 t3 (by norm_num) (by norm_num) (by norm_num)
  have t10 := (Op.mul (D := 1725/2^16) (E := 2209/2^38) t9 hz.op (by norm_num) (by norm_num) (by norm_num)).tr
  rw [show litF 0.5 = 0x3f000000#32 from litF_half'] at m3
  have hxx := mul_near32 hx.fin hx.fin (by
    have := hx.abs_le
    rw [abs_mul]
    exact (mul_le_mul this this (abs_nonneg _) (by norm_num)).trans (by norm_num))
  have hx2 : (1 / 2 ^ 13) ^ 2 ≤ binary32.toReal x * binary32.toReal x := by
    rw [← abs_mul_abs_self, ← sq]
    exact pow_le_pow_left₀ (by norm_num) (not_le.mp hsmall).le 2
  have z1 : 1 / 2 ^ 27 ≤ binary32.toReal (binary32.mul x x) := by
    have := (abs_le.mp hxx.2).1
    rw [abs_of_nonneg (mul_self_nonneg _)] at this
    norm_num at *
    linarith
  have z2 : binary32.toReal (binary32.mul x x) ≤ 1 := by
    have := (abs_le.mp hz.abs_le).2
    norm_num at *
    linarith
  obtain ⟨f3, le3, ge3⟩ := cos_correction (z := binary32.mul x x) t10.fin hz.fin (t10.abs_le.trans (by norm_num)) z1 z2 m3
  have hr1 : IsFin binary32 r ∧ binary32.toReal r ≤ 1 := by
    rcases mem_sums m4 with e | ⟨-, _, _, e, -⟩ | ⟨-, _, _, e, -⟩
    · rw [e]
      change IsFin binary32 (binary32.add p3 (litD 1)) ∧ binary32.toReal (binary32.add p3 (litD 1)) ≤ 1
      rw [show litD 1 = 0x3f800000#32 by decide +kernel]
      have h1 : |binary32.toReal p3 + binary32.toReal 0x3f800000#32| ≤ 1 := by
        rw [toReal_one32', abs_le]; constructor <;> linarith
      have h2 := add_near32 f3 (y := 0x3f800000#32) (by decide) (h1.trans (by norm_num))
      refine ⟨h2.1, le_one_of_lt h2.1 ?_⟩
      have h3 := (abs_le.mp h2.2).2
      rw [toReal_one32'] at h1 h3
      generalize |binary32.toReal p3 + 1| = w at *
      norm_num at *
      linarith
    · cases e
    · cases e
  have hcos : 0 ≤ Real.cos v := Real.cos_nonneg_of_mem_Icc (by
    have := hx.bnd
    have p := Real.pi_gt_three
    rw [abs_le] at this
    constructor <;> norm_num at * <;> linarith)
  have := (abs_le.mp hlow.err).1
  rw [abs_le]
  exact ⟨by norm_num at *; linarith, hr1.2⟩

theorem sinPoly_le {c : Bool} {x : BitVec 32} {v : ℝ} (hx : Tr x v (4728/10^11) 0.7864) :
    ∀ r ∈ sinPoly c (binary32.mul x x) x, |binary32.toReal r| ≤ 1 := by
  intro r hr
  have h := ((trig_polys hx).1 r hr).err
  have hs : |Real.sin v| ≤ 0.7864 := (Real.abs_sin_le_abs).trans hx.bnd
  have := abs_add_le (binary32.toReal r - Real.sin v) (Real.sin v)
  rw [sub_add_cancel] at this
  norm_num at *
  linarith

/-- A sign bit does not change the magnitude. -/
theorem abs_signed (s : Bool) (x : BitVec 32) : |binary32.toReal (x ^^^ signBit s)| = |binary32.toReal x| := by
  cases s
  · simp [signBit]
  · rw [show x ^^^ signBit true = binary32.negate x from rfl, binary32.toReal_negate, abs_neg]

theorem vecSin_le {c : Bool} {V : LaneOps 32} (h : V.Ieee) {x : BitVec 32} (hx : IsFin binary32 x)
    (hr : |binary32.toReal x| ≤ 8192) : ∀ y ∈ vecSin c V x, |binary32.toReal y| ≤ 1 := by
  intro y hy
  obtain ⟨a1, a2, a3⟩ := fabs_facts hx hr
  obtain ⟨q, q1, q2, q3⟩ := trig_reduce (c := c) h a1 a2 a3
  unfold vecSin at hy
  dsimp only at hy
  rw [abs_and h, h.sign, sign_and, swap_bit, poly_mask] at hy
  simp only [List.mem_flatMap, List.mem_map] at hy
  obtain ⟨r, hr, c1, h1, s1, h2, rfl⟩ := hy
  rw [h.sel, ← BitVec.xor_assoc, abs_signed, abs_signed]
  split
  · exact sinPoly_le (q3 r hr) _ h2
  · exact cosPoly_le (q3 r hr) _ h1

theorem vecCos_le {c : Bool} {V : LaneOps 32} (h : V.Ieee) {x : BitVec 32} (hx : IsFin binary32 x)
    (hr : |binary32.toReal x| ≤ 8192) : ∀ y ∈ vecCos c V x, |binary32.toReal y| ≤ 1 := by
  intro y hy
  obtain ⟨a1, a2, a3⟩ := fabs_facts hx hr
  obtain ⟨q, q1, q2, q3⟩ := trig_reduce (c := c) h a1 a2 a3
  unfold vecCos at hy
  dsimp only at hy
  obtain ⟨c1, c2⟩ := cos_sign q1 q2
  rw [abs_and h, h.intAndnot, c1, c2] at hy
  simp only [List.mem_flatMap, List.mem_map] at hy
  obtain ⟨r, hr, d1, h1, s1, h2, rfl⟩ := hy
  rw [h.sel, abs_signed]
  split
  · exact sinPoly_le (q3 r hr) _ h2
  · exact cosPoly_le (q3 r hr) _ h1

end Contract
end Nova
