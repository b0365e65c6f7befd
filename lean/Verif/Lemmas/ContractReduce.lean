import Verif.Lemmas.ContractPoly
import Verif.Float.Scale

/-!
# The reductions of the arguments with contraction
-/

namespace Nova
open FP VecMath

namespace FP.Fmt
variable {w : Nat} {F : Fmt w}

theorem IsRnd.same {v : ℝ} {r r' : BitVec w} (h : F.IsRnd v r) (h' : F.IsRnd v r') : F.key r = F.key r' :=
  le_antisymm (h.mono h' le_rfl) (h'.mono h le_rfl)

theorem key_real {r r' : BitVec w} (h : F.key r = F.key r') :
    F.isFinite r = F.isFinite r' ∧ F.toReal r = F.toReal r' := by
  refine ⟨?_, ?_⟩
  · unfold isFinite; rw [← F.key_natAbs r, ← F.key_natAbs r', h]
  · unfold toReal; rw [(F.key_eq_iff_units r r').mp h]

theorem sub_rounds' {x y : BitVec w} (hx : F.isFinite x = true) (hy : F.isFinite y = true) :
    F.IsRnd (F.toReal x - F.toReal y) (F.sub x y) := by
  rw [F.sub_num (F.isFinite_not_nan hx) (F.isFinite_not_nan hy), sub_eq_add_neg, ← F.toReal_negate]
  exact add_rounds hx (by rw [F.isFinite_negate]; exact hy)

/-- A product which is exact gives the same difference with one rounding. -/
theorem diffs_same {c : Bool} {r x y z z' : BitVec w} (hr : r ∈ F.diffs c (.reg z) (.prod x y))
    (hx : F.isFinite x = true) (hy : F.isFinite y = true) (hz : F.isFinite z = true) (hz' : F.isFinite z' = true)
    (e : F.toReal z = F.toReal z') (hp : F.isFinite (F.mul x y) = true)
    (he : F.toReal (F.mul x y) = F.toReal x * F.toReal y) : F.key r = F.key (F.sub z' (F.mul x y)) := by
  have h := sub_rounds' hz' hp
  rw [← e, he] at h
  rcases mem_diffs hr with g | ⟨-, _, _, g, -⟩ | ⟨-, x1, y1, g, g'⟩
  · subst g
    have h' := sub_rounds' hz hp
    rw [he] at h'
    exact h'.same h
  · cases g
  · cases g
    subst g'
    have h' := fma_rounds (F := F) (x := F.negate x) (by rw [F.isFinite_negate]; exact hx) hy hz
    rw [F.toReal_negate, show -F.toReal x * F.toReal y + F.toReal z = F.toReal z - F.toReal x * F.toReal y by ring]
      at h'
    exact h'.same h

end FP.Fmt

namespace Contract

theorem reduceArg_track {c : Bool} {x : BitVec 32} (hx : IsFin binary32 x)
    (h0 : binary32.neg x = false) {q : ℕ} (hq : q ≤ 5216)
    (hX : |binary32.toReal x - q * (Real.pi / 2)| ≤ 0.7864) (hx1 : 1 ≤ q → 0.7853 ≤ binary32.toReal x)
    {y : BitVec 32} (hy : IsFin binary32 y) (hyv : binary32.toReal y = ((2 * q : ℕ) : ℝ)) :
    ∀ r ∈ reduceArg c x y, Tr r (binary32.toReal x - q * (Real.pi / 2)) (4728/10^11) 0.7864 := by
  intro r hr
  unfold reduceArg at hr
  simp only [List.mem_flatMap] at hr
  obtain ⟨p1, m1, p2, m2, m3⟩ := hr
  obtain ⟨⟨a1, a2⟩, ⟨b1, b2⟩, d, g1, g3⟩ := reduceArg_exact hx h0 hq hX hx1 hy hyv
  have f1 : IsFin binary32 (litD 0.78515625) := isVal_fin (q := 201/2^8) (by decide +kernel)
  have f2 : IsFin binary32 (litD 2.4187564849853515625e-4) := isVal_fin (q := 2029/2^23) (by decide +kernel)
  obtain ⟨k1, k2⟩ := Fmt.key_real (Fmt.diffs_same m1 hy f1 hx hx rfl a1 a2)
  obtain ⟨l1, l2⟩ := Fmt.key_real (Fmt.diffs_same m2 hy f2 (k1.trans d) d k2 b1 b2)
  obtain ⟨hb, hf, hD⟩ := reduceArg_reals hq hX
  have t3 := Op.const (x := litD 3.77489497744594108e-8) (10625385/2^48) (3.7749/10^8) (by decide +kernel) (by norm_num)
  have hv2 := Tr.exact (B := 0.7868) (l1.trans g1) (by rw [l2, g3]; exact hb)
  rw [l2, g3] at hv2
  have p3 := Op.mul (D := 0.000394) (E := 24/10^12) (double_track hq hy hyv).op t3 (by norm_num) (by norm_num)
    (by norm_num)
  have s3 := Op.sub_of (D := 0.78641) (E := 46898/10^12) m3 hv2.op p3 hD (by norm_num) (by norm_num)
  exact s3.recenter hf (E := 4728/10^11) (by norm_num) hX

theorem trig_reduce {c : Bool} {V : LaneOps 32} (h : V.Ieee) {x : BitVec 32} (hx : IsFin binary32 x)
    (h0 : binary32.neg x = false) (hr : binary32.toReal x ≤ 8192) :
    ∃ q : ℕ, q ≤ 5216 ∧ (quadrant V x).toNat = 2 * q ∧
      ∀ r ∈ reduceArg c x (V.convertToFloat (quadrant V x)), Tr r (binary32.toReal x - q * (Real.pi / 2))
        (4728/10^11) 0.7864 := by
  obtain ⟨q, q1, q2, q3, q4, f1, f2⟩ := trig_octant h hx h0 hr
  exact ⟨q, q1, q2, reduceArg_track hx h0 q1 q3 q4 f1 f2⟩

/-- The two approximations. -/
theorem trig_polys {c : Bool} {x : BitVec 32} {v : ℝ} (hx : Tr x v (4728/10^11) 0.7864) :
    (∀ r ∈ sinPoly c (binary32.mul x x) x, Tr r (Real.sin v) (1/2^22) 1) ∧
    (∀ r ∈ cosPoly c (binary32.mul x x), Tr r (Real.cos v) (1/2^22) 1) := by
  constructor
  · exact fun r hr => (sinPoly_track hx r hr).recenter (sinP_error hx.bnd) (by norm_num) (Real.abs_sin_le_one _)
  · exact fun r hr => (cosPoly_track hx r hr).recenter (cosP_error hx.bnd) (by norm_num) (Real.abs_cos_le_one _)

theorem vecSin_track {c : Bool} {V : LaneOps 32} (h : V.Ieee) {x : BitVec 32} (hx : IsFin binary32 x)
    (hr : |binary32.toReal x| ≤ 8192) : ∀ y ∈ vecSin c V x, Tr y (Real.sin (binary32.toReal x)) (1/2^22) 1 := by
  intro y hy
  obtain ⟨a1, a2, a3⟩ := fabs_facts hx hr
  obtain ⟨q, q1, q2, q3⟩ := trig_reduce (c := c) h a1 a2 a3
  unfold vecSin at hy
  dsimp only at hy
  rw [abs_and h, h.sign, sign_and, swap_bit, poly_mask] at hy
  simp only [List.mem_flatMap, List.mem_map] at hy
  obtain ⟨r, hr, c1, h1, s1, h2, rfl⟩ := hy
  rw [h.sel]
  obtain ⟨p1, p2⟩ := trig_polys (c := c) (q3 r hr)
  replace p1 := p1 _ h2
  replace p2 := p2 _ h1
  have hsel : Tr (if decide ((quadrant V (binary32.fabs x)).toNat / 2 % 2 = 0) = true then s1 else c1)
      (if q % 2 = 0 then Real.sin (binary32.toReal (binary32.fabs x) - q * (Real.pi / 2))
      else Real.cos (binary32.toReal (binary32.fabs x) - q * (Real.pi / 2))) (1/2^22) 1 := by
    rw [q2]
    by_cases hq : q % 2 = 0
    · rw [if_pos hq, if_pos (decide_eq_true (by omega))]; exact p1
    · rw [if_neg hq, if_neg (by rw [decide_eq_true_eq]; omega)]; exact p2
  have s1 := hsel.signed (decide ((quadrant V (binary32.fabs x)).toNat / 4 % 2 = 1))
  have s2 := s1.signed (binary32.neg x)
  rw [show signBit (binary32.neg x) ^^^ signBit (decide ((quadrant V (binary32.fabs x)).toNat / 4 % 2 = 1)) =
    signBit (decide ((quadrant V (binary32.fabs x)).toNat / 4 % 2 = 1)) ^^^ signBit (binary32.neg x) from
    BitVec.xor_comm _ _, ← BitVec.xor_assoc]
  refine s2.congr ?_
  have hs := sin_quadrant (binary32.toReal (binary32.fabs x) - q * (Real.pi / 2)) q
  rw [sub_add_cancel, binary32.toReal_fabs] at hs
  rw [binary32.toReal_fabs, q2]
  have e : decide (2 * q / 4 % 2 = 1) = decide (q / 2 % 2 = 1) := by congr 1; rw [eq_iff_iff]; omega
  rw [e]
  simp only [decide_eq_true_eq]
  rw [← hs]
  conv_rhs => rw [toReal_eq_signed x]
  cases binary32.neg x
  · rfl
  · simp only [if_true]; rw [Real.sin_neg]

theorem vecCos_track {c : Bool} {V : LaneOps 32} (h : V.Ieee) {x : BitVec 32} (hx : IsFin binary32 x)
    (hr : |binary32.toReal x| ≤ 8192) : ∀ y ∈ vecCos c V x, Tr y (Real.cos (binary32.toReal x)) (1/2^22) 1 := by
  intro y hy
  obtain ⟨a1, a2, a3⟩ := fabs_facts hx hr
  obtain ⟨q, q1, q2, q3⟩ := trig_reduce (c := c) h a1 a2 a3
  unfold vecCos at hy
  dsimp only at hy
  obtain ⟨c1, c2⟩ := cos_sign q1 q2
  rw [abs_and h, h.intAndnot, c1, c2] at hy
  simp only [List.mem_flatMap, List.mem_map] at hy
  obtain ⟨r, hr, d1, h1, s1, h2, rfl⟩ := hy
  rw [h.sel]
  obtain ⟨p1, p2⟩ := trig_polys (c := c) (q3 r hr)
  replace p1 := p1 _ h2
  replace p2 := p2 _ h1
  have hsel : Tr (if decide (q % 2 = 1) = true then s1 else d1)
      (if q % 2 = 0 then Real.cos (binary32.toReal (binary32.fabs x) - q * (Real.pi / 2))
      else Real.sin (binary32.toReal (binary32.fabs x) - q * (Real.pi / 2))) (1/2^22) 1 := by
    by_cases hq : q % 2 = 0
    · rw [if_pos hq, if_neg (by rw [decide_eq_true_eq]; omega)]; exact p2
    · rw [if_neg hq, if_pos (decide_eq_true (by omega))]; exact p1
  have s1 := hsel.signed (decide ((q + 1) / 2 % 2 = 1))
  refine s1.congr ?_
  have hs := cos_quadrant (binary32.toReal (binary32.fabs x) - q * (Real.pi / 2)) q
  rw [sub_add_cancel, binary32.toReal_fabs, Real.cos_abs] at hs
  rw [binary32.toReal_fabs]
  simp only [decide_eq_true_eq]
  rw [← hs]

end Contract
end Nova
