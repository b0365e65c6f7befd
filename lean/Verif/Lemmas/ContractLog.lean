import Verif.Lemmas.ContractReduce
import Verif.Lemmas.LogFinal

/-!
# The logarithm with contraction
-/

namespace Nova
open FP VecMath

namespace FP.Fmt
variable {w : Nat} {F : Fmt w}

/-- The exact value of an operand. -/
noncomputable def exactValue (F : Fmt w) : Operand w → ℝ
  | .reg x => F.toReal x
  | .prod x y => F.toReal x * F.toReal y

/-- An operand whose product needs no rounding. -/
def Exact (F : Fmt w) : Operand w → Prop
  | .reg x => F.isFinite x = true
  | .prod x y => F.isFinite x = true ∧ F.isFinite y = true ∧ F.isFinite (F.mul x y) = true ∧
      F.toReal (F.mul x y) = F.toReal x * F.toReal y

theorem Exact.value {a : Operand w} (h : F.Exact a) :
    F.isFinite (F.value a) = true ∧ F.toReal (F.value a) = F.exactValue a := by
  cases a with
  | reg x => exact ⟨h, rfl⟩
  | prod x y => exact ⟨h.2.2.1, h.2.2.2⟩

/-- A sum of operands which need no rounding is the rounded exact sum, fused or not. -/
theorem sums_rounds {c : Bool} {r : BitVec w} {a b : Operand w} (hr : r ∈ F.sums c a b) (ha : F.Exact a)
    (hb : F.Exact b) : F.IsRnd (F.exactValue a + F.exactValue b) r := by
  rcases mem_sums hr with g | ⟨-, x, y, rfl, g⟩ | ⟨-, x, y, rfl, g⟩
  · subst g
    have := add_rounds ha.value.1 hb.value.1
    rwa [ha.value.2, hb.value.2] at this
  · subst g
    have := fma_rounds ha.1 ha.2.1 hb.value.1
    rwa [hb.value.2] at this
  · subst g
    have := fma_rounds hb.1 hb.2.1 ha.value.1
    rw [ha.value.2] at this
    rwa [_root_.add_comm]

theorem diffs_rounds {c : Bool} {r : BitVec w} {a b : Operand w} (hr : r ∈ F.diffs c a b) (ha : F.Exact a)
    (hb : F.Exact b) : F.IsRnd (F.exactValue a - F.exactValue b) r := by
  rcases mem_diffs hr with g | ⟨-, x, y, rfl, g⟩ | ⟨-, x, y, rfl, g⟩
  · subst g
    have := sub_rounds' ha.value.1 hb.value.1
    rwa [ha.value.2, hb.value.2] at this
  · subst g
    have := fma_rounds (z := F.negate (F.value b)) ha.1 ha.2.1 (by rw [F.isFinite_negate]; exact hb.value.1)
    rw [F.toReal_negate, hb.value.2] at this
    rwa [sub_eq_add_neg]
  · subst g
    have := fma_rounds (x := F.negate x) (by rw [F.isFinite_negate]; exact hb.1) hb.2.1 ha.value.1
    rw [F.toReal_negate, ha.value.2] at this
    rw [show F.exactValue a - F.exactValue (.prod x y) = -F.toReal x * F.toReal y + F.exactValue a by
      unfold exactValue; ring]
    exact this

/-- A sum which is a number of the format is exact. -/
theorem sums_exact {c : Bool} {r z : BitVec w} {a b : Operand w} (hr : r ∈ F.sums c a b) (ha : F.Exact a)
    (hb : F.Exact b) (hz : F.isFinite z = true) (he : F.toReal z = F.exactValue a + F.exactValue b) :
    F.isFinite r = true ∧ F.toReal r = F.toReal z := by
  have h := sums_rounds hr ha hb
  rw [← he] at h
  obtain ⟨k1, k2⟩ := key_real (h.same (IsRnd.self hz))
  exact ⟨k1.trans hz, k2⟩

theorem diffs_exact {c : Bool} {r z : BitVec w} {a b : Operand w} (hr : r ∈ F.diffs c a b) (ha : F.Exact a)
    (hb : F.Exact b) (hz : F.isFinite z = true) (he : F.toReal z = F.exactValue a - F.exactValue b) :
    F.isFinite r = true ∧ F.toReal r = F.toReal z := by
  have h := diffs_rounds hr ha hb
  rw [← he] at h
  obtain ⟨k1, k2⟩ := key_real (h.same (IsRnd.self hz))
  exact ⟨k1.trans hz, k2⟩

end FP.Fmt

namespace Contract

theorem logHorner_track {c : Bool} {x : BitVec 32} {v : ℝ} (ht : Tr x v 0 0.41422) :
    ∀ r ∈ logHorner c x, Tr r (logQ v) (989/2^34) (1003/2^11) := by
  intro r hr
  unfold logHorner at hr
  try dsimp only at hr
  simp only [List.mem_flatMap] at hr
  obtain ⟨p1, m1, p2, m2, p3, m3, p4, m4, p5, m5, p6, m6, p7, m7, m8⟩ := hr
  have t1 := Op.const (x := litD 7.0376836292e-2) (9445819/2^27) (2307/2^15) (by decide +kernel) (by norm_num)
  have t2 := Op.const (x := litD 1.1514610310e-1) (1931831/2^24) (1887/2^14) (by decide +kernel) (by norm_num)
  have t3 := Op.const (x := litD 1.1676998740e-1) (7836301/2^26) (3827/2^15) (by decide +kernel) (by norm_num)
  have t4 := Op.const (x := litD 1.2420140846e-1) (16670031/2^27) (2035/2^14) (by decide +kernel) (by norm_num)
  have t5 := Op.const (x := litD 1.4249322787e-1) (9562559/2^26) (2335/2^14) (by decide +kernel) (by norm_num)
  have t6 := Op.const (x := litD 1.6668057665e-1) (699109/2^22) (2731/2^14) (by decide +kernel) (by norm_num)
  have t7 := Op.const (x := litD 2.0000714765e-1) (3355563/2^24) (3277/2^14) (by decide +kernel) (by norm_num)
  have t8 := Op.const (x := litD 2.4999993993e-1) (4194303/2^24) (1/2^2) (by decide +kernel) (by norm_num)
  have t9 := Op.const (x := litD 3.3333331174e-1) (5592405/2^24) (2731/2^13) (by decide +kernel) (by norm_num)
  have t10 := Op.mul (D := 3823/2^17) (E := 239/2^37) t1 ht.op (by norm_num) (by norm_num) (by norm_num)
  have t11 := Op.sub (D := 2365/2^14) (E := 711/2^36) m1 t10 t2 (by norm_num) (by norm_num) (by norm_num)
  have t12 := Op.mul (D := 3919/2^16) (E := 1079/2^37) t11 ht.op (by norm_num) (by norm_num) (by norm_num)
  have t13 := Op.add (D := 1447/2^13) (E := 2527/2^37) m2 t12 t3 (by norm_num) (by norm_num) (by norm_num)
  have t14 := Op.mul (D := 1199/2^14) (E := 3293/2^38) t13 ht.op (by norm_num) (by norm_num) (by norm_num)
  have t15 := Op.sub (D := 1617/2^13) (E := 51/2^31) m3 t14 t4 (by norm_num) (by norm_num) (by norm_num)
  have t16 := Op.mul (D := 335/2^12) (E := 4045/2^38) t15 ht.op (by norm_num) (by norm_num) (by norm_num)
  have t17 := Op.add (D := 3675/2^14) (E := 3861/2^37) m4 t16 t5 (by norm_num) (by norm_num) (by norm_num)
  have t18 := Op.mul (D := 3045/2^15) (E := 2361/2^37) t17 ht.op (by norm_num) (by norm_num) (by norm_num)
  have t19 := Op.sub (D := 2127/2^13) (E := 2245/2^36) m5 t18 t6 (by norm_num) (by norm_num) (by norm_num)
  have t20 := Op.mul (D := 3525/2^15) (E := 1371/2^36) t19 ht.op (by norm_num) (by norm_num) (by norm_num)
  have t21 := Op.add (D := 315/2^10) (E := 329/2^33) m6 t20 t7 (by norm_num) (by norm_num) (by norm_num)
  have t22 := Op.mul (D := 261/2^11) (E := 3225/2^37) t21 ht.op (by norm_num) (by norm_num) (by norm_num)
  have t23 := Op.sub (D := 773/2^11) (E := 3159/2^36) m7 t22 t8 (by norm_num) (by norm_num) (by norm_num)
  have t24 := Op.mul (D := 1281/2^13) (E := 3899/2^37) t23 ht.op (by norm_num) (by norm_num) (by norm_num)
  have t25 := Op.add (D := 1003/2^11) (E := 989/2^34) m8 t24 t9 (by norm_num) (by norm_num) (by norm_num)
  refine t25.tr.congr ?_
  unfold logQ
  push_cast
  ring

theorem log_tail1 {c : Bool} {x fe : BitVec 32} {v : ℝ} {k : ℤ} (ht : Tr x v 0 0.41422)
    (h1 : -0.29290 ≤ v) (h2 : v ≤ 0.41422) (hf : Tr fe k 0 1) (hk : |k| ≤ 1) :
    ∀ r ∈ logTail c x fe, IsFin binary32 r ∧
    |binary32.toReal r - (Real.log (1 + v) + k * Real.log 2)| ≤
      53 / 10 ^ 9 + 1 / 2 ^ 24 * |Real.log (1 + v) + k * Real.log 2| := by
  have L3 := Real.log_two_near_10
  intro r hr
  unfold logTail at hr
  try dsimp only at hr
  simp only [List.mem_flatMap] at hr
  obtain ⟨p, m0, p1, m1, p2, m2, p3, m3, m4⟩ := hr
  have hp := logHorner_track ht p m0
  have hl := log_half h1 h2
  have hP := logP_error h1 h2
  have hv : |v| ≤ 0.41422 := by rw [abs_le]; norm_num at *; constructor <;> linarith
  have hkr : |(k : ℝ)| ≤ 1 := by exact_mod_cast hk
  have hP' : |logP v - Real.log (1 + v)| ≤ 166 / 10 ^ 11 := by
    refine hP.trans ?_; norm_num at *; linarith
  have hkc : |(k : ℝ) * (-14581891 / 2 ^ 36)| ≤ 1 * (2.122 / 10 ^ 4) := by
    rw [abs_mul]; exact mul_le_mul hkr (by norm_num [abs_of_neg]) (abs_nonneg _) (by norm_num)
  have hz : |v + (logQ v * v * v * v + k * ((-14581891/2^36 : ℚ) : ℝ) - ((1/2^1 : ℚ) : ℝ) * v * v)| ≤ 87/250 := by
    have e : v + (logQ v * v * v * v + k * ((-14581891/2^36 : ℚ) : ℝ) - ((1/2^1 : ℚ) : ℝ) * v * v) =
        (logP v - Real.log (1 + v)) + Real.log (1 + v) + k * (-14581891 / 2 ^ 36) := by
      unfold logP; push_cast; ring
    rw [e]
    rw [abs_le] at hP' hl hkc ⊢
    norm_num at hP' hl hkc ⊢
    constructor <;> linarith
  have s1 := Op.mul (D := 831/2^12) (E := 1235/2^35) hp.op ht.op (by norm_num) (by norm_num) (by norm_num)
  have s2 := Op.mul (D := 1377/2^14) (E := 2735/2^37) s1 ht.op (by norm_num) (by norm_num) (by norm_num)
  have s3 := Op.mul (D := 1141/2^15) (E := 2837/2^38) s2 ht.op (by norm_num) (by norm_num) (by norm_num)
  have s4 := Op.const (x := litD (-2.12194440e-4)) (-14581891/2^36) (3561/2^24) (by decide +kernel) (by norm_num)
  have s5 := Op.mul (D := 3561/2^24) (E := 1781/2^47) hf.op s4 (by norm_num) (by norm_num) (by norm_num)
  have s6 := Op.add (D := 287/2^13) (E := 3415/2^38) m1 s3 s5 (by norm_num) (by norm_num) (by norm_num)
  have s7 := Op.const (x := litD 0.5) (1/2^1) (1/2^1) (by decide +kernel) (by norm_num)
  have s8 := Op.mul (D := 1697/2^13) (E := 3395/2^38) s7 ht.op (by norm_num) (by norm_num) (by norm_num)
  have s9 := Op.mul (D := 703/2^13) (E := 2813/2^38) s8 ht.op (by norm_num) (by norm_num) (by norm_num)
  have s10 := Op.sub (D := 495/2^12) (E := 2053/2^36) m2 s6 s9 (by norm_num) (by norm_num) (by norm_num)
  have s11 := Op.add_of (D := 87/250) (E := 3479/2^36) m3 ht.op s10 hz (by norm_num) (by norm_num)
  have c1v : binary32.toReal (litD 0.693359375) = 355 / 2 ^ 9 := by
    rw [isVal_value (q := 355/2^9) (by decide +kernel)]; norm_num
  have hfv : binary32.toReal fe = k := by
    have := hf.err; rw [abs_nonpos_iff, sub_eq_zero] at this; exact this
  have o1 := Op.exact_prod (isVal_fin (q := 355/2^9) (by decide +kernel)) hf.fin
    (log_product32 (K := 1) hf hk (by norm_num)) (by rw [c1v, hfv, mul_comm])
  have hg : |(logP v + k * (-14581891 / 2 ^ 36) + k * (355 / 2 ^ 9)) - (Real.log (1 + v) + k * Real.log 2)| ≤ 18 / 10 ^ 10 := by
    rw [show (logP v + k * (-14581891 / 2 ^ 36) + k * (355 / 2 ^ 9)) - (Real.log (1 + v) + k * Real.log 2) =
      (logP v - Real.log (1 + v)) + k * (-14581891 / 2 ^ 36 + 355 / 2 ^ 9 - Real.log 2) by ring]
    have a1 : |-14581891 / 2 ^ 36 + 355 / 2 ^ 9 - Real.log 2| ≤ 1.163 / 10 ^ 10 := by
      rw [abs_le] at L3 ⊢; constructor <;> norm_num at * <;> linarith
    have a2 : |(k : ℝ) * (-14581891 / 2 ^ 36 + 355 / 2 ^ 9 - Real.log 2)| ≤ 1 * (1.163 / 10 ^ 10) := by
      rw [abs_mul]; exact mul_le_mul hkr a1 (abs_nonneg _) (by norm_num)
    rw [abs_le] at hP' a2 ⊢
    norm_num at hP' a2 ⊢
    constructor <;> linarith
  have hsum : |v + (logQ v * v * v * v + k * ((-14581891/2^36 : ℚ) : ℝ) - ((1/2^1 : ℚ) : ℝ) * v * v) + k * (355 / 2 ^ 9) -
      (Real.log (1 + v) + k * Real.log 2)| ≤ 18 / 10 ^ 10 := by
    refine le_trans (le_of_eq ?_) hg
    congr 1
    unfold logP; push_cast; ring
  have hD : |v + (logQ v * v * v * v + k * ((-14581891/2^36 : ℚ) : ℝ) - ((1/2^1 : ℚ) : ℝ) * v * v) + k * (355 / 2 ^ 9)| ≤
      |Real.log (1 + v) + k * Real.log 2| + 18 / 10 ^ 10 := by
    have := abs_sub_abs_le_abs_sub (v + (logQ v * v * v * v + k * ((-14581891/2^36 : ℚ) : ℝ) - ((1/2^1 : ℚ) : ℝ) * v * v) +
      k * (355 / 2 ^ 9)) (Real.log (1 + v) + k * Real.log 2)
    linarith
  have hL : |Real.log (1 + v) + k * Real.log 2| ≤ 100 := by
    refine (abs_add_le _ _).trans ?_
    rw [abs_mul]
    have a1 : |Real.log 2| ≤ 0.7 := by rw [abs_le] at L3 ⊢; constructor <;> norm_num at * <;> linarith
    have a2 := mul_le_mul hkr a1 (abs_nonneg _) (by norm_num)
    norm_num at *
    linarith
  generalize |Real.log (1 + v) + k * Real.log 2| = L at *
  have r1 := Op.add_of (D := L + 18 / 10 ^ 10) (E := 3479/2^36 + 1 / 2 ^ 24 * (L + 18 / 10 ^ 10 + 3479/2^36) + 1 / 2 ^ 150) m4 s11.op o1 hD (by norm_num)
    (by norm_num at *; linarith)
  refine ⟨r1.fin, ?_⟩
  have e1 := r1.err
  generalize binary32.toReal r = R at *
  have := abs_add_le (R - (v + (logQ v * v * v * v + k * ((-14581891/2^36 : ℚ) : ℝ) - ((1/2^1 : ℚ) : ℝ) * v * v) +
    k * (355 / 2 ^ 9))) (v + (logQ v * v * v * v + k * ((-14581891/2^36 : ℚ) : ℝ) - ((1/2^1 : ℚ) : ℝ) * v * v) +
    k * (355 / 2 ^ 9) - (Real.log (1 + v) + k * Real.log 2))
  rw [sub_add_sub_cancel] at this
  have fin := this.trans (add_le_add e1 hsum)
  refine fin.trans ?_
  norm_num
  linarith

theorem log_tail128 {c : Bool} {x fe : BitVec 32} {v : ℝ} {k : ℤ} (ht : Tr x v 0 0.41422)
    (h1 : -0.29290 ≤ v) (h2 : v ≤ 0.41422) (hf : Tr fe k 0 128) (hk : |k| ≤ 128) :
    ∀ r ∈ logTail c x fe, IsFin binary32 r ∧
    |binary32.toReal r - (Real.log (1 + v) + k * Real.log 2)| ≤
      74 / 10 ^ 9 + 1 / 2 ^ 24 * |Real.log (1 + v) + k * Real.log 2| := by
  have L3 := Real.log_two_near_10
  intro r hr
  unfold logTail at hr
  try dsimp only at hr
  simp only [List.mem_flatMap] at hr
  obtain ⟨p, m0, p1, m1, p2, m2, p3, m3, m4⟩ := hr
  have hp := logHorner_track ht p m0
  have hl := log_half h1 h2
  have hP := logP_error h1 h2
  have hv : |v| ≤ 0.41422 := by rw [abs_le]; norm_num at *; constructor <;> linarith
  have hkr : |(k : ℝ)| ≤ 128 := by exact_mod_cast hk
  have hP' : |logP v - Real.log (1 + v)| ≤ 166 / 10 ^ 11 := by
    refine hP.trans ?_; norm_num at *; linarith
  have hkc : |(k : ℝ) * (-14581891 / 2 ^ 36)| ≤ 128 * (2.122 / 10 ^ 4) := by
    rw [abs_mul]; exact mul_le_mul hkr (by norm_num [abs_of_neg]) (abs_nonneg _) (by norm_num)
  have hz : |v + (logQ v * v * v * v + k * ((-14581891/2^36 : ℚ) : ℝ) - ((1/2^1 : ℚ) : ℝ) * v * v)| ≤ 3/2^3 := by
    have e : v + (logQ v * v * v * v + k * ((-14581891/2^36 : ℚ) : ℝ) - ((1/2^1 : ℚ) : ℝ) * v * v) =
        (logP v - Real.log (1 + v)) + Real.log (1 + v) + k * (-14581891 / 2 ^ 36) := by
      unfold logP; push_cast; ring
    rw [e]
    rw [abs_le] at hP' hl hkc ⊢
    norm_num at hP' hl hkc ⊢
    constructor <;> linarith
  have s1 := Op.mul (D := 831/2^12) (E := 1235/2^35) hp.op ht.op (by norm_num) (by norm_num) (by norm_num)
  have s2 := Op.mul (D := 1377/2^14) (E := 2735/2^37) s1 ht.op (by norm_num) (by norm_num) (by norm_num)
  have s3 := Op.mul (D := 1141/2^15) (E := 2837/2^38) s2 ht.op (by norm_num) (by norm_num) (by norm_num)
  have s4 := Op.const (x := litD (-2.12194440e-4)) (-14581891/2^36) (3561/2^24) (by decide +kernel) (by norm_num)
  have s5 := Op.mul (D := 3561/2^17) (E := 1781/2^40) hf.op s4 (by norm_num) (by norm_num) (by norm_num)
  have s6 := Op.add (D := 4063/2^16) (E := 1075/2^36) m1 s3 s5 (by norm_num) (by norm_num) (by norm_num)
  have s7 := Op.const (x := litD 0.5) (1/2^1) (1/2^1) (by decide +kernel) (by norm_num)
  have s8 := Op.mul (D := 1697/2^13) (E := 3395/2^38) s7 ht.op (by norm_num) (by norm_num) (by norm_num)
  have s9 := Op.mul (D := 703/2^13) (E := 2813/2^38) s8 ht.op (by norm_num) (by norm_num) (by norm_num)
  have s10 := Op.sub (D := 1211/2^13) (E := 149/2^32) m2 s6 s9 (by norm_num) (by norm_num) (by norm_num)
  have s11 := Op.add_of (D := 3/2^3) (E := 3921/2^36) m3 ht.op s10 hz (by norm_num) (by norm_num)
  have c1v : binary32.toReal (litD 0.693359375) = 355 / 2 ^ 9 := by
    rw [isVal_value (q := 355/2^9) (by decide +kernel)]; norm_num
  have hfv : binary32.toReal fe = k := by
    have := hf.err; rw [abs_nonpos_iff, sub_eq_zero] at this; exact this
  have o1 := Op.exact_prod (isVal_fin (q := 355/2^9) (by decide +kernel)) hf.fin
    (log_product32 (K := 128) hf hk (by norm_num)) (by rw [c1v, hfv, mul_comm])
  have hg : |(logP v + k * (-14581891 / 2 ^ 36) + k * (355 / 2 ^ 9)) - (Real.log (1 + v) + k * Real.log 2)| ≤ 1656 / 10 ^ 11 := by
    rw [show (logP v + k * (-14581891 / 2 ^ 36) + k * (355 / 2 ^ 9)) - (Real.log (1 + v) + k * Real.log 2) =
      (logP v - Real.log (1 + v)) + k * (-14581891 / 2 ^ 36 + 355 / 2 ^ 9 - Real.log 2) by ring]
    have a1 : |-14581891 / 2 ^ 36 + 355 / 2 ^ 9 - Real.log 2| ≤ 1.163 / 10 ^ 10 := by
      rw [abs_le] at L3 ⊢; constructor <;> norm_num at * <;> linarith
    have a2 : |(k : ℝ) * (-14581891 / 2 ^ 36 + 355 / 2 ^ 9 - Real.log 2)| ≤ 128 * (1.163 / 10 ^ 10) := by
      rw [abs_mul]; exact mul_le_mul hkr a1 (abs_nonneg _) (by norm_num)
    rw [abs_le] at hP' a2 ⊢
    norm_num at hP' a2 ⊢
    constructor <;> linarith
  have hsum : |v + (logQ v * v * v * v + k * ((-14581891/2^36 : ℚ) : ℝ) - ((1/2^1 : ℚ) : ℝ) * v * v) + k * (355 / 2 ^ 9) -
      (Real.log (1 + v) + k * Real.log 2)| ≤ 1656 / 10 ^ 11 := by
    refine le_trans (le_of_eq ?_) hg
    congr 1
    unfold logP; push_cast; ring
  have hD : |v + (logQ v * v * v * v + k * ((-14581891/2^36 : ℚ) : ℝ) - ((1/2^1 : ℚ) : ℝ) * v * v) + k * (355 / 2 ^ 9)| ≤
      |Real.log (1 + v) + k * Real.log 2| + 1656 / 10 ^ 11 := by
    have := abs_sub_abs_le_abs_sub (v + (logQ v * v * v * v + k * ((-14581891/2^36 : ℚ) : ℝ) - ((1/2^1 : ℚ) : ℝ) * v * v) +
      k * (355 / 2 ^ 9)) (Real.log (1 + v) + k * Real.log 2)
    linarith
  have hL : |Real.log (1 + v) + k * Real.log 2| ≤ 100 := by
    refine (abs_add_le _ _).trans ?_
    rw [abs_mul]
    have a1 : |Real.log 2| ≤ 0.7 := by rw [abs_le] at L3 ⊢; constructor <;> norm_num at * <;> linarith
    have a2 := mul_le_mul hkr a1 (abs_nonneg _) (by norm_num)
    norm_num at *
    linarith
  generalize |Real.log (1 + v) + k * Real.log 2| = L at *
  have r1 := Op.add_of (D := L + 1656 / 10 ^ 11) (E := 3921/2^36 + 1 / 2 ^ 24 * (L + 1656 / 10 ^ 11 + 3921/2^36) + 1 / 2 ^ 150) m4 s11.op o1 hD (by norm_num)
    (by norm_num at *; linarith)
  refine ⟨r1.fin, ?_⟩
  have e1 := r1.err
  generalize binary32.toReal r = R at *
  have := abs_add_le (R - (v + (logQ v * v * v * v + k * ((-14581891/2^36 : ℚ) : ℝ) - ((1/2^1 : ℚ) : ℝ) * v * v) +
    k * (355 / 2 ^ 9))) (v + (logQ v * v * v * v + k * ((-14581891/2^36 : ℚ) : ℝ) - ((1/2^1 : ℚ) : ℝ) * v * v) +
    k * (355 / 2 ^ 9) - (Real.log (1 + v) + k * Real.log 2))
  rw [sub_add_sub_cancel] at this
  have fin := this.trans (add_le_add e1 hsum)
  refine fin.trans ?_
  norm_num
  linarith

theorem log_tail0 {c : Bool} {x fe : BitVec 32} {v : ℝ} (ht : Tr x v 0 0.41422)
    (h1 : -0.29290 ≤ v) (h2 : v ≤ 0.41422) (hf : Tr fe 0 0 1) (hs0 : 1 / 2 ^ 24 ≤ |v|) :
    ∀ r ∈ logTail c x fe, IsFin binary32 r ∧
    |binary32.toReal r - Real.log (1 + v)| ≤ 2581/2^34 * |v| := by
  intro r hr
  unfold logTail at hr
  try dsimp only at hr
  simp only [List.mem_flatMap] at hr
  obtain ⟨p, m0, p1, m1, p2, m2, p3, m3, m4⟩ := hr
  have hp := logHorner_track ht p m0
  have hP := logP_error h1 h2
  have hl := (log_size h1 h2).2
  have hs1 : |v| ≤ 0.41422 := ht.bnd
  have hts : Tr x v 0 |v| := ht.bound le_rfl
  generalize hs : |v| = s at *
  have hfv : binary32.toReal fe = 0 := by
    have := hf.err; rw [abs_nonpos_iff, sub_eq_zero] at this; exact this
  have hh := Op.const (x := litD 0.5) (1/2) (1/2) (by decide +kernel) (by norm_num)
  have c1 : IsFin binary32 (litD (-2.12194440e-4)) := isVal_fin (q := -14581891/2^36) (by decide +kernel)
  have c2 : IsFin binary32 (litD 0.693359375) := isVal_fin (q := 355/2^9) (by decide +kernel)
  have z1 := mul_zero32 hf.fin c1 hfv
  have hzs : Op (.prod fe (litD (-2.12194440e-4))) 0 0 0 :=
    Op.exact_prod hf.fin c1 ⟨z1.1, by rw [z1.2]; simp, by simp⟩ (by rw [hfv, zero_mul])
  have hz : |v + (logQ v * v * v * v + 0 - ((1/2 : ℚ) : ℝ) * v * v)| ≤ 1187/1000 * s := by
    have e : v + (logQ v * v * v * v + 0 - ((1/2 : ℚ) : ℝ) * v * v) =
        (logP v - Real.log (1 + v)) + Real.log (1 + v) := by
      unfold logP; push_cast; ring
    rw [e]
    refine (abs_add_le _ _).trans ?_
    norm_num at hP hl hs0 ⊢
    linarith
  have u1 := Op.mul (D := 1003/2^11 * s) (E := 1491/2^34 * s) hp.op hts.op (by norm_num at hs0 hs1 ⊢ <;> linarith) (by norm_num at hs0 hs1 ⊢ <;> linarith) (by norm_num at hs0 hs1 ⊢ <;> linarith)
  have u2 := Op.mul (D := 831/2^12 * s) (E := 1651/2^35 * s) u1 ht.op (by norm_num at hs0 hs1 ⊢ <;> linarith) (by norm_num at hs0 hs1 ⊢ <;> linarith) (by norm_num at hs0 hs1 ⊢ <;> linarith)
  have u3 := Op.mul (D := 1377/2^14 * s) (E := 3425/2^37 * s) u2 ht.op (by norm_num at hs0 hs1 ⊢ <;> linarith) (by norm_num at hs0 hs1 ⊢ <;> linarith) (by norm_num at hs0 hs1 ⊢ <;> linarith)
  have u4 := Op.add (D := 1377/2^14 * s) (E := 2057/2^36 * s) m1 u3 hzs (by norm_num at hs0 hs1 ⊢ <;> linarith) (by norm_num at hs0 hs1 ⊢ <;> linarith) (by norm_num at hs0 hs1 ⊢ <;> linarith)
  have u5 := Op.mul (D := 1/2^1 * s) (E := 2049/2^36 * s) hh hts.op (by norm_num at hs0 hs1 ⊢ <;> linarith) (by norm_num at hs0 hs1 ⊢ <;> linarith) (by norm_num at hs0 hs1 ⊢ <;> linarith)
  have u6 := Op.mul (D := 1697/2^13 * s) (E := 3395/2^37 * s) u5 ht.op (by norm_num at hs0 hs1 ⊢ <;> linarith) (by norm_num at hs0 hs1 ⊢ <;> linarith) (by norm_num at hs0 hs1 ⊢ <;> linarith)
  have u7 := Op.sub (D := 1193/2^12 * s) (E := 1237/2^34 * s) m2 u4 u6 (by norm_num at hs0 hs1 ⊢ <;> linarith) (by norm_num at hs0 hs1 ⊢ <;> linarith) (by norm_num at hs0 hs1 ⊢ <;> linarith)
  have u8 := Op.add_of (D := 1187/1000 * s) (E := 2453/2^34 * s) m3 hts.op u7 hz (by norm_num at hs0 hs1 ⊢ <;> linarith) (by norm_num at hs0 hs1 ⊢ <;> linarith)
  have e1 := u8.err
  have z2 : IsFin binary32 (binary32.mul (litD 0.693359375) fe) ∧
      binary32.toReal (binary32.mul (litD 0.693359375) fe) = 0 := by
    have := mul_exact32 c2 hf.fin (m := 0) (s := 0) (by norm_num) (by norm_num) (by rw [hfv]; norm_num)
    rwa [hfv, mul_zero] at this
  have z3 := Fmt.sums_exact (z := p3) m4 u8.fin ⟨c2, hf.fin, z2.1, by rw [z2.2, hfv, mul_zero]⟩ u8.fin
    (by unfold Fmt.exactValue; dsimp only; rw [hfv, mul_zero, add_zero])
  refine ⟨z3.1, ?_⟩
  rw [z3.2]
  rw [show v + (logQ v * v * v * v + 0 - ((1/2 : ℚ) : ℝ) * v * v) = logP v by unfold logP; push_cast; ring] at e1
  generalize binary32.toReal p3 = R at *
  have := abs_add_le (R - logP v) (logP v - Real.log (1 + v))
  rw [sub_add_sub_cancel] at this
  norm_num at *
  linarith

theorem log_tail_one {c : Bool} {x fe : BitVec 32} {v : ℝ} (ht : Tr x v 0 0.41422)
    (h0 : binary32.toReal x = 0) (hf : IsFin binary32 fe) (hf0 : binary32.toReal fe = 0) :
    ∀ r ∈ logTail c x fe, IsFin binary32 r ∧ binary32.toReal r = 0 := by
  intro r hr
  unfold logTail at hr
  try dsimp only at hr
  simp only [List.mem_flatMap] at hr
  obtain ⟨p, m0, p1, m1, p2, m2, p3, m3, m4⟩ := hr
  have hp := logHorner_track ht p m0
  have c1 : IsFin binary32 (litD (-2.12194440e-4)) := isVal_fin (q := -14581891/2^36) (by decide +kernel)
  have c2 : IsFin binary32 (litD 0.693359375) := isVal_fin (q := 355/2^9) (by decide +kernel)
  have c3 : IsFin binary32 (litD 0.5) := isVal_fin (q := 1/2) (by decide +kernel)
  have zf : binary32.isFinite 0#32 = true := by decide
  have zv : binary32.toReal 0#32 = 0 := by unfold Fmt.toReal; rw [show binary32.units 0#32 = 0 by decide]; simp
  have a1 := mul_zero32' hp.fin ht.fin h0
  have a2 := mul_zero32' a1.1 ht.fin h0
  have a3 := mul_zero32' a2.1 ht.fin h0
  have a4 := mul_zero32 hf c1 hf0
  have b6 := mul_zero32' c3 ht.fin h0
  have a6 := mul_zero32' b6.1 ht.fin h0
  have a9 := mul_zero32' c2 hf hf0
  obtain ⟨f1, e1⟩ := Fmt.sums_exact (z := 0#32) m1 ⟨a2.1, ht.fin, a3.1, by rw [a3.2, h0, mul_zero]⟩
    ⟨hf, c1, a4.1, by rw [a4.2, hf0, zero_mul]⟩ zf
    (by unfold Fmt.exactValue; dsimp only; rw [h0, hf0, zv]; ring)
  obtain ⟨f2, e2⟩ := Fmt.diffs_exact (z := 0#32) m2 f1 ⟨b6.1, ht.fin, a6.1, by rw [a6.2, h0, mul_zero]⟩ zf
    (by unfold Fmt.exactValue; dsimp only; rw [h0, e1, zv]; ring)
  obtain ⟨f3, e3⟩ := Fmt.sums_exact (z := 0#32) m3 ht.fin f2 zf
    (by unfold Fmt.exactValue; dsimp only; rw [h0, e2, zv]; ring)
  obtain ⟨f4, e4⟩ := Fmt.sums_exact (z := 0#32) m4 f3 ⟨c2, hf, a9.1, by rw [a9.2, hf0, mul_zero]⟩ zf
    (by unfold Fmt.exactValue; dsimp only; rw [hf0, e3, zv]; ring)
  exact ⟨f4, e4.trans zv⟩

attribute [local irreducible] litD litF in
theorem vecLog_parts {c : Bool} {V : LaneOps 32} (h : V.Ieee) {x : BitVec 32} :
    ∀ r ∈ vecLog c V x, r ∈ logTail c (logArg V x) (logExp V x) := by
  intro r hr
  unfold vecLog at hr
  simp only [List.mem_flatMap] at hr
  obtain ⟨d, m1, t, m2, m3⟩ := hr
  have e1 : d = binary32.sub ((frexp V x).1 &&& V.maskLt (frexp V x).1 (litF 0.707106781186547524)) V.one := by
    rcases mem_diffs m1 with g | ⟨-, _, _, g, -⟩ | ⟨-, _, _, g, -⟩
    · exact g
    · cases g
    · cases g
  have e2 : t = binary32.add (frexp V x).1 d := by
    rcases mem_sums m2 with g | ⟨-, _, _, g, -⟩ | ⟨-, _, _, g, -⟩
    · exact g
    · cases g
    · cases g
  have e3 : t = logArg V x := by
    unfold logArg; rw [h.add, h.sub, e2, e1]
  rw [e3] at m3
  exact m3

theorem vecLog_error_any {c : Bool} {V : LaneOps 32} (h : V.Ieee) (h86 : IsX86Class V) {x : BitVec 32}
    (hx : expField x ≤ 254) (hn : binary32.neg x = false) :
    ∀ r ∈ vecLog c V x, IsFin binary32 r ∧
      |binary32.toReal r - Real.log (binary32.toReal (frexp V x).1 * 2 ^ ((expField x : ℤ) - 126))| ≤
      1 / 2 ^ 22 * |Real.log (binary32.toReal (frexp V x).1 * 2 ^ ((expField x : ℤ) - 126))| := by
  intro r hr
  replace hr := vecLog_parts h r hr
  obtain ⟨v, k, ht, h1, h2, h3, hk, hf, hfv, hX⟩ := log_reduce_parts h h86 hx hn
  have hkr : |(k : ℝ)| ≤ 128 := by exact_mod_cast hk
  have hTf : ∀ K : ℝ, |(k : ℝ)| ≤ K → Tr (logExp V x) k 0 K :=
    fun K hK => ⟨hf, by rw [hfv, sub_self, abs_zero], hK⟩
  refine log_error_of h1 h2 h3 hX ?_ ?_ ?_ ?_
  · intro h0 h3
    have ht0 : binary32.toReal (logArg V x) = 0 := by
      have := ht.err; rw [abs_nonpos_iff, sub_eq_zero] at this; rw [this, h3]
    exact log_tail_one ht ht0 hf (by rw [hfv, h0]; simp) r hr
  · intro h0 h3
    subst h0
    rw [Int.cast_zero] at hTf
    exact log_tail0 ht h1 h2 (hTf 1 (by simp)) h3 r hr
  · intro h0
    have hk1 : |(k : ℝ)| = 1 := by exact_mod_cast h0
    exact log_tail1 ht h1 h2 (hTf 1 hk1.le) h0.le r hr
  · exact log_tail128 ht h1 h2 (hTf 128 hkr) hk r hr

/-- The relative error of `vec_log_float` for normal positive numbers. -/
theorem vecLog_error {c : Bool} {V : LaneOps 32} (h : V.Ieee) (h86 : IsX86Class V) {x : BitVec 32} (hx : IsNormal x)
    (hn : binary32.neg x = false) :
    ∀ r ∈ vecLog c V x, IsFin binary32 r ∧
      |binary32.toReal r - Real.log (binary32.toReal x)| ≤ 1 / 2 ^ 22 * |Real.log (binary32.toReal x)| := by
  intro r hr
  have := vecLog_error_any h h86 (expField_normal hx).2 hn r hr
  rwa [← (frexp_range h86 x).2.2.2.2, ← (C44_frexp h86 x hx).1] at this

/-- The logarithm of zero and of subnormal numbers is about that of `2^-127`. -/
theorem vecLog_subnormal {c : Bool} {V : LaneOps 32} (h : V.Ieee) (h86 : IsX86Class V) {x : BitVec 32}
    (hx : expField x = 0) (hn : binary32.neg x = false) :
    ∀ r ∈ vecLog c V x, IsFin binary32 r ∧ -88.03 ≤ binary32.toReal r ∧ binary32.toReal r ≤ -87.33 := by
  intro r hr
  obtain ⟨r1, r2⟩ := vecLog_error_any h h86 (by omega) hn r hr
  exact ⟨r1, log_subnormal_of h86 hx hn r2⟩

end Contract
end Nova
