import Verif.Lemmas.BitMath
import Mathlib.Tactic.IntervalCases

/-! # frexp and ldexp -/

namespace Nova
open FP VecMath

/-- Exponent field -/
def expField (x : BitVec 32) : Nat := binary32.code x / 2 ^ 23

theorem code32 (x : BitVec 32) : binary32.code x = x.toNat % 2 ^ 31 := rfl

theorem expField_lt (x : BitVec 32) : expField x < 256 := by
  unfold expField; rw [code32]; omega

theorem and_expMask (x : BitVec 32) : (0x7F800000#32 &&& x).toNat = expField x * 2 ^ 23 := by
  have h : 0x7F800000#32 &&& x = ((x <<< 1) >>> 24) <<< 23 := by
    apply BitVec.eq_of_getLsbD_eq
    intro i hi
    interval_cases i <;> simp
  rw [h]
  simp only [BitVec.toNat_shiftLeft, BitVec.toNat_ushiftRight, Nat.shiftLeft_eq, Nat.shiftRight_eq_div_pow]
  unfold expField; rw [code32]
  have := x.isLt
  omega

theorem split_exp (x : BitVec 32) : (~~~0x7F800000#32 &&& x) + (0x7F800000#32 &&& x) = x := by
  rw [BitVec.add_eq_or_of_and_eq_zero]
  · apply BitVec.eq_of_getLsbD_eq
    intro i hi
    simp only [BitVec.getLsbD_or, BitVec.getLsbD_and, BitVec.getLsbD_not, hi, decide_true, Bool.true_and]
    cases (0x7F800000#32).getLsbD i <;> simp
  · apply BitVec.eq_of_getLsbD_eq
    intro i hi
    simp only [BitVec.getLsbD_and, BitVec.getLsbD_not, hi, decide_true, Bool.true_and, BitVec.getLsbD_zero]
    cases (0x7F800000#32).getLsbD i <;> simp

/-- Replacing the exponent field. -/
theorem or_exp {x y : BitVec 32} {E : Nat} (hy : y.toNat = E * 2 ^ 23) (hE : E < 256) :
    (~~~0x7F800000#32 &&& x) ||| y = x + (y - (0x7F800000#32 &&& x)) := by
  have h : (~~~0x7F800000#32 &&& x) &&& y = 0#32 := by
    apply BitVec.eq_of_getLsbD_eq
    intro i hi
    have hyi : y.getLsbD i = (decide (23 ≤ i) && E.testBit (i - 23)) := by
      rw [BitVec.getLsbD, hy, Nat.testBit_mul_two_pow]
    have hEi : 8 ≤ i - 23 → E.testBit (i - 23) = false := fun h =>
      Nat.testBit_lt_two_pow (lt_of_lt_of_le hE (Nat.pow_le_pow_right (n := 2) (by decide) h))
    simp only [BitVec.getLsbD_and, BitVec.getLsbD_not, hi, decide_true, Bool.true_and, BitVec.getLsbD_zero, hyi]
    by_cases h1 : 23 ≤ i
    · by_cases h2 : 8 ≤ i - 23
      · rw [hEi h2]; simp
      · have : (0x7F800000#32).getLsbD i = true := by interval_cases i <;> first | rfl | omega
        rw [this]; simp
    · simp [h1]
  rw [← BitVec.add_eq_or_of_and_eq_zero _ _ h]
  have := split_exp x
  calc _ = ((~~~0x7F800000#32 &&& x) + (0x7F800000#32 &&& x)) + (y - (0x7F800000#32 &&& x)) := by
        rw [BitVec.add_assoc, BitVec.add_comm (0x7F800000#32 &&& x), BitVec.sub_add_cancel]
    _ = _ := by rw [this]

/-- A class with the exponent masks and the `andnot` of x86. -/
structure LaneOps.Exps (V : LaneOps 32) : Prop where
  mask : V.expMask = 0x7F800000#32
  mask1 : V.expMask1 = 0x3F000000#32
  andnot : ∀ a b, V.andnot a b = ~~~a &&& b

theorem sse_exps (f : Sse.Flags) (hw : Hw 32) : (Sse.ops f hw).Exps := ⟨rfl, rfl, fun _ _ => rfl⟩
theorem avx_exps (f : Bool) (hw : Hw 32) : (AvxF.ops f hw).Exps := ⟨rfl, rfl, fun _ _ => rfl⟩

/-- The integer of a pattern, positive or negative. -/
theorem toInt_cases (n : BitVec 32) : (∃ k : Nat, k < 2 ^ 31 ∧ n.toInt = k ∧ n.toNat = k) ∨
    ∃ k : Nat, 0 < k ∧ k ≤ 2 ^ 31 ∧ n.toInt = -k ∧ n.toNat = 2 ^ 32 - k := by
  have h := BitVec.toInt_eq_toNat_cond n
  have := n.isLt
  by_cases hc : 2 * n.toNat < 2 ^ 32
  · rw [if_pos hc] at h; exact .inl ⟨n.toNat, by omega, h, rfl⟩
  · rw [if_neg hc] at h; exact .inr ⟨2 ^ 32 - n.toNat, by omega, by omega, by omega, by omega⟩

/-- `ldexp` adds to the exponent field, if the result does not leave it. -/
theorem ldexp_code {V : LaneOps 32} (h : V.Exps) {x n : BitVec 32}
    (hlo : 0 ≤ (expField x : Int) + n.toInt) (hhi : (expField x : Int) + n.toInt < 256) :
    binary32.neg (ldexp V x n) = binary32.neg x ∧
    (binary32.code (ldexp V x n) : Int) = binary32.code x + n.toInt * 2 ^ 23 := by
  have hx := and_expMask x
  have hEx := expField_lt x
  have hxl := x.isLt
  have hE : expField x = x.toNat % 2 ^ 31 / 2 ^ 23 := rfl
  have key : ∀ E, E < 256 → ((n <<< 23) + (0x7F800000#32 &&& x)).toNat = E * 2 ^ 23 →
      (ldexp V x n).toNat = (x.toNat + n.toNat * 2 ^ 23) % 2 ^ 32 := by
    intro E hE hy
    have e : ldexp V x n = x + (n <<< 23) := by
      unfold ldexp
      simp only [h.mask, h.andnot]
      rw [or_exp hy hE, BitVec.add_sub_cancel]
    rw [e, BitVec.toNat_add, BitVec.toNat_shiftLeft, Nat.shiftLeft_eq, Nat.add_mod_mod]
  rw [BitVec.toNat_add, BitVec.toNat_shiftLeft, hx, Nat.shiftLeft_eq] at key
  unfold Fmt.neg
  rw [BitVec.msb_eq_decide, BitVec.msb_eq_decide, code32, code32]
  rcases toInt_cases n with ⟨k, hk, h1, h2⟩ | ⟨k, hk0, hk, h1, h2⟩
  · rw [h1] at hlo hhi ⊢
    rw [h2] at key
    have ht := key (expField x + k) (by omega) (by
      generalize expField x = E at *; clear key hx hE hxl h1 h2; omega)
    rw [ht]
    generalize x.toNat = X at *
    generalize expField x = E at *
    clear key hx ht h1 h2
    constructor
    · congr 1; apply propext; omega
    · omega
  · rw [h1] at hlo hhi ⊢
    rw [h2] at key
    have e : (2 ^ 32 - k) * 2 ^ 23 = 2 ^ 55 - k * 2 ^ 23 := by omega
    rw [e] at key
    have ht := key (expField x - k) (by omega) (by
      generalize expField x = E at *; clear key hx hE hxl h1 h2; omega)
    rw [ht]
    generalize x.toNat = X at *
    generalize expField x = E at *
    clear key hx ht h1 h2
    constructor
    · congr 1; apply propext; omega
    · omega

theorem frexp_eq {V : LaneOps 32} (h : V.Exps) (x : BitVec 32) :
    frexp V x = (ldexp V x (126#32 - BitVec.ofNat 32 (expField x)), BitVec.ofNat 32 (expField x) - 126#32) := by
  have hx := and_expMask x
  have hE := expField_lt x
  unfold frexp ldexp
  simp only [h.mask, h.mask1, h.andnot]
  have e1 : (126#32 - BitVec.ofNat 32 (expField x)) <<< 23 + (0x7F800000#32 &&& x) = 0x3F000000#32 := by
    apply BitVec.eq_of_toNat_eq
    rw [BitVec.toNat_add, BitVec.toNat_shiftLeft, Nat.shiftLeft_eq, hx, BitVec.toNat_sub]
    simp only [BitVec.toNat_ofNat]
    omega
  have e2 : (0x7F800000#32 &&& x) >>> 23 = BitVec.ofNat 32 (expField x) := by
    apply BitVec.eq_of_toNat_eq
    rw [BitVec.toNat_ushiftRight, Nat.shiftRight_eq_div_pow, hx]
    simp only [BitVec.toNat_ofNat]
    omega
  rw [e1, e2]

/-- Adding `k` to the exponent of a normal number multiplies it by `2^k`. -/
theorem mag_add {mb c k : Nat} (hc : 2 ^ mb ≤ c) : mag mb (c + k * 2 ^ mb) = mag mb c * 2 ^ k := by
  unfold mag
  have hp := Nat.two_pow_pos mb
  have e : (c + k * 2 ^ mb) / 2 ^ mb = c / 2 ^ mb + k := by rw [Nat.add_mul_div_right _ _ hp]
  have h1 : 1 ≤ c / 2 ^ mb := by rw [Nat.le_div_iff_mul_le hp]; omega
  simp only [e]
  have e2 : c / 2 ^ mb + k - 1 = (c / 2 ^ mb - 1) + k := by omega
  rw [e2, pow_add, Nat.add_mul, Nat.add_sub_add_right]; ring

theorem toReal_of_code {x y : BitVec 32} {k : Int} (hn : binary32.neg y = binary32.neg x)
    (hx : 2 ^ 23 ≤ binary32.code x) (hy : 2 ^ 23 ≤ binary32.code y)
    (hc : (binary32.code y : Int) = binary32.code x + k * 2 ^ 23) :
    binary32.toReal y = binary32.toReal x * 2 ^ k := by
  have key : (mag 23 (binary32.code y) : ℝ) = mag 23 (binary32.code x) * (2 : ℝ) ^ k := by
    rcases Int.le_total 0 k with h | h
    · obtain ⟨j, rfl⟩ := Int.eq_ofNat_of_zero_le h
      have : binary32.code y = binary32.code x + j * 2 ^ 23 := by omega
      rw [this, mag_add hx]; push_cast; rfl
    · obtain ⟨j, hj⟩ := Int.eq_ofNat_of_zero_le (show 0 ≤ -k by omega)
      have : binary32.code x = binary32.code y + j * 2 ^ 23 := by omega
      rw [this, mag_add hy]
      have : k = -(j : Int) := by omega
      subst this
      push_cast
      rw [zpow_neg, zpow_natCast, mul_assoc, mul_inv_cancel₀ (by positivity), mul_one]
  unfold Fmt.toReal Fmt.units
  rw [hn]
  have hmb : binary32.mb = 23 := rfl
  rw [hmb]
  cases binary32.neg x
  · simp only [Bool.false_eq_true, if_false]; push_cast; rw [key]; ring
  · simp only [if_true]; push_cast; rw [key]; ring

end Nova
