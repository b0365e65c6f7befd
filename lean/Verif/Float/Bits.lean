import Mathlib.Tactic.Ring
import Mathlib.Tactic.Linarith
import Verif.Float.Round

/-! # Sign and code of bit patterns -/

namespace Nova.FP
variable {w : Nat} (F : Fmt w)

namespace Fmt

include F in
theorem w_pos : 0 < w := by have := F.hw; omega

include F in
theorem one_lt_w : 3 < w := by have := F.hw; have := F.hmb; have := F.heb; omega

include F in
theorem pow_w : 2 ^ w = 2 * 2 ^ (w - 1) := by
  obtain ⟨k, rfl⟩ : ∃ k, w = k + 1 := ⟨w - 1, by have := F.w_pos; omega⟩
  simp [pow_succ, Nat.mul_comm]

theorem code_lt (x : BitVec w) : F.code x < 2 ^ (w - 1) := Nat.mod_lt _ (Nat.two_pow_pos _)

theorem neg_iff (x : BitVec w) : F.neg x = true ↔ 2 ^ (w - 1) ≤ x.toNat := by
  unfold neg
  rw [BitVec.msb_eq_decide]; simp

theorem toNat_eq (x : BitVec w) : x.toNat = F.code x + (if F.neg x then 2 ^ (w - 1) else 0) := by
  have h := x.isLt
  rw [F.pow_w] at h
  unfold code
  by_cases hn : F.neg x = true
  · rw [if_pos hn]
    have h1 := (F.neg_iff x).mp hn
    have : x.toNat % 2 ^ (w - 1) = x.toNat - 2 ^ (w - 1) := by
      rw [Nat.mod_eq_sub_mod h1, Nat.mod_eq_of_lt (by omega)]
    omega
  · rw [if_neg hn, Nat.add_zero]
    have h1 : ¬ 2 ^ (w - 1) ≤ x.toNat := fun h => hn ((F.neg_iff x).mpr h)
    exact (Nat.mod_eq_of_lt (by omega)).symm

/-- A pattern is its sign and its code. -/
theorem ext {x y : BitVec w} (hn : F.neg x = F.neg y) (hc : F.code x = F.code y) : x = y := by
  apply BitVec.eq_of_toNat_eq
  rw [F.toNat_eq x, F.toNat_eq y, hn, hc]

theorem pack_toNat (s : Bool) {c : Nat} (hc : c < 2 ^ (w - 1)) :
    (F.pack s c).toNat = c + (if s then 2 ^ (w - 1) else 0) := by
  unfold pack
  rw [BitVec.toNat_ofNat, Nat.mod_eq_of_lt]
  · cases s <;> simp
  · rw [F.pow_w]; cases s <;> simp <;> omega

theorem code_pack (s : Bool) {c : Nat} (hc : c < 2 ^ (w - 1)) : F.code (F.pack s c) = c := by
  unfold code
  rw [F.pack_toNat s hc]
  cases s <;> simp [Nat.mod_eq_of_lt hc]

theorem neg_pack (s : Bool) {c : Nat} (hc : c < 2 ^ (w - 1)) : F.neg (F.pack s c) = s := by
  rw [Bool.eq_iff_iff, F.neg_iff, F.pack_toNat s hc]
  cases s
  · simp; omega
  · simp

theorem pack_self (x : BitVec w) : F.pack (F.neg x) (F.code x) = x :=
  F.ext (F.neg_pack _ (F.code_lt x)) (F.code_pack _ (F.code_lt x))

theorem infCode_lt : F.infCode < 2 ^ (w - 1) := by
  have h : 2 ^ (w - 1) = 2 ^ F.eb * 2 ^ F.mb := by
    rw [← pow_add]; congr 1; have := F.hw; omega
  unfold infCode
  rw [h]
  exact Nat.mul_lt_mul_of_pos_right (by have := Nat.two_pow_pos F.eb; omega) (Nat.two_pow_pos _)

/-! ## The sign bit -/

theorem getLsbD_signBit (i : Nat) : (F.signBit).getLsbD i = decide (i = w - 1) := by
  unfold signBit
  rw [BitVec.getLsbD_ofNat]
  rw [Nat.testBit_two_pow]
  have := F.w_pos
  by_cases h : i = w - 1
  · subst h; simp; omega
  · simp [h]; omega

theorem testBit_code (x : BitVec w) (i : Nat) :
    (F.code x).testBit i = (decide (i < w - 1) && x.getLsbD i) := by
  unfold code
  rw [Nat.testBit_mod_two_pow]; rfl

theorem code_eq_of_bits {x y : BitVec w} (h : ∀ i, i < w - 1 → x.getLsbD i = y.getLsbD i) :
    F.code x = F.code y := by
  apply Nat.eq_of_testBit_eq
  intro i
  rw [F.testBit_code, F.testBit_code]
  by_cases hi : i < w - 1
  · rw [h i hi]
  · simp [hi]

theorem neg_signBit : F.neg F.signBit = true := by
  unfold neg
  rw [BitVec.msb_eq_getLsbD_last, F.getLsbD_signBit, decide_eq_true_eq]

@[simp] theorem code_negate (x : BitVec w) : F.code (F.negate x) = F.code x := by
  apply F.code_eq_of_bits
  intro i hi
  unfold negate
  rw [BitVec.getLsbD_xor, F.getLsbD_signBit, decide_eq_false (by omega), Bool.xor_false]

@[simp] theorem neg_negate (x : BitVec w) : F.neg (F.negate x) = !F.neg x := by
  have h := F.neg_signBit
  unfold neg negate at *
  rw [BitVec.msb_xor, h]; simp

@[simp] theorem negate_negate (x : BitVec w) : F.negate (F.negate x) = x := by
  unfold negate; rw [BitVec.xor_assoc]; simp

@[simp] theorem code_fabs (x : BitVec w) : F.code (F.fabs x) = F.code x := by
  apply F.code_eq_of_bits
  intro i hi
  unfold fabs
  rw [BitVec.getLsbD_and, BitVec.getLsbD_not, F.getLsbD_signBit]
  have : i < w := by omega
  simp [this]; omega

@[simp] theorem neg_fabs (x : BitVec w) : F.neg (F.fabs x) = false := by
  have h := F.neg_signBit
  unfold neg fabs at *
  rw [BitVec.msb_and, BitVec.msb_not, h]; simp

/-- The sign bit of a pattern. -/
theorem neg_and_signBit (x : BitVec w) : F.neg (x &&& F.signBit) = F.neg x := by
  have h := F.neg_signBit
  unfold neg at *
  rw [BitVec.msb_and, h]; simp

theorem code_and_signBit (x : BitVec w) : F.code (x &&& F.signBit) = 0 := by
  have : F.code (x &&& F.signBit) = F.code (0#w) := by
    apply F.code_eq_of_bits
    intro i hi
    rw [BitVec.getLsbD_and, F.getLsbD_signBit]
    simp; omega
  rw [this]; simp [code]

/-- Removing the sign with `^` is the absolute value. -/
theorem xor_sign (x : BitVec w) : x ^^^ (x &&& F.signBit) = F.fabs x := by
  ext i hi
  simp [fabs, BitVec.getElem_xor, BitVec.getElem_and]
  cases x[i] <;> simp

theorem sign_xor (x : BitVec w) : (x &&& F.signBit) ^^^ x = F.fabs x := by
  rw [BitVec.xor_comm, F.xor_sign]

theorem fabs_comm (x : BitVec w) : ~~~F.signBit &&& x = F.fabs x := by
  unfold fabs; rw [BitVec.and_comm]

/-- `|` with a sign bit. -/
theorem neg_or_sign (x y : BitVec w) : F.neg ((x &&& F.signBit) ||| y) = (F.neg x || F.neg y) := by
  have h := F.neg_and_signBit x
  unfold neg at *
  rw [BitVec.msb_or, h]

theorem code_or_sign (x y : BitVec w) : F.code ((x &&& F.signBit) ||| y) = F.code y := by
  apply F.code_eq_of_bits
  intro i hi
  rw [BitVec.getLsbD_or, BitVec.getLsbD_and, F.getLsbD_signBit]
  have : ¬ i = w - 1 := by omega
  simp [this]

theorem neg_xor_sign (x y : BitVec w) : F.neg ((x &&& F.signBit) ^^^ y) = (F.neg x ^^ F.neg y) := by
  have h := F.neg_and_signBit x
  unfold neg at *
  rw [BitVec.msb_xor, h]

theorem code_xor_sign (x y : BitVec w) : F.code ((x &&& F.signBit) ^^^ y) = F.code y := by
  apply F.code_eq_of_bits
  intro i hi
  rw [BitVec.getLsbD_xor, BitVec.getLsbD_and, F.getLsbD_signBit]
  have : ¬ i = w - 1 := by omega
  simp [this]

theorem negate_sign (x : BitVec w) : F.negate x &&& F.signBit = F.negate (x &&& F.signBit) := by
  apply F.ext
  · rw [F.neg_and_signBit, F.neg_negate, F.neg_negate, F.neg_and_signBit]
  · rw [F.code_and_signBit, F.code_negate, F.code_and_signBit]

@[simp] theorem fabs_negate (x : BitVec w) : F.fabs (F.negate x) = F.fabs x :=
  F.ext (by simp) (by simp)

@[simp] theorem fabs_fabs (x : BitVec w) : F.fabs (F.fabs x) = F.fabs x :=
  F.ext (by simp) (by simp)

theorem fabs_eq_self {x : BitVec w} (h : F.neg x = false) : F.fabs x = x :=
  F.ext (by simp [h]) (by simp)

theorem fabs_eq_negate {x : BitVec w} (h : F.neg x = true) : F.fabs x = F.negate x :=
  F.ext (by simp [h]) (by simp)

/-! ## Classes -/

@[simp] theorem isNaN_negate (x : BitVec w) : F.isNaN (F.negate x) = F.isNaN x := by simp [isNaN]
@[simp] theorem isNaN_fabs (x : BitVec w) : F.isNaN (F.fabs x) = F.isNaN x := by simp [isNaN]
@[simp] theorem isInf_negate (x : BitVec w) : F.isInf (F.negate x) = F.isInf x := by simp [isInf]
@[simp] theorem isInf_fabs (x : BitVec w) : F.isInf (F.fabs x) = F.isInf x := by simp [isInf]
@[simp] theorem isZero_negate (x : BitVec w) : F.isZero (F.negate x) = F.isZero x := by simp [isZero]
@[simp] theorem isZero_fabs (x : BitVec w) : F.isZero (F.fabs x) = F.isZero x := by simp [isZero]
@[simp] theorem isFinite_negate (x : BitVec w) : F.isFinite (F.negate x) = F.isFinite x := by
  simp [isFinite]
@[simp] theorem isFinite_fabs (x : BitVec w) : F.isFinite (F.fabs x) = F.isFinite x := by
  simp [isFinite]

@[simp] theorem units_negate (x : BitVec w) : F.units (F.negate x) = -F.units x := by
  unfold units
  rw [F.neg_negate, F.code_negate]
  cases F.neg x <;> simp

@[simp] theorem key_negate (x : BitVec w) : F.key (F.negate x) = -F.key x := by
  unfold key
  rw [F.neg_negate, F.code_negate]
  cases F.neg x <;> simp

theorem infCode_pos : 0 < F.infCode := by
  unfold infCode
  have h1 : 1 < 2 ^ F.eb := Nat.one_lt_two_pow (by have := F.heb; omega)
  exact Nat.mul_pos (by omega) (Nat.two_pow_pos _)

theorem pow_mb_lt_infCode : 2 ^ F.mb < F.infCode := by
  unfold infCode
  have h1 : 2 ^ 2 ≤ 2 ^ F.eb := Nat.pow_le_pow_right (by decide) F.heb
  have h2 : 0 < 2 ^ F.mb := Nat.two_pow_pos _
  calc 2 ^ F.mb = 1 * 2 ^ F.mb := by ring
    _ < (2 ^ F.eb - 1) * 2 ^ F.mb := Nat.mul_lt_mul_of_pos_right (by omega) h2

@[simp] theorem neg_posZero : F.neg F.posZero = false :=
  F.neg_pack _ (by have := F.infCode_lt; omega)
@[simp] theorem code_posZero : F.code F.posZero = 0 :=
  F.code_pack _ (by have := F.infCode_lt; omega)
@[simp] theorem isNaN_posZero : F.isNaN F.posZero = false := by simp [isNaN]
@[simp] theorem key_posZero : F.key F.posZero = 0 := by simp [key]

theorem posZero_eq : F.posZero = 0#w := by simp [posZero, pack]

/-! ## Comparisons -/

theorem ltb_iff {x y : BitVec w} : F.ltb x y = true ↔ F.isNaN x = false ∧ F.isNaN y = false ∧ F.key x < F.key y := by
  simp [ltb, and_assoc]
theorem leb_iff {x y : BitVec w} : F.leb x y = true ↔ F.isNaN x = false ∧ F.isNaN y = false ∧ F.key x ≤ F.key y := by
  simp [leb, and_assoc]
theorem eqb_iff {x y : BitVec w} : F.eqb x y = true ↔ F.isNaN x = false ∧ F.isNaN y = false ∧ F.key x = F.key y := by
  simp [eqb, and_assoc]

theorem ltb_of_num {x y : BitVec w} (hx : F.isNaN x = false) (hy : F.isNaN y = false) :
    F.ltb x y = decide (F.key x < F.key y) := by simp [ltb, hx, hy]
theorem leb_of_num {x y : BitVec w} (hx : F.isNaN x = false) (hy : F.isNaN y = false) :
    F.leb x y = decide (F.key x ≤ F.key y) := by simp [leb, hx, hy]
theorem eqb_of_num {x y : BitVec w} (hx : F.isNaN x = false) (hy : F.isNaN y = false) :
    F.eqb x y = decide (F.key x = F.key y) := by simp [eqb, hx, hy]

theorem ltb_nan {x y : BitVec w} (h : F.isNaN x = true ∨ F.isNaN y = true) : F.ltb x y = false := by
  unfold ltb; rcases h with h | h <;> simp [h]
theorem leb_nan {x y : BitVec w} (h : F.isNaN x = true ∨ F.isNaN y = true) : F.leb x y = false := by
  unfold leb; rcases h with h | h <;> simp [h]
theorem eqb_nan {x y : BitVec w} (h : F.isNaN x = true ∨ F.isNaN y = true) : F.eqb x y = false := by
  unfold eqb; rcases h with h | h <;> simp [h]

theorem key_nonneg {x : BitVec w} (h : F.neg x = false) : F.key x = F.code x := by simp [key, h]
theorem key_neg {x : BitVec w} (h : F.neg x = true) : F.key x = -(F.code x : Int) := by simp [key, h]

theorem key_fabs (x : BitVec w) : F.key (F.fabs x) = F.code x := by simp [key]

theorem key_eq_zero {x : BitVec w} : F.key x = 0 ↔ F.code x = 0 := by
  unfold key; split <;> omega

/-- On finite numbers the keys are ordered like the values. -/
theorem key_lt_iff_units (x y : BitVec w) : F.key x < F.key y ↔ F.units x < F.units y := by
  unfold key units
  have hm : ∀ a b : Nat, mag F.mb a < mag F.mb b ↔ a < b := fun a b => mag_lt_iff
  have hz : ∀ a : Nat, mag F.mb a = 0 ↔ a = 0 := fun a => mag_eq_zero
  have h1 := hm (F.code x) (F.code y)
  have h2 := hm (F.code y) (F.code x)
  have h3 := hz (F.code x)
  have h4 := hz (F.code y)
  cases F.neg x <;> cases F.neg y <;> simp <;> omega

theorem key_le_iff_units (x y : BitVec w) : F.key x ≤ F.key y ↔ F.units x ≤ F.units y := by
  rw [← not_lt, ← not_lt, F.key_lt_iff_units]

theorem key_eq_iff_units (x y : BitVec w) : F.key x = F.key y ↔ F.units x = F.units y := by
  rw [le_antisymm_iff, le_antisymm_iff, F.key_le_iff_units, F.key_le_iff_units]

/-! ## Rounding and packing -/

theorem packRnd_code (s : Bool) (N D : Nat) :
    F.code (F.packRnd s N D) = min F.infCode (rne F.mb N D) :=
  F.code_pack _ (lt_of_le_of_lt (min_le_left _ _) F.infCode_lt)

theorem packRnd_neg (s : Bool) (N D : Nat) : F.neg (F.packRnd s N D) = s :=
  F.neg_pack _ (lt_of_le_of_lt (min_le_left _ _) F.infCode_lt)

theorem packRnd_not_nan (s : Bool) (N D : Nat) : F.isNaN (F.packRnd s N D) = false := by
  unfold isNaN; rw [F.packRnd_code]; simp

theorem negate_pack (s : Bool) {c : Nat} (hc : c < 2 ^ (w - 1)) :
    F.negate (F.pack s c) = F.pack (!s) c :=
  F.ext (by rw [F.neg_negate, F.neg_pack _ hc, F.neg_pack _ hc])
    (by rw [F.code_negate, F.code_pack _ hc, F.code_pack _ hc])

theorem negate_packRnd (s : Bool) (N D : Nat) : F.negate (F.packRnd s N D) = F.packRnd (!s) N D :=
  F.negate_pack s (lt_of_le_of_lt (min_le_left _ _) F.infCode_lt)

theorem isFinite_not_nan {x : BitVec w} (h : F.isFinite x = true) : F.isNaN x = false := by
  simp [isFinite, isNaN] at *; omega
theorem isFinite_not_inf {x : BitVec w} (h : F.isFinite x = true) : F.isInf x = false := by
  simp [isFinite, isInf] at *; omega
theorem isInf_not_nan {x : BitVec w} (h : F.isInf x = true) : F.isNaN x = false := by
  simp [isInf, isNaN] at *; omega
theorem finite_of {x : BitVec w} (h : F.isNaN x = false) (h' : F.isInf x = false) : F.isFinite x = true := by
  simp [isFinite, isNaN, isInf] at *; omega

end Fmt
end Nova.FP
