import Verif.Lemmas.Exponent
import Verif.Lemmas.Witness
import Verif.SpecFloat

/-!
# C44 frexp_float and ldexp_float
-/

namespace Nova
open FP VecMath

/-- A normal number: the exponent field is neither 0 nor all ones. -/
def IsNormal (x : BitVec 32) : Prop := 2 ^ 23 ≤ binary32.code x ∧ IsFin binary32 x

/-- `V` is a class with which the templates are instantiated, on any hardware. -/
def IsX86Class (V : LaneOps 32) : Prop :=
  (∃ f hw, V = Sse.ops f hw) ∨ ∃ fma hw, V = AvxF.ops fma hw

theorem IsX86Class.exps {V : LaneOps 32} (h : IsX86Class V) : V.Exps := by
  rcases h with ⟨f, hw, rfl⟩ | ⟨f, hw, rfl⟩
  · exact sse_exps f hw
  · exact avx_exps f hw

/-- The exponents of normal numbers: `2^(expField - 127)` to below twice that. -/
theorem expField_normal {x : BitVec 32} (h : IsNormal x) : 1 ≤ expField x ∧ expField x ≤ 254 := by
  have h1 := h.1
  have h2 := binary32.finite_code h.2
  have e : binary32.infCode = 255 * 2 ^ 23 := by decide
  unfold expField
  rw [e] at h2
  omega

theorem sub_toInt {E : Nat} (hE : 1 ≤ E ∧ E ≤ 254) :
    (126#32 - BitVec.ofNat 32 E).toInt = 126 - (E : Int) := by
  rcases toInt_cases (126#32 - BitVec.ofNat 32 E) with ⟨k, h1, h2, h3⟩ | ⟨k, h0, h1, h2, h3⟩ <;>
  · rw [h2]
    rw [BitVec.toNat_sub] at h3
    simp only [BitVec.toNat_ofNat] at h3
    omega

theorem sub_toInt' {E : Nat} (hE : 1 ≤ E ∧ E ≤ 254) :
    (BitVec.ofNat 32 E - 126#32).toInt = (E : Int) - 126 := by
  rcases toInt_cases (BitVec.ofNat 32 E - 126#32) with ⟨k, h1, h2, h3⟩ | ⟨k, h0, h1, h2, h3⟩ <;>
  · rw [h2]
    rw [BitVec.toNat_sub] at h3
    simp only [BitVec.toNat_ofNat] at h3
    omega

/-- A normal number lies in the binade of its exponent. -/
theorem normal_bounds {x : BitVec 32} (h : IsNormal x) :
    (2 : ℝ) ^ ((expField x : Int) - 127) ≤ |binary32.toReal x| ∧
    |binary32.toReal x| < 2 ^ ((expField x : Int) - 126) := by
  have habs : |binary32.toReal x| = (mag 23 (binary32.code x) : ℝ) / 2 ^ 149 := by
    rw [← binary32.toReal_fabs]
    unfold Fmt.toReal Fmt.units
    rw [binary32.neg_fabs, binary32.code_fabs]
    have hs : binary32.scale = 149 := by decide
    have hmb : binary32.mb = 23 := rfl
    simp only [Bool.false_eq_true, if_false, hs, hmb]; push_cast; rfl
  have hE := expField_normal h
  have hd : expField x = binary32.code x / 2 ^ 23 := rfl
  obtain ⟨f, hf, hc⟩ : ∃ f, f < 2 ^ 23 ∧ binary32.code x = (2 ^ 23 + f) + (expField x - 1) * 2 ^ 23 :=
    ⟨binary32.code x % 2 ^ 23, by omega, by omega⟩
  have hm : mag 23 (binary32.code x) = (2 ^ 23 + f) * 2 ^ (expField x - 1) := by
    rw [hc, mag_add (by omega), mag_small (by omega)]
  rw [habs, hm]
  generalize expField x = E at *
  obtain ⟨e, rfl⟩ : ∃ e, E = e + 1 := ⟨E - 1, by omega⟩
  have h1 : (2 : ℝ) ^ (((e + 1 : ℕ) : Int) - 127) = 2 ^ 23 * 2 ^ e / 2 ^ 149 := by
    rw [zpow_sub₀ (by norm_num), zpow_natCast, pow_succ]
    rw [div_eq_div_iff (by positivity) (by positivity)]; norm_num; ring
  have h2 : (2 : ℝ) ^ (((e + 1 : ℕ) : Int) - 126) = 2 ^ 24 * 2 ^ e / 2 ^ 149 := by
    rw [zpow_sub₀ (by norm_num), zpow_natCast, pow_succ]
    rw [div_eq_div_iff (by positivity) (by positivity)]; norm_num; ring
  have hf' : (f : ℝ) < 2 ^ 23 := by exact_mod_cast hf
  have hf0 : (0 : ℝ) ≤ f := by positivity
  have hp : (0 : ℝ) < 2 ^ e := by positivity
  rw [h1, h2]
  push_cast
  constructor
  · gcongr; norm_num
  · gcongr
    norm_num at hf' ⊢
    have : (f : ℝ) < 8388608 := by exact_mod_cast hf'
    linarith

/-- `frexp_float` splits a normal number into a significand in [1/2, 1), with its sign, and an exponent. -/
theorem C44_frexp {V : LaneOps 32} (hV : IsX86Class V) (x : BitVec 32) (hx : IsNormal x) :
    binary32.toReal x = binary32.toReal (frexp V x).1 * 2 ^ (frexp V x).2.toInt ∧
    1 / 2 ≤ |binary32.toReal (frexp V x).1| ∧ |binary32.toReal (frexp V x).1| < 1 ∧
    IsFin binary32 (frexp V x).1 ∧
    binary32.neg (frexp V x).1 = binary32.neg x := by
  have hE := expField_normal hx
  rw [frexp_eq hV.exps]
  have hn1 := sub_toInt hE
  have hn2 := sub_toInt' hE
  obtain ⟨h1, h2⟩ := ldexp_code hV.exps (x := x) (n := 126#32 - BitVec.ofNat 32 (expField x))
    (by omega) (by omega)
  dsimp only
  rw [hn2]
  rw [hn1] at h2
  set y := ldexp V x (126#32 - BitVec.ofNat 32 (expField x)) with hy
  have hcx := hx.1
  have hxE : expField x = binary32.code x / 2 ^ 23 := rfl
  have hlo : 126 * 2 ^ 23 ≤ binary32.code y := by omega
  have hhi : binary32.code y < 127 * 2 ^ 23 := by omega
  have hv := toReal_of_code (x := y) (y := x) (k := (expField x : Int) - 126) h1.symm (by omega) hcx
    (by omega)
  have habs : |binary32.toReal y| = (mag 23 (binary32.code y) : ℝ) / 2 ^ 149 := by
    rw [← binary32.toReal_fabs]
    unfold Fmt.toReal Fmt.units
    rw [binary32.neg_fabs, binary32.code_fabs]
    have hs : binary32.scale = 149 := by decide
    have hmb : binary32.mb = 23 := rfl
    simp only [Bool.false_eq_true, if_false, hs, hmb]; push_cast; rfl
  have m1 : 2 ^ 148 ≤ mag 23 (binary32.code y) := by
    have : mag 23 (126 * 2 ^ 23) = 2 ^ 148 := by decide
    rw [← this]; exact mag_le_iff.mpr hlo
  have m2 : mag 23 (binary32.code y) < 2 ^ 149 := by
    have : mag 23 (127 * 2 ^ 23) = 2 ^ 149 := by decide
    rw [← this]; exact mag_lt_iff.mpr hhi
  refine ⟨hv, ?_, ?_, ?_, h1⟩
  · rw [habs, le_div_iff₀ (by positivity)]
    have : (2 : ℝ) ^ 148 ≤ mag 23 (binary32.code y) := by exact_mod_cast m1
    linarith [show (1 / 2 : ℝ) * 2 ^ 149 = 2 ^ 148 by norm_num]
  · rw [habs, div_lt_one (by positivity)]
    exact_mod_cast m2
  · have e : binary32.infCode = 255 * 2 ^ 23 := by decide
    unfold IsFin Fmt.isFinite
    rw [e]
    exact decide_eq_true (by omega)

/-- `ldexp_float` multiplies a normal number by `2^n` exactly, if the result is normal: that is, if the
exponent of the result is between -126 and 127. -/
theorem C44_ldexp {V : LaneOps 32} (hV : IsX86Class V) (x n : BitVec 32) (hx : IsNormal x)
    (hlo : (2 : ℝ) ^ (-126 : ℤ) ≤ |binary32.toReal x| * 2 ^ n.toInt)
    (hhi : |binary32.toReal x| * 2 ^ n.toInt < 2 ^ (128 : ℤ)) :
    IsNormal (ldexp V x n) ∧ binary32.toReal (ldexp V x n) = binary32.toReal x * 2 ^ n.toInt := by
  obtain ⟨b1, b2⟩ := normal_bounds hx
  have hp : (0 : ℝ) < 2 ^ n.toInt := zpow_pos (by norm_num) _
  have h1 : (2 : ℝ) ^ (-126 : ℤ) < 2 ^ ((expField x : Int) - 126 + n.toInt) := by
    rw [zpow_add₀ (by norm_num)]
    exact lt_of_le_of_lt hlo (mul_lt_mul_of_pos_right b2 hp)
  have h2 : (2 : ℝ) ^ ((expField x : Int) - 127 + n.toInt) < 2 ^ (128 : ℤ) := by
    rw [zpow_add₀ (by norm_num)]
    exact lt_of_le_of_lt (mul_le_mul_of_nonneg_right b1 hp.le) hhi
  rw [zpow_lt_zpow_iff_right₀ (by norm_num)] at h1 h2
  obtain ⟨h3, h4⟩ := ldexp_code hV.exps (x := x) (n := n) (by omega) (by omega)
  have hd : expField x = binary32.code x / 2 ^ 23 := rfl
  have e : binary32.infCode = 255 * 2 ^ 23 := by decide
  have hy : IsNormal (ldexp V x n) := by
    refine ⟨by omega, ?_⟩
    unfold IsFin Fmt.isFinite
    rw [e]
    exact decide_eq_true (by omega)
  exact ⟨hy, toReal_of_code h3 hx.1 hy.1 h4⟩

/-- Splitting and putting together again gives the same bits. -/
theorem C44_roundtrip {V : LaneOps 32} (hV : IsX86Class V) (x : BitVec 32) (hx : IsNormal x) :
    ldexp V (frexp V x).1 (frexp V x).2 = x := by
  have hE := expField_normal hx
  rw [frexp_eq hV.exps]
  obtain ⟨h1, h2⟩ := ldexp_code hV.exps (x := x) (n := 126#32 - BitVec.ofNat 32 (expField x))
    (by rw [sub_toInt hE]; omega) (by rw [sub_toInt hE]; omega)
  rw [sub_toInt hE] at h2
  set y := ldexp V x (126#32 - BitVec.ofNat 32 (expField x)) with hy
  have hd : expField x = binary32.code x / 2 ^ 23 := rfl
  have hdy : expField y = 126 := by unfold expField; omega
  obtain ⟨h3, h4⟩ := ldexp_code hV.exps (x := y) (n := BitVec.ofNat 32 (expField x) - 126#32)
    (by rw [sub_toInt' hE]; omega) (by rw [sub_toInt' hE]; omega)
  rw [sub_toInt' hE] at h4
  apply binary32.ext
  · exact h3.trans h1
  · dsimp only; omega

example : IsX86Class (AvxF.ops true (platform0.x86 binary32)) ∧ IsNormal 0x42280000#32 ∧
    frexp (AvxF.ops true (platform0.x86 binary32)) 0x42280000#32 = (0x3f280000#32, 6#32) :=
  ⟨.inr ⟨true, _, rfl⟩, by unfold IsNormal; decide, by decide +kernel⟩

/-- The hypotheses of `C44_ldexp` hold for 42 and -3. -/
example : (2 : ℝ) ^ (-126 : ℤ) ≤ |binary32.toReal 0x42280000#32| * 2 ^ ((-3#32 : BitVec 32)).toInt ∧
    |binary32.toReal 0x42280000#32| * 2 ^ ((-3#32 : BitVec 32)).toInt < 2 ^ (128 : ℤ) := by
  have hx : IsNormal 0x42280000#32 := by unfold IsNormal; decide
  have h := normal_bounds hx
  have e : expField 0x42280000#32 = 132 := by decide
  have e2 : ((-3#32 : BitVec 32)).toInt = -3 := by decide
  rw [e] at h
  rw [e2]
  have h1 : (2 : ℝ) ^ (((132 : ℕ) : ℤ) - 127) = 32 := by norm_num
  have h2 : (2 : ℝ) ^ (((132 : ℕ) : ℤ) - 126) = 64 := by norm_num
  rw [h1, h2] at h
  constructor
  · norm_num; linarith [h.1]
  · norm_num; linarith [h.2]

end Nova
