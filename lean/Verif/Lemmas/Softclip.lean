import Verif.Lemmas.BitMath
import Verif.RealArith
import Mathlib.Topology.Algebra.Ring.Real
import Mathlib.Topology.Order.OrderClosed
import Mathlib.Topology.Algebra.Field
import Mathlib.Tactic.FieldSimp
import Mathlib.Tactic.Linarith

/-! # softclip, for finite numbers and for real numbers -/

namespace Nova
open FP

section float
variable {w : Nat} (F : Fmt w)

theorem negate64 (x : BitVec 64) : binary64.negate x = x ^^^ 0x8000000000000000#64 := by
  unfold Fmt.negate; rw [signBit64]

theorem toEReal_one32 : binary32.toEReal 0x3f800000#32 = 1 := by
  have hf : binary32.isFinite 0x3f800000#32 = true := by decide
  have hu : binary32.units 0x3f800000#32 = 2 ^ 149 := by decide +kernel
  have hs : binary32.scale = 149 := by decide
  rw [binary32.toEReal_of_finite hf]
  unfold Fmt.toReal
  rw [hu, hs]; norm_num

theorem toEReal_one64 : binary64.toEReal 0x3ff0000000000000#64 = 1 := by
  have hf : binary64.isFinite 0x3ff0000000000000#64 = true := by decide
  have hu : binary64.units 0x3ff0000000000000#64 = 2 ^ 1074 := by decide +kernel
  have hs : binary64.scale = 1074 := by decide
  rw [binary64.toEReal_of_finite hf]
  unfold Fmt.toReal
  rw [hu, hs, Int.cast_pow, Int.cast_ofNat, div_self (by positivity)]; rfl

/-- Subtracting a smaller non-negative number from a non-negative one. -/
theorem sub_code_le {x q : BitVec w} (hx : F.isFinite x = true) (hn : F.neg x = false)
    (hqn : F.neg q = false) (hq : F.code q ≤ F.code x) :
    F.neg (F.sub x q) = false ∧ F.code (F.sub x q) ≤ F.code x := by
  have hxc := F.finite_code hx
  have hqf : F.isFinite q = true := by simp [Fmt.isFinite]; omega
  have hm : mag F.mb (F.code q) ≤ mag F.mb (F.code x) := mag_le_iff.mpr hq
  rw [F.sub_num (F.isFinite_not_nan hx) (F.isFinite_not_nan hqf), F.add_finite hx (by simpa using hqf),
    F.units_negate]
  have hu : F.units x + -F.units q = ((mag F.mb (F.code x) - mag F.mb (F.code q) : Nat) : Int) := by
    unfold Fmt.units; rw [hn, hqn]; simp only [Bool.false_eq_true, if_false]; omega
  rw [hu]
  split
  · rw [hn]; simp [F.code_pack _ (Nat.two_pow_pos _), F.neg_pack _ (Nat.two_pow_pos _)]
  · refine ⟨by rw [F.packRnd_neg]; simp, ?_⟩
    rw [F.packRnd_code]
    refine le_trans (Nat.min_le_right _ _) (rne_le (by decide) ?_)
    simp

/-- What softclip needs to know about its constants. -/
structure SoftConsts : Prop where
  qn : F.neg (F.ofRat 0.25) = false
  hn : F.neg (F.ofRat 0.5) = false
  hq : F.code (F.ofRat 0.25) ≤ F.code (F.ofRat 0.5)
  h0 : 0 < F.code (F.ofRat 0.5)
  fin : F.isFinite (F.ofRat 0.5) = true

theorem softConsts32 : SoftConsts binary32 := by constructor <;> decide +kernel
theorem softConsts64 : SoftConsts binary64 := by constructor <;> decide +kernel

variable {F}

/-- The quotient that softclip computes for a large argument. -/
theorem softclip_large {x : BitVec w} (hx : F.isFinite x = true) (hk : SoftConsts F)
    (hl : F.ltb (F.fabs x) (F.ofRat 0.5) = false) :
    ∃ c, c ≤ F.code x ∧ F.code x ≠ 0 ∧ ∀ y, (y = x ∨ y = F.negate x) →
      F.div (F.sub (F.fabs y) (F.ofRat 0.25)) y =
        F.packRnd (F.neg y) (mag F.mb c * 2 ^ F.scale) (mag F.mb (F.code x)) := by
  have hxc := F.finite_code hx
  have hc : F.code (F.ofRat 0.5) ≤ F.code x := by
    rw [F.ltb_of_num (by simpa using F.isFinite_not_nan hx) (F.isFinite_not_nan hk.fin), F.key_fabs,
      F.key_nonneg hk.hn] at hl
    have := of_decide_eq_false hl
    omega
  have hhq := hk.hq
  have hh0 := hk.h0
  have h := sub_code_le F (x := F.fabs x) (q := F.ofRat 0.25) (by simpa using hx) (by simp) hk.qn (by simp; omega)
  refine ⟨F.code (F.sub (F.fabs x) (F.ofRat 0.25)), by simpa using h.2, by omega, ?_⟩
  intro y hy
  have hyf : F.isFinite y = true := by rcases hy with rfl | rfl <;> simpa using hx
  have hyc : F.code y = F.code x := by rcases hy with rfl | rfl <;> simp
  have hya : F.fabs y = F.fabs x := by rcases hy with rfl | rfl <;> simp [F.fabs_negate]
  have hsf : F.isFinite (F.sub (F.fabs x) (F.ofRat 0.25)) = true := by
    have := h.2; rw [F.code_fabs] at this; simp [Fmt.isFinite]; omega
  rw [hya, F.div_finite hsf hyf (by omega), h.1, hyc]; simp

theorem softclip_negate {x : BitVec w} (F : Fmt w) (hx : F.isFinite x = true) (hk : SoftConsts F) :
    Scalar.softclip F (F.negate x) = F.negate (Scalar.softclip F x) := by
  unfold Scalar.softclip
  simp only [F.fabs_negate]
  cases hl : F.ltb (F.fabs x) (F.ofRat 0.5)
  · obtain ⟨c, h1, h2, h3⟩ := softclip_large hx hk hl
    have e1 := h3 x (.inl rfl)
    have e2 := h3 (F.negate x) (.inr rfl)
    rw [F.fabs_negate] at e2
    rw [if_neg (by decide), if_neg (by decide), e1, e2, F.negate_packRnd, F.neg_negate]
  · rw [if_pos rfl, if_pos rfl]

theorem softclip_finite {x c : BitVec w} (F : Fmt w) (hx : F.isFinite x = true)
    (hone : mag F.mb (F.code c) = 2 ^ F.scale) (hcn : F.neg c = false)
    (hk : SoftConsts F) (hh : F.code (F.ofRat 0.5) ≤ F.code c ∧ F.code c < F.infCode) :
    F.isNaN (Scalar.softclip F x) = false ∧
    -F.toEReal c ≤ F.toEReal (Scalar.softclip F x) ∧ F.toEReal (Scalar.softclip F x) ≤ F.toEReal c := by
  have key : F.isNaN (Scalar.softclip F x) = false ∧ F.code (Scalar.softclip F x) ≤ F.code c := by
    unfold Scalar.softclip
    dsimp only
    cases hl : F.ltb (F.fabs x) (F.ofRat 0.5)
    · obtain ⟨d, h1, h2, h3⟩ := softclip_large hx hk hl
      rw [if_neg (by decide)]
      rw [h3 x (.inl rfl)]
      refine ⟨F.packRnd_not_nan _ _ _, ?_⟩
      rw [F.packRnd_code]
      have hm : 0 < mag F.mb (F.code x) := Nat.pos_of_ne_zero fun h => h2 (mag_eq_zero.mp h)
      refine le_trans (Nat.min_le_right _ _) (rne_le hm ?_)
      rw [hone, Nat.mul_comm]
      exact Nat.mul_le_mul_left _ (mag_le_iff.mpr h1)
    · rw [if_pos rfl]
      refine ⟨F.isFinite_not_nan hx, ?_⟩
      obtain ⟨h1, h2, h3⟩ := F.ltb_iff.mp hl
      rw [F.key_fabs, F.key_nonneg hk.hn] at h3
      omega
  have hcN : F.isNaN c = false := by simp [Fmt.isNaN]; omega
  refine ⟨key.1, ?_, ?_⟩
  · rw [← F.toEReal_negate, ← F.key_le_iff_value (by simpa using hcN) key.1, F.key_negate,
      F.key_nonneg hcn]
    unfold Fmt.key; split <;> omega
  · rw [← F.key_le_iff_value key.1 hcN, F.key_nonneg hcn]
    unfold Fmt.key; split <;> omega

end float

/-! ## Real numbers -/

open Classical in
/-- The formula of softclip. -/
noncomputable def realSoftclip (x : ℝ) : ℝ := if |x| < 0.5 then x else (|x| - 0.25) / x

theorem realSoftclip_odd (x : ℝ) : realSoftclip (-x) = -realSoftclip x := by
  unfold realSoftclip
  rw [abs_neg]
  split
  · rfl
  · rw [div_neg]

/-- For non-negative arguments. -/
theorem realSoftclip_nonneg {x : ℝ} (hx : 0.5 ≤ x) : realSoftclip x = 1 - 0.25 / x := by
  have h0 : 0 < x := by linarith
  unfold realSoftclip
  rw [abs_of_pos h0, if_neg (by linarith), sub_div, div_self h0.ne']

theorem realSoftclip_small {x : ℝ} (hx : |x| ≤ 0.5) : realSoftclip x = x := by
  rcases lt_or_eq_of_le hx with h | h
  · unfold realSoftclip; rw [if_pos h]
  · rcases abs_eq (by norm_num : (0 : ℝ) ≤ 0.5) |>.mp h with rfl | rfl
    · rw [realSoftclip_nonneg le_rfl]; norm_num
    · rw [realSoftclip_odd, realSoftclip_nonneg le_rfl]; norm_num

theorem realSoftclip_bound (x : ℝ) : |realSoftclip x| < 1 := by
  rcases le_total |x| 0.5 with h | h
  · rw [realSoftclip_small h]; linarith
  · have key : ∀ y : ℝ, 0.5 ≤ y → |realSoftclip y| < 1 := by
      intro y hy
      have hy0 : 0 < y := by linarith
      rw [realSoftclip_nonneg hy, abs_lt]
      have h1 : 0 < 0.25 / y := by positivity
      have h2 : 0.25 / y ≤ 0.5 := by rw [div_le_iff₀ hy0]; linarith
      constructor <;> linarith
    rcases le_total 0 x with h0 | h0
    · exact key x (by rwa [abs_of_nonneg h0] at h)
    · have := key (-x) (by rwa [abs_of_nonpos h0] at h)
      rwa [realSoftclip_odd, abs_neg] at this

theorem realSoftclip_strictMono : StrictMono realSoftclip := by
  have h1 : StrictMonoOn realSoftclip (Set.Ici (-0.5 : ℝ)) := by
    intro x hx y hy hxy
    simp only [Set.mem_Ici] at hx hy
    rcases le_total y 0.5 with hy' | hy'
    · rw [realSoftclip_small (abs_le.mpr ⟨by linarith, by linarith⟩),
        realSoftclip_small (abs_le.mpr ⟨by linarith, by linarith⟩)]
      exact hxy
    · have hy0 : 0 < y := by linarith
      rw [realSoftclip_nonneg hy']
      rcases le_total x 0.5 with hx' | hx'
      · rw [realSoftclip_small (abs_le.mpr ⟨by linarith, by linarith⟩)]
        rcases lt_or_eq_of_le hy' with h | h
        · have : 0.25 / y < 0.5 := by rw [div_lt_iff₀ hy0]; linarith
          linarith
        · subst h; norm_num at hxy ⊢; linarith
      · have hx0 : 0 < x := by linarith
        rw [realSoftclip_nonneg hx']
        have : 0.25 / y < 0.25 / x := div_lt_div_of_pos_left (by norm_num) hx0 hxy
        linarith
  intro x y hxy
  rcases le_total (-0.5) x with hx | hx
  · exact h1 hx (by simp only [Set.mem_Ici]; linarith) hxy
  · rcases le_total y 0.5 with hy | hy
    · have := h1 (a := -y) (b := -x) (by simp only [Set.mem_Ici]; linarith)
        (by simp only [Set.mem_Ici]; linarith) (by linarith)
      rw [realSoftclip_odd, realSoftclip_odd] at this
      linarith
    · have a := h1 (a := 0) (b := y) (by norm_num) (by simp only [Set.mem_Ici]; linarith) (by linarith)
      have b := h1 (a := 0) (b := -x) (by norm_num) (by simp only [Set.mem_Ici]; linarith) (by linarith)
      rw [realSoftclip_odd] at b
      have h0 : realSoftclip 0 = 0 := realSoftclip_small (by norm_num)
      linarith

theorem realSoftclip_continuous : Continuous realSoftclip := by
  have e : realSoftclip = fun x => if |x| ≤ 0.5 then x else (|x| - 0.25) / x := by
    funext x
    split
    · exact realSoftclip_small ‹_›
    · unfold realSoftclip; rw [if_neg (by linarith)]
  rw [e]
  have hd : ContinuousOn (fun x : ℝ => (|x| - 0.25) / x) {x | 0.5 ≤ |x|} := by
    refine ContinuousOn.div (by fun_prop) continuousOn_id fun x hx => ?_
    intro h; have h : x = 0 := h; subst h; norm_num at hx
  refine continuous_if_le continuous_abs continuous_const continuousOn_id hd ?_
  intro x hx
  have h1 := realSoftclip_small hx.le
  have h2 : realSoftclip x = (|x| - 0.25) / x := by unfold realSoftclip; rw [if_neg (by linarith)]
  rw [← h2, h1]

end Nova
