import Verif.Lemmas.TrigNumbers
import Verif.Lemmas.SimdMath
import Verif.Lemmas.Witness
import Verif.Float.Near
import Verif.Lemmas.UnitFinal
import Verif.Lemmas.BasicFinal
import Verif.Props.C46_Exp

/-!
# Where powers and conversions give numbers

`pow(x, y)` is `exp(y * log(x))`; the logarithm is finite and the exponential is a NaN at a single argument.  So the power is a
NaN only if the rounded product is that argument, and the conversions, whose base is a constant, at one argument each.
-/

namespace Nova
open FP VecMath Spec

theorem num_sign_or {x s y : BitVec 32} (hs : s = y &&& 0x80000000#32) (h : Num binary32 x) : Num binary32 (s ||| x) := by
  unfold Num
  by_contra hc
  rw [Bool.not_eq_false] at hc
  have : binary32.N x := by
    refine Fmt.n_congr (x := s ||| x) ?_ hc
    subst hs
    unfold Fmt.fabs
    rw [signBit32]
    ext i hi
    simp only [BitVec.getElem_and, BitVec.getElem_or, BitVec.getElem_not]
    cases (0x80000000#32)[i] <;> simp
  exact absurd (h.symm.trans this) (by decide)

section own
attribute [local irreducible] litD litF litD32 Fmt.add Fmt.mul Fmt.div Fmt.sub Fmt.fma Fmt.ltb Fmt.leb Fmt.eqb
  Fmt.roundInt Fmt.toInt32 Fmt.ofInt32 Fmt.sqrt

theorem own_pow_of (b : Build32) (hb : b.simdMath = true) (P : Platform 32) {x y : BitVec 32}
    (hn : Num binary32 (binary32.mul y ((b.lane P).log x)))
    (h : binary32.mul y ((b.lane P).log x) ≠ 0x42b17218#32) : Num binary32 ((b.lane P).pow x y) := by
  have T := b.templates hb P
  rw [T.log] at h hn
  have e := C46_number_partial b hb P _ hn h
  rw [T.exp] at e
  rw [T.pow]
  unfold vecPow
  dsimp only
  rw [T.ieee.eq, T.ieee.sel, T.ieee.mul, T.ieee.zero]
  split
  · decide
  · exact e

theorem own_pow_num (b : Build32) (hb : b.simdMath = true) (P : Platform 32) {x y : BitVec 32} (hy : IsFin binary32 y)
    (h : binary32.mul y ((b.lane P).log x) ≠ 0x42b17218#32) : Num binary32 ((b.lane P).pow x y) := by
  have T := b.templates hb P
  exact own_pow_of b hb P (by rw [T.log]; exact num_mul hy (vecLog_fin T.ieee T.x86 x)) h

theorem own_spow_num (b : Build32) (hb : b.simdMath = true) (P : Platform 32) {x y : BitVec 32} (hy : IsFin binary32 y)
    (h : binary32.mul y ((b.lane P).log (binary32.fabs x)) ≠ 0x42b17218#32) : Num binary32 ((b.lane P).signedPow x y) := by
  have T := b.templates hb P
  have p := own_pow_num b hb P hy h
  rw [T.pow] at p
  rw [T.signedPow]
  unfold vecSignedPow
  dsimp only
  rw [T.ieee.sign]
  refine num_sign_or rfl ?_
  have e : x ^^^ (x &&& 0x80000000#32) = binary32.fabs x := by
    unfold Fmt.fabs
    rw [signBit32]
    ext i hi
    simp only [BitVec.getElem_and, BitVec.getElem_xor, BitVec.getElem_not]
    cases (0x80000000#32)[i] <;> simp
  rw [e]
  exact p

/-- The logarithms of 2 and 10. -/
theorem own_log_bases (b : Build32) (hb : b.simdMath = true) (P : Platform 32) :
    (b.lane P).log (litD32 2) = 0x3f317218#32 ∧ (b.lane P).log (litD32 10) = 0x40135d8e#32 := by
  rw [(b.templates hb P).log]
  cases b with
  | sse s f =>
    change vecLog (Sse.ops f (P.x86 binary32)) _ = _ ∧ vecLog (Sse.ops f (P.x86 binary32)) _ = _
    rw [sse_log0 f P (litD32 2), sse_log0 f P (litD32 10)]
    obtain ⟨f1, f2, f3⟩ := f
    cases f1 <;> cases f2 <;> cases f3 <;> decide +kernel
  | avx f =>
    change vecLog (AvxF.ops f (P.x86 binary32)) _ = _ ∧ vecLog (AvxF.ops f (P.x86 binary32)) _ = _
    rw [avx_log0 f P (litD32 2), avx_log0 f P (litD32 10)]
    cases f <;> decide +kernel
  | _ => exact absurd hb (by decide)

end own

/-! ## Functions that take a value at one argument -/

/-- A function of numbers that gives numbers and does not decrease. -/
def Climbs (g : BitVec 32 → BitVec 32) : Prop :=
  (∀ x, Num binary32 x → Num binary32 (g x)) ∧
  ∀ x y, Num binary32 x → Num binary32 y → binary32.toEReal x ≤ binary32.toEReal y →
    binary32.toEReal (g x) ≤ binary32.toEReal (g y)

theorem climbs_id : Climbs id := ⟨fun _ h => h, fun _ _ _ _ h => h⟩

theorem Climbs.mul {g : BitVec 32 → BitVec 32} (h : Climbs g) {c : BitVec 32} (hc : IsFin binary32 c)
    (hp : binary32.ltb 0#32 c = true) : Climbs fun x => binary32.mul (g x) c := by
  have p : 0 < binary32.toEReal c := (positive_lit ⟨hc, hp⟩).2
  have p' : binary32.toReal c ≠ 0 := by
    rw [binary32.toEReal_of_finite hc] at p
    exact (by exact_mod_cast p : 0 < binary32.toReal c).ne'
  have n : ∀ x, Num binary32 x → Num binary32 (binary32.mul (g x) c) := fun x hx =>
    num_mul_of (h.1 x hx) hc fun e => absurd e p'
  exact ⟨n, fun x y hx hy hxy => (Fmt.mul_rndE (n x hx)).mono (Fmt.mul_rndE (n y hy))
    (mul_le_mul_of_nonneg_right (h.2 x y hx hy hxy) p.le)⟩

theorem Climbs.sub {g : BitVec 32 → BitVec 32} (h : Climbs g) {c : BitVec 32} (hc : IsFin binary32 c) :
    Climbs fun x => binary32.sub (g x) c := by
  have nc := num_of_fin hc
  have hc' : IsFin binary32 (binary32.negate c) := by unfold IsFin; rw [binary32.isFinite_negate]; exact hc
  have n : ∀ x, Num binary32 x → Num binary32 (binary32.sub (g x) c) := fun x hx =>
    num_sub_fin (h.1 x hx) nc (.inr hc)
  refine ⟨n, fun x y hx hy hxy => ?_⟩
  have a := n x hx
  have b := n y hy
  dsimp only
  rw [binary32.sub_num (h.1 x hx) nc] at a ⊢
  rw [binary32.sub_num (h.1 y hy) nc] at b ⊢
  exact (Fmt.add_rndE a).mono (Fmt.add_rndE b) (add_le_add (h.2 x y hx hy hxy) le_rfl)

/-- If the neighbours of `x0` give less and more than `t`, no number but `x0` gives `t`. -/
theorem Climbs.only {g : BitVec 32 → BitVec 32} (h : Climbs g) {xm x0 xp t x : BitVec 32}
    (hm : Num binary32 xm ∧ binary32.key xm + 1 = binary32.key x0 ∧ binary32.ltb (g xm) t = true)
    (hp : Num binary32 xp ∧ binary32.key x0 + 1 = binary32.key xp ∧ binary32.ltb t (g xp) = true)
    (h0 : binary32.code x0 ≠ 0) (hx : Num binary32 x) (e : g x = t) : x = x0 := by
  obtain ⟨m1, m2, m3⟩ := hm
  obtain ⟨p1, p2, p3⟩ := hp
  subst e
  rcases lt_trichotomy (binary32.key x) (binary32.key x0) with hl | hl | hl
  · have := h.2 x xm hx m1 ((binary32.key_le_iff_value hx m1).mp (by omega))
    exact absurd (binary32.ltb_iff_value.mp m3).2.2 (not_lt.mpr this)
  · exact Fmt.eq_of_key hl h0
  · have := h.2 xp x p1 hx ((binary32.key_le_iff_value p1 hx).mp (by omega))
    exact absurd (binary32.ltb_iff_value.mp p3).2.2 (not_lt.mpr this)

section own
attribute [local irreducible] litD litF litD32 Fmt.add Fmt.mul Fmt.div Fmt.sub Fmt.fma Fmt.ltb Fmt.leb Fmt.eqb
  Fmt.roundInt Fmt.toInt32 Fmt.ofInt32 Fmt.sqrt

theorem lit_ln2 : IsFin binary32 0x3f317218#32 ∧ binary32.ltb 0#32 0x3f317218#32 = true := by decide +kernel
theorem lit_ln10 : IsFin binary32 0x40135d8e#32 ∧ binary32.ltb 0#32 0x40135d8e#32 = true := by decide +kernel
theorem lit_twelfth : IsFin binary32 (litD32 0.083333333333) ∧ binary32.ltb 0#32 (litD32 0.083333333333) = true := by
  decide +kernel
theorem lit_twentieth : IsFin binary32 (litD32 0.05) ∧ binary32.ltb 0#32 (litD32 0.05) = true := by decide +kernel
theorem lit_69 : IsFin binary32 (litD32 69) := by decide +kernel
theorem lit_475 : IsFin binary32 (litD32 4.75) := by decide +kernel

theorem climbs_midi : Climbs fun x => binary32.mul (binary32.mul x (litD32 0.083333333333)) 0x3f317218#32 :=
  (climbs_id.mul lit_twelfth.1 lit_twelfth.2).mul lit_ln2.1 lit_ln2.2
theorem climbs_freq :
    Climbs fun x => binary32.mul (binary32.mul (binary32.sub x (litD32 69)) (litD32 0.083333333333)) 0x3f317218#32 :=
  ((climbs_id.sub lit_69).mul lit_twelfth.1 lit_twelfth.2).mul lit_ln2.1 lit_ln2.2
theorem climbs_oct : Climbs fun x => binary32.mul (binary32.sub x (litD32 4.75)) 0x3f317218#32 :=
  (climbs_id.sub lit_475).mul lit_ln2.1 lit_ln2.2
theorem climbs_db : Climbs fun x => binary32.mul (binary32.mul x (litD32 0.05)) 0x40135d8e#32 :=
  (climbs_id.mul lit_twentieth.1 lit_twentieth.2).mul lit_ln10.1 lit_ln10.2

theorem own_midi2ratio_num (b : Build32) (hb : b.simdMath = true) (P : Platform 32) {x : BitVec 32} (hx : Num binary32 x)
    (h : x ≠ 0x44c00000#32) : Num binary32 (Functor.midi2ratio (b.lane P) x) := by
  unfold Functor.midi2ratio
  rw [lane_lit32 b P, lane_mul32 b hb P]
  refine own_pow_of b hb P ?_ fun e => h ?_
  · rw [(own_log_bases b hb P).1]; exact climbs_midi.1 x hx
  · rw [(own_log_bases b hb P).1] at e
    exact climbs_midi.only (xm := 0x44bfffff#32) (xp := 0x44c00001#32)
      (t := 0x42b17218#32) (by decide +kernel) (by decide +kernel) (by decide +kernel) hx e

theorem lit_440 : IsFin binary32 (litD32 440) ∧ binary32.ltb 0#32 (litD32 440) = true := by decide +kernel

theorem num_scaled {y : BitVec 32} (h : Num binary32 y) : Num binary32 (binary32.mul (litD32 440) y) := by
  have c : binary32.code (litD32 440) ≠ 0 := (positive_lit lit_440).code
  rcases fin_or_inf h with f | i
  · exact num_mul lit_440.1 f
  · exact mul_ok (num_of_fin lit_440.1) h (.inr ⟨c, code_inf i⟩)

theorem own_midi2freq_num (b : Build32) (hb : b.simdMath = true) (P : Platform 32) {x : BitVec 32} (hx : Num binary32 x)
    (h : x ≠ 0x44c8a000#32) : Num binary32 (Functor.midi2freq (b.lane P) x) := by
  unfold Functor.midi2freq
  rw [lane_lit32 b P, lane_mul32 b hb P, lane_sub32' b P]
  refine num_scaled (own_pow_of b hb P ?_ fun e => h ?_)
  · rw [(own_log_bases b hb P).1]; exact climbs_freq.1 x hx
  · rw [(own_log_bases b hb P).1] at e
    exact climbs_freq.only (xm := 0x44c89fff#32) (xp := 0x44c8a001#32)
      (t := 0x42b17218#32) (by decide +kernel) (by decide +kernel) (by decide +kernel) hx e

theorem own_oct2freq_num (b : Build32) (hb : b.simdMath = true) (P : Platform 32) {x : BitVec 32} (hx : Num binary32 x)
    (h : x ≠ 0x4304c000#32) : Num binary32 (Functor.oct2freq (b.lane P) x) := by
  unfold Functor.oct2freq
  rw [lane_lit32 b P, lane_mul32 b hb P, lane_sub32' b P]
  refine num_scaled (own_pow_of b hb P ?_ fun e => h ?_)
  · rw [(own_log_bases b hb P).1]; exact climbs_oct.1 x hx
  · rw [(own_log_bases b hb P).1] at e
    exact climbs_oct.only (xm := 0x4304bfff#32) (xp := 0x4304c001#32)
      (t := 0x42b17218#32) (by decide +kernel) (by decide +kernel) (by decide +kernel) hx e

theorem own_db2amp_num (b : Build32) (hb : b.simdMath = true) (P : Platform 32) {x : BitVec 32} (hx : Num binary32 x)
    (h : x ≠ 0x4440a8c0#32) : Num binary32 (Functor.db2amp (b.lane P) x) := by
  unfold Functor.db2amp
  rw [lane_lit32 b P, lane_mul32 b hb P]
  refine own_pow_of b hb P ?_ fun e => h ?_
  · rw [(own_log_bases b hb P).2]; exact climbs_db.1 x hx
  · rw [(own_log_bases b hb P).2] at e
    exact climbs_db.only (xm := 0x4440a8bf#32) (xp := 0x4440a8c1#32)
      (t := 0x42b17218#32) (by decide +kernel) (by decide +kernel) (by decide +kernel) hx e

end own

end Nova
