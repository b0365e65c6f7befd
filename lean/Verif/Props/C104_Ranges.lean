import Verif.SpecRange
import Verif.Lemmas.Ranges
import Verif.Props.C99_Contract
import Verif.Props.C64_FullScale

/-!
# C104: Results stay in the range of their function

With products fused into sums or not.
-/

namespace Nova
open FP Spec VecMath

theorem num_mul_nonzero {x y : BitVec 32} (hx : Num binary32 x) (hy : IsFin binary32 y) (h0 : binary32.toReal y ≠ 0) :
    Num binary32 (binary32.mul x y) := by
  have key : binary32.isInf x = true → Num binary32 (binary32.mul x y) := by
    intro i
    have hc := code_of_real h0
    unfold Num at hx ⊢
    unfold Fmt.mul
    dsimp only
    have z1 : binary32.isZero y = false := by simpa [Fmt.isZero] using hc
    have z2 : binary32.isZero x = false := by
      simp only [Fmt.isInf, decide_eq_true_eq] at i
      unfold Fmt.isZero
      rw [i]; decide
    rw [hx, binary32.isFinite_not_nan hy, i, z1, z2, if_neg (by decide), if_pos (Bool.true_or _), if_neg (by decide)]
    have := (Fmt.isInf_pack_inf (F := binary32) (binary32.neg x != binary32.neg y)).1
    unfold Fmt.isInf at this
    unfold Fmt.isNaN
    rw [decide_eq_true_eq] at this
    rw [this]; decide
  rcases Fmt.num_cases hx with ⟨i, -, -⟩ | ⟨i, -, -⟩ | ⟨f, -, -⟩
  · exact key i
  · exact key i
  · exact num_mul f hy

/-- Powers of a constant base, whatever the exponent. -/
theorem Contract.vecPow_sign_const {c : Bool} {V : LaneOps 32} {x y r : BitVec 32} (h : V.Ieee) (hV : IsX86Class V)
    (hx : IsNormal x) (h1 : 2 ≤ binary32.toReal x) (hy : Num binary32 y) (hr : r ∈ Contract.vecPow c V x y) :
    binary32.neg r = false := by
  obtain ⟨l, hl, hr⟩ := Contract.vecPow_cases h (by linarith) hr
  obtain ⟨fl, el⟩ := Contract.vecLog_error h hV hx (neg_of_toReal (by linarith)) l hl
  refine Contract.vecExp_sign h ?_ r hr
  refine num_mul_nonzero hy fl ?_
  have := Real.log_le_log (by norm_num) h1
  have := Real.log_two_gt_d9
  intro hc
  rw [hc, zero_sub, abs_neg] at el
  have h0 : 0 < Real.log (binary32.toReal x) := by linarith
  rw [abs_of_pos h0] at el
  norm_num at *; linarith

theorem notBelowZero_of_neg {y : BitVec 32} (h : binary32.neg y = false) : NotBelowZero y := by
  intro hy
  rcases Fmt.num_cases hy with ⟨-, n, -⟩ | ⟨-, -, e⟩ | ⟨f, e, -⟩
  · rw [h] at n; cases n
  · rw [e]; exact le_top
  · rw [binary32.toEReal_of_finite f]; exact_mod_cast toReal_nonneg h

theorem notBelowZero_mul {x y : BitVec 32} (hx : NotBelowZero x) (hy : NotBelowZero y) :
    NotBelowZero (binary32.mul x y) := by
  intro hn
  obtain ⟨n1, n2⟩ := Fmt.mul_num hn
  have hz : Num binary32 0#32 := by decide
  have := (Fmt.IsRndE.self (F := binary32) hz).mono (Fmt.mul_rndE hn) (by
    rw [binary32.toEReal_of_finite (by decide), toReal_posZero32]
    exact mul_nonneg (hx n1) (hy n2))
  rw [binary32.toEReal_of_finite (x := 0#32) (by decide), toReal_posZero32] at this
  exact this

theorem two_normal : IsNormal 0x40000000#32 ∧ 2 ≤ binary32.toReal 0x40000000#32 := by
  rw [isVal_value (q := 2) (by decide +kernel)]; exact ⟨⟨by decide, by decide⟩, by norm_num⟩

theorem ten_normal : IsNormal 0x41200000#32 ∧ 2 ≤ binary32.toReal 0x41200000#32 := by
  rw [isVal_value (q := 10) (by decide +kernel)]; exact ⟨⟨by decide, by decide⟩, by norm_num⟩

theorem num_times {x k : BitVec 32} {q : ℚ} (hx : Num binary32 x) (hk : isVal k q = true) (hq : q ≠ 0) :
    Num binary32 (binary32.mul x k) :=
  num_mul_nonzero hx (isVal_fin hk) (by rw [isVal_value hk]; exact_mod_cast hq)

/-- Either end of the line. -/
theorem inf_or_fin {x : BitVec 32} (hx : Num binary32 x) : IsFin binary32 x ∨ ∃ s, x = 0x7f800000#32 ||| signBit s := by
  have key : binary32.isInf x = true → ∃ s, x = 0x7f800000#32 ||| signBit s := by
    intro i
    simp only [Fmt.isInf, decide_eq_true_eq] at i
    refine ⟨binary32.neg x, binary32.ext ?_ ?_⟩
    · cases binary32.neg x <;> decide
    · rw [i]; cases binary32.neg x <;> decide
  rcases Fmt.num_cases hx with ⟨i, -, -⟩ | ⟨i, -, -⟩ | ⟨f, -, -⟩
  · exact .inr (key i)
  · exact .inr (key i)
  · exact .inl f

theorem inside {x : BitVec 32} (hx : Num binary32 x) (h : binary32.ltb 0x3f800000#32 (binary32.fabs x) = false) :
    IsFin binary32 x ∧ |binary32.toReal x| ≤ 1 := by
  rcases inf_or_fin hx with f | ⟨s, rfl⟩
  · refine ⟨f, ?_⟩
    rw [toReal_lt_of_ltb (by decide) (by unfold IsFin; rw [binary32.isFinite_fabs]; exact f), decide_eq_false_iff_not, not_lt,
      binary32.toReal_fabs, toReal_one32'] at h
    exact h
  · cases s <;> exact absurd h (by decide)

theorem is_minus_half {x : BitVec 32} (hx : IsFin binary32 x) (h : binary32.toReal x = -1 / 2) : x = 0xbf000000#32 := by
  have v : binary32.toReal 0xbf000000#32 = -1 / 2 := by
    rw [isVal_value (q := -1 / 2) (by decide +kernel)]; norm_num
  have hf : IsFin binary32 0xbf000000#32 := by decide
  refine Fmt.eq_of_key (F := binary32) (le_antisymm ?_ ?_) (by decide)
  · rw [binary32.key_le_iff_value (binary32.isFinite_not_nan hx) (by decide), binary32.toEReal_of_finite hx,
      binary32.toEReal_of_finite hf, h, v]
  · rw [binary32.key_le_iff_value (by decide) (binary32.isFinite_not_nan hx), binary32.toEReal_of_finite hx,
      binary32.toEReal_of_finite hf, h, v]

/-- Every possible result lies in the range. -/
theorem C104_unary (c : Bool) (b : Build32) (hb : b.simdMath = true) (P : Platform 32) (op : UnOp) (x : BitVec 32)
    (hx : RangeDomain op x) :
    ∀ r ∈ Contract.unary c (b.ops P) (b.lane P) P.r2 P.r10 op x, ∀ y, r = .ok y → UnRangeOf op y := by
  intro r hm y hy
  have T := b.templates hb P
  have hV := T.x86
  have h := T.ieee
  have un : ∀ {l : List (BitVec 32)} {p : BitVec 32 → Prop}, r ∈ l.map .ok → (∀ z ∈ l, p z) → p y := by
    intro l p hm H
    obtain ⟨z, e, hz⟩ := contract_map hm H
    rw [hy] at e; cases e; exact hz
  cases op with
  | sin =>
    obtain ⟨z, e, hz⟩ := C64_contract_partial c b hb P .sin (.inl rfl) x hx.1 hx.2 r hm
    rw [hy] at e; cases e; exact hz
  | cos =>
    obtain ⟨z, e, hz⟩ := C64_contract_partial c b hb P .cos (.inr rfl) x hx.1 hx.2 r hm
    rw [hy] at e; cases e; exact hz
  | tanh =>
    refine un hm fun z hz => ?_
    rcases inf_or_fin hx with f | ⟨s, rfl⟩
    · exact ⟨(Contract.vecTanh_error h hV f z hz).1, Contract.vecTanh_le h hV f z hz⟩
    · rw [Contract.vecTanh_inf h s z hz]
      refine ⟨by cases s <;> decide, ?_⟩
      cases s
      · rw [isVal_value (q := 1) (by decide +kernel)]; norm_num
      · rw [isVal_value (q := -1) (by decide +kernel)]; norm_num
  | atan =>
    refine un hm fun z hz => ?_
    rcases inf_or_fin hx with f | ⟨s, rfl⟩
    · exact ⟨(Contract.vecAtan_error h f z hz).1, (Contract.vecAtan_le h f z hz).trans halfPi32.le⟩
    · have := Contract.vecAtan_inf h s z hz
      exact ⟨this.1, this.2.trans halfPi32.le⟩
  | asin =>
    refine un hm fun z hz => ?_
    cases hd : binary32.ltb 0x3f800000#32 (binary32.fabs x) with
    | true =>
      rw [Contract.vecAsin_outside h hx hd z hz]
      refine ⟨by decide, ?_⟩
      rw [toReal_posZero32, abs_zero]; unfold halfPi; norm_num
    | false =>
      obtain ⟨f, hd⟩ := inside hx hd
      exact ⟨(Contract.vecAsin_error h f hd z hz).1, (Contract.vecAsin_le h f hd z hz).trans halfPi32.le⟩
  | acos =>
    refine un hm fun z hz => ?_
    cases hd : binary32.ltb 0x3f800000#32 (binary32.fabs x) with
    | true =>
      rw [Contract.vecAcos_outside h hx.1 hd z hz]
      refine ⟨by decide, toReal_posZero32.ge, ?_⟩
      rw [toReal_posZero32]; unfold wholePi halfPi; norm_num
    | false =>
      obtain ⟨f, hd⟩ := inside hx.1 hd
      have hn : binary32.toReal x ≠ -1 / 2 := fun hc => hx.2 (is_minus_half f hc)
      have := Contract.vecAcos_le h f hd hn z hz
      refine ⟨(Contract.vecAcos_error h f hd hn z hz).1, this.1, this.2.trans (le_of_eq ?_)⟩
      rw [pi32]; unfold wholePi halfPi; norm_num
  | exp => exact un hm fun z hz => notBelowZero_of_neg (Contract.vecExp_sign h (a := .reg x) hx z hz)
  | midi2freq =>
    unfold Contract.unary at hm
    dsimp only at hm
    rw [lane_lit32, lane_mul32 b hb, lane_sub32, lit2, litTwelfth, lit440, lit69] at hm
    obtain ⟨p, hp, rfl⟩ := List.mem_map.mp hm
    cases hy
    exact notBelowZero_mul (notBelowZero_of_neg (by decide)) (notBelowZero_of_neg
      (Contract.vecPow_sign_const h hV two_normal.1 two_normal.2 (num_times (num_sub_fin hx (by decide) (.inr (by decide)))
        (q := 11184811 / 2 ^ 27) (by decide +kernel) (by norm_num)) hp))
  | midi2ratio =>
    unfold Contract.unary at hm
    dsimp only at hm
    rw [lane_lit32, lane_mul32 b hb, lit2, litTwelfth] at hm
    exact un hm fun z hz => notBelowZero_of_neg
      (Contract.vecPow_sign_const h hV two_normal.1 two_normal.2 (num_times hx
        (q := 11184811 / 2 ^ 27) (by decide +kernel) (by norm_num)) hz)
  | oct2freq =>
    unfold Contract.unary at hm
    dsimp only at hm
    rw [lane_lit32, lane_mul32 b hb, lane_sub32, lit2, lit440, lit475] at hm
    obtain ⟨p, hp, rfl⟩ := List.mem_map.mp hm
    cases hy
    exact notBelowZero_mul (notBelowZero_of_neg (by decide)) (notBelowZero_of_neg
      (Contract.vecPow_sign_const h hV two_normal.1 two_normal.2 (num_sub_fin hx (by decide) (.inr (by decide))) hp))
  | db2amp =>
    unfold Contract.unary at hm
    dsimp only at hm
    rw [lane_lit32, lane_mul32 b hb, lit10, litTwentieth] at hm
    exact un hm fun z hz => notBelowZero_of_neg
      (Contract.vecPow_sign_const h hV ten_normal.1 ten_normal.2 (num_times hx
        (q := 13421773 / 2 ^ 28) (by decide +kernel) (by norm_num)) hz)
  | _ => trivial

/-- The functions the library computes. -/
theorem C104_unary_lane (b : Build32) (hb : b.simdMath = true) (P : Platform 32) (op : UnOp) (x y : BitVec 32)
    (hx : RangeDomain op x) (h : op.f (b.lane P) x = .ok y) : UnRangeOf op y :=
  C104_unary false b hb P op x hx _ (C99_possible_unary false b hb P op x) y h

/-- Infinities, numbers outside the domain of asin, and a large argument of atan. -/
example : RangeDomain .tanh 0xff800000#32 ∧ RangeDomain .asin 0x40000000#32 ∧ RangeDomain .atan 0x7f7fffff#32 ∧
    RangeDomain .acos 0xbf000001#32 ∧ RangeDomain .midi2freq 0xff800000#32 ∧
    ((Build32.avx true).lane platform0).atan 0x7f7fffff#32 = 0x3fc90fdb#32 ∧
    ((Build32.avx true).lane platform0).asin 0x40000000#32 = 0#32 := by
  have n : Num binary32 0xff800000#32 ∧ Num binary32 0x40000000#32 ∧ Num binary32 0x7f7fffff#32 ∧
      Num binary32 0xbf000001#32 := by decide
  exact ⟨n.1, n.2.1, n.2.2.1, ⟨n.2.2.2, by decide⟩, n.1, by decide +kernel, by decide +kernel⟩

/-- The arc cosine leaves its range at its only wrong value. -/
theorem C104_acos_negation (b : Build32) (hb : b.simdMath = true) (P : Platform 32) :
    ¬ UnRangeOf .acos ((b.lane P).acos 0xbf000000#32) := by
  rintro ⟨-, -, h⟩
  have := (abs_le.mp (C72_negation b hb P).2.2).1
  have pi1 := Real.pi_gt_d20
  unfold wholePi halfPi at h
  norm_num at *; linarith

/-- The powers. -/
theorem C104_binary (c : Bool) (b : Build32) (hb : b.simdMath = true) (P : Platform 32) (op : BinOp) (x y : BitVec 32)
    (hx : IsFin binary32 x) (hy : IsFin binary32 y) :
    ∀ r ∈ Contract.binary c (b.ops P) (b.lane P) op x y, BinRangeOf op x r := by
  intro r hm
  have T := b.templates hb P
  cases op with
  | pow => exact fun h0 => notBelowZero_of_neg (Contract.vecPow_sign T.ieee T.x86 hx h0 hy r hm)
  | spow =>
    obtain ⟨s, hs, rfl⟩ := Contract.vecSignedPow_eq T.ieee hm
    have hn := Contract.vecPow_sign T.ieee T.x86 (x := binary32.fabs x) (by unfold IsFin; rw [binary32.isFinite_fabs]; exact hx)
      (by rw [binary32.toReal_fabs]; exact abs_nonneg _) hy s hs
    change binary32.neg (signBit (binary32.neg x) ||| s) = binary32.neg x
    rw [BitVec.or_comm, or_signBit hn, BitVec.xor_comm, ← sign_and]
    have := binary32.neg_xor_sign x s
    rw [hn, Bool.xor_false] at this
    exact this
  | _ => trivial

/-- A base of zero, and the square root of a subnormal number with a sign. -/
example : IsFin binary32 0x80000001#32 ∧ IsFin binary32 0x3f000000#32 ∧
    binary32.neg (BinOp.spow.f ((Build32.avx true).lane platform0) 0x80000001#32 0x3f000000#32) = true := by
  refine ⟨by decide, by decide, by decide +kernel⟩

/-- `f_vec_simd(out, in, n)` for every function, whichever products the compiler fuses into sums: every element of the
output is in the range. -/
theorem C104_unary_calls (c : Bool) (b : Build32) (hb : b.simdMath = true) (P : Platform 32) (op : UnOp)
    {f : BitVec 32 → Except Fault (BitVec 32)} (hf : ∀ x, f x ∈ Contract.unary c (b.ops P) (b.lane P) P.r2 P.r10 op x)
    {m : Mem (BitVec 32)} {out inp : Nat} {n : BitVec 32} {x g : Nat → BitVec 32} (hn : 0 < n.toNat)
    (hmul : b.target.perLine ∣ n.toNat) (hoal : b.target.align ∣ out) (hial : b.target.align ∣ inp)
    (hout : Allocated m out n.toNat) (hin : Holds m inp n.toNat x) (hs : SafePlacement out inp n.toNat)
    (hx : ∀ i, i < n.toNat → RangeDomain op (x i)) (hg : ∀ i, i < n.toNat → f (x i) = .ok (g i)) :
    performVecSimd1 (b.vec P) f out inp n m = .ok ((), overwrite m out n.toNat g) ∧
      ∀ i, i < n.toNat → UnRangeOf op (g i) := by
  refine ⟨?_, fun i h => C104_unary c b hb P op (x i) (hx i h) _ (hf (x i)) _ (hg i h)⟩
  have hp := processed_eq b.target (b.env P) hmul
  rw [← hp]
  apply performVecSimd1_spec (b.target.lawful (b.env P)) (x := x) (perLine_le b.target (b.env P) hn hmul) hoal <;> rw [hp]
  · exact hout
  · exact ⟨hial, hin, hs⟩
  · exact fun i h => hg i h

/-- The same for the powers, every argument a pointer, a number or a ramp. -/
theorem C104_binary_calls (c : Bool) (bd : Build32) (hb : bd.simdMath = true) (P : Platform 32) (op : BinOp)
    {f : BitVec 32 → BitVec 32 → BitVec 32} (hf : ∀ x y, f x y ∈ Contract.binary c (bd.ops P) (bd.lane P) op x y)
    {m : Mem (BitVec 32)} {out : Nat} {a b : SArg (BitVec 32)} {n : BitVec 32} {x y : Nat → BitVec 32}
    (hn : 0 < n.toNat) (hmul : bd.target.perLine ∣ n.toNat) (hoal : bd.target.align ∣ out)
    (hout : Allocated m out n.toNat) (ha : SimdSupplies (bd.vec P) bd.target.align m out n.toNat a x)
    (hb' : SimdSupplies (bd.vec P) bd.target.align m out n.toNat b y)
    (hx : ∀ i, i < n.toNat → IsFin binary32 (x i) ∧ IsFin binary32 (y i)) :
    ∃ z : Nat → BitVec 32, performVecSimd2 (bd.vec P) f out a b n m = .ok ((), overwrite m out n.toNat z) ∧
      ∀ i, i < n.toNat → BinRangeOf op (x i) (z i) := by
  refine ⟨fun i => f (x i) (y i), ?_, fun i h => C104_binary c bd hb P op (x i) (y i) (hx i h).1 (hx i h).2 _ (hf _ _)⟩
  have hp := processed_eq bd.target (bd.env P) hmul
  rw [← hp] at hout ha hb' ⊢
  exact performVecSimd2_spec (bd.target.lawful (bd.env P)) (perLine_le bd.target (bd.env P) hn hmul) hoal hout ha hb'

end Nova
