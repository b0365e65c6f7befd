import Verif.Lemmas.NaNs
import Verif.Lemmas.BitLanes
import Verif.Props.C01_Elementwise
import Verif.Props.C63_Log

/-!
# C85: a NaN in the input is a NaN in the output

`C85_unary_float_partial` … `C85_quad_double`: for every NaN pattern, every build and every function listed in `SpecNaN`, the result
is a NaN.  `C85_unary_call_partial` …: the same of whole calls.  The property is false of other functions: `C85_negation_avx` (with AVX,
exp of a NaN is the largest finite number, asin and acos are 0, tanh is 1 or -1, pow is the largest number), `C85_sgn`,
`C85_trunc` and, for logarithms, `C65_finite`.
-/

namespace Nova
open FP VecMath Spec

section
attribute [local irreducible] litD litF Fmt.add Fmt.mul Fmt.div Fmt.sub Fmt.fma Fmt.ltb Fmt.leb Fmt.eqb
  Fmt.roundInt Fmt.toInt32 Fmt.ofInt32 Fmt.sqrt

/-- The arithmetic operations of `A` keep NaNs. -/
structure Keeps {w : Nat} (F : Fmt w) (A : Arith (BitVec w)) : Prop where
  add : ∀ x y, F.N x ∨ F.N y → F.N (A.add x y)
  sub : ∀ x y, F.N x ∨ F.N y → F.N (A.sub x y)
  mul : ∀ x y, F.N x ∨ F.N y → F.N (A.mul x y)
  div : ∀ x y, F.N x ∨ F.N y → F.N (A.div x y)
  madd : ∀ x y z, F.N x ∨ F.N y ∨ F.N z → F.N (A.madd x y z)
  abs : ∀ x, F.N x → F.N (A.abs x)
  square : ∀ x, F.N x → F.N (A.square x)
  cube : ∀ x, F.N x → F.N (A.cube x)
  round : ∀ x, F.N x → F.N (A.round x)
  floor : ∀ x, F.N x → F.N (A.floor x)
  ceil : ∀ x, F.N x → F.N (A.ceil x)
  frac : ∀ x, F.N x → F.N (A.frac x)
  undenormalize : ∀ x, F.N x → F.N (A.undenormalize x)
  reciprocal : ∀ x, F.N x → F.N (A.reciprocal x)
  signedSqrt : ∀ x, F.N x → F.N (A.signedSqrt x)
  softclip : ∀ x, F.N x → F.N (A.softclip x)

section scalar
variable {w : Nat} {F : Fmt w}

theorem keeps_add {x y : BitVec w} (h : F.N x ∨ F.N y) : F.N (F.add x y) := h.elim .add_l .add_r
theorem keeps_sub {x y : BitVec w} (h : F.N x ∨ F.N y) : F.N (F.sub x y) := h.elim .sub_l .sub_r
theorem keeps_mul {x y : BitVec w} (h : F.N x ∨ F.N y) : F.N (F.mul x y) := h.elim .mul_l .mul_r
theorem keeps_div {x y : BitVec w} (h : F.N x ∨ F.N y) : F.N (F.div x y) := h.elim .div_l .div_r
theorem keeps_fma {x y z : BitVec w} (h : F.N x ∨ F.N y ∨ F.N z) : F.N (F.fma x y z) :=
  h.elim .fma_1 fun h => h.elim .fma_2 .fma_3
theorem keeps_muladd {x y z : BitVec w} (h : F.N x ∨ F.N y ∨ F.N z) : F.N (F.add (F.mul x y) z) :=
  h.elim (fun h => h.mul_l.add_l) fun h => h.elim (fun h => (Fmt.N.mul_r h).add_l) .add_r

theorem keeps_madd (fma : Bool) {x y z : BitVec w} (h : F.N x ∨ F.N y ∨ F.N z) :
    F.N (if fma then F.fma x y z else F.add (F.mul x y) z) := by
  cases fma
  · exact keeps_muladd h
  · exact keeps_fma h

theorem keeps_undenormalize {x : BitVec w} (h : F.N x) : F.N (Scalar.undenormalize F x) := by
  unfold Scalar.undenormalize
  rw [F.ltb_nan (Or.inr h), if_neg (by decide), F.ltb_nan (Or.inr h), if_neg (by decide)]
  exact h

theorem keeps_signedSqrt {x : BitVec w} (h : F.N x) : F.N (Scalar.signedSqrt F x) := by
  unfold Scalar.signedSqrt
  split
  · exact h.sqrt
  · exact h.negate.sqrt.negate

theorem keeps_softclip {x : BitVec w} (h : F.N x) : F.N (Scalar.softclip F x) := by
  unfold Scalar.softclip
  dsimp only
  split
  · exact h
  · exact .div_r h

theorem keeps_round (c : Bool) {x : BitVec w} (h : F.N x) : F.N (Scalar.round F c x) := by
  unfold Scalar.round
  split
  · exact h.round
  · exact h.add_l.round

theorem keeps_scalar (lit : Rat → BitVec w) (c : Bool) (M : Libm w) : Keeps F (Scalar.arith F lit c M) where
  add _ _ := keeps_add
  sub _ _ := keeps_sub
  mul _ _ := keeps_mul
  div _ _ := keeps_div
  madd _ _ _ := keeps_muladd
  abs _ h := h.fabs
  square _ h := h.mul_l
  cube _ h := h.mul_l.mul_l
  round _ h := keeps_round c h
  floor _ h := h.round
  ceil _ h := h.round
  frac _ h := h.sub_l
  undenormalize _ h := keeps_undenormalize h
  reciprocal _ h := .div_r h
  signedSqrt _ h := keeps_signedSqrt h
  softclip _ h := keeps_softclip h

end scalar

theorem keeps_sse (f : Sse.Flags) (P : Platform 32) :
    Keeps binary32 (Sse.arith f (P.x86 binary32) P.r2 P.r10 (Build32.scalar P)) where
  add _ _ := keeps_add
  sub _ _ := keeps_sub
  mul _ _ := keeps_mul
  div _ _ := keeps_div
  madd _ _ _ := keeps_madd f.fma
  abs x h := by change binary32.N ((Build32.lane P (.sse false f)).abs x); rw [abs_lane32]; exact h.fabs
  square _ h := h.mul_l
  cube _ h := h.mul_l
  round _ h := (sse_nans f P).roundNaN _ h
  floor x h := by
    change binary32.N (Sse.floor f (P.x86 binary32) x)
    unfold Sse.floor
    split
    · exact h.round
    · exact (vecRound_nan (V := Sse.ops f (P.x86 binary32)) rfl rfl (sse_signMask _ _) h).sub_l
  ceil x h := by
    change binary32.N (Sse.ceil f (P.x86 binary32) x)
    unfold Sse.ceil
    split
    · exact h.round
    · exact (vecRound_nan (V := Sse.ops f (P.x86 binary32)) rfl rfl (sse_signMask _ _) h).add_l
  frac _ h := h.sub_l
  undenormalize x h := by
    have e : binary32.infCode < binary32.code x := by simpa [Fmt.N, Fmt.isNaN] using h
    have e' : (2 : Nat) ^ 23 ≤ binary32.infCode := by decide
    change binary32.N ((Build32.lane P (.sse false f)).undenormalize x)
    rw [undenormalize_lane32 (.sse false f) rfl P x, if_neg (by omega)]; exact h
  reciprocal x h := keeps_madd f.fma (.inl (.sub_r (.mul_r h)))
  signedSqrt x h := by
    change binary32.N (vecSignedSqrt _ x)
    unfold vecSignedSqrt
    dsimp only
    rw [(sse_ieee f P).sign]
    exact nan_sign_or rfl (nan_xor_sign rfl h).sqrt
  softclip x h := by
    change binary32.N ((Build32.lane P (.sse false f)).softclip x)
    rw [softclip_lane32]; exact keeps_softclip h

theorem keeps_avx (f : Bool) (P : Platform 32) :
    Keeps binary32 (AvxF.arith f (P.x86 binary32) P.r2 P.r10 (Build32.scalar P)) where
  add _ _ := keeps_add
  sub _ _ := keeps_sub
  mul _ _ := keeps_mul
  div _ _ := keeps_div
  madd _ _ _ := keeps_madd f
  abs x h := by change binary32.N ((Build32.lane P (.avx f)).abs x); rw [abs_lane32]; exact h.fabs
  square _ h := h.mul_l
  cube _ h := .mul_r h
  round _ h := h.round
  floor x h := h.round
  ceil x h := h.round
  frac _ h := h.sub_l
  undenormalize x h := by
    have e : binary32.infCode < binary32.code x := by simpa [Fmt.N, Fmt.isNaN] using h
    have e' : (2 : Nat) ^ 23 ≤ binary32.infCode := by decide
    change binary32.N ((Build32.lane P (.avx f)).undenormalize x)
    rw [undenormalize_lane32 (.avx f) rfl P x, if_neg (by omega)]; exact h
  reciprocal x h := keeps_madd f (.inl (.sub_r (.mul_r h)))
  signedSqrt x h := by
    change binary32.N (vecSignedSqrt (AvxF.ops f (P.x86 binary32)) x)
    unfold vecSignedSqrt
    dsimp only
    rw [(avx_ieee f P).sign]
    exact nan_sign_or rfl (nan_xor_sign rfl h).sqrt
  softclip x h := by
    change binary32.N ((Build32.lane P (.avx f)).softclip x)
    rw [softclip_lane32]; exact keeps_softclip h

theorem keeps_neon (P : Platform 32) : Keeps binary32 (Neon.arith (P.arm binary32) (Build32.scalar P)) where
  add _ _ := keeps_add
  sub _ _ := keeps_sub
  mul _ _ := keeps_mul
  div _ _ h := h.elim .mul_l fun h => .mul_r (.mul_r (.sub_r h.mul_l))
  madd x y z h := h.elim (fun h => .add_r (.mul_r h)) fun h => h.elim (fun h => .add_r h.mul_l) .add_l
  abs x h := by change binary32.N ((Build32.lane P .neon).abs x); rw [abs_lane32]; exact h.fabs
  square _ h := h.mul_l
  cube _ h := h.mul_l
  round _ h := vecRound_nan (V := Neon.ops (P.arm binary32)) rfl rfl rfl h
  floor x h := (vecRound_nan (V := Neon.ops (P.arm binary32)) rfl rfl rfl h).sub_l
  ceil x h := (vecRound_nan (V := Neon.ops (P.arm binary32)) rfl rfl rfl h).add_l
  frac _ h := h.sub_l
  undenormalize x h := keeps_undenormalize h
  reciprocal x h := .mul_r (.sub_r h.mul_l)
  signedSqrt x h := nan_sign_or rfl (nan_xor_sign rfl h).mul_l
  softclip x h := keeps_softclip h

theorem keeps_altivec (P : Platform 32) : Keeps binary32 (Altivec.arith (P.arm binary32) (Build32.scalar P)) where
  add _ _ := keeps_add
  sub _ _ := keeps_sub
  mul _ _ h := h.elim .fma_1 .fma_2
  div _ _ h := h.elim .fma_1 fun h => .fma_2 (.fma_1 (.fma_2 h))
  madd x y z := keeps_fma
  abs x h := by change binary32.N ((Build32.lane P .altivec).abs x); rw [abs_lane32]; exact h.fabs
  square _ h := h.fma_1
  cube _ h := h.fma_1
  round _ h := vecRound_nan (V := Altivec.ops (P.arm binary32)) rfl rfl rfl h
  floor x h := h.round
  ceil x h := h.round
  frac _ h := h.sub_l
  undenormalize x h := keeps_undenormalize h
  reciprocal x h := .fma_1 (.fma_2 h)
  signedSqrt x h := keeps_signedSqrt h
  softclip x h := keeps_softclip h

theorem keeps_float (b : Build32) (P : Platform 32) : Keeps binary32 (b.lane P) := by
  cases b with
  | generic => exact keeps_scalar _ _ _
  | sse s f => exact keeps_sse f P
  | avx f => exact keeps_avx f P
  | neon => exact keeps_neon P
  | altivec => exact keeps_altivec P

theorem keeps_dbl (f : Dbl.Flags) (P : Platform 64)
    (hu : ∀ x, (Dbl.arith f (P.x86 binary64) (Build64.scalar P)).undenormalize x = if binary64.code x < 2 ^ 52 then 0#64 else x)
    (hs : ∀ x, (Dbl.arith f (P.x86 binary64) (Build64.scalar P)).softclip x = Scalar.softclip binary64 x)
    (ha : ∀ x, (Dbl.arith f (P.x86 binary64) (Build64.scalar P)).abs x = binary64.fabs x) :
    Keeps binary64 (Dbl.arith f (P.x86 binary64) (Build64.scalar P)) where
  add _ _ := keeps_add
  sub _ _ := keeps_sub
  mul _ _ := keeps_mul
  div _ _ := keeps_div
  madd _ _ _ := keeps_madd f.fma
  abs x h := by rw [ha]; exact h.fabs
  square _ h := h.mul_l
  cube _ h := h.mul_l
  round x h := by
    unfold Dbl.arith; dsimp only
    split
    · exact h.round
    · exact keeps_round true h
  floor x h := by
    unfold Dbl.arith; dsimp only
    split
    · exact h.round
    · exact h.round
  ceil x h := by
    unfold Dbl.arith; dsimp only
    split
    · exact h.round
    · exact h.round
  frac _ h := h.sub_l
  undenormalize x h := by
    have e : binary64.infCode < binary64.code x := by simpa [Fmt.N, Fmt.isNaN] using h
    have e' : (2 : Nat) ^ 52 ≤ binary64.infCode := by decide
    rw [hu, if_neg (by omega)]; exact h
  reciprocal x h := .div_r h
  signedSqrt x h := by
    change binary64.N (vecSignedSqrt (Dbl.ops f (P.x86 binary64)) x)
    unfold vecSignedSqrt
    dsimp only
    change binary64.N ((x &&& Dbl.signMask f.avx) ||| binary64.sqrt (x ^^^ (x &&& Dbl.signMask f.avx)))
    rw [dbl_signMask]
    exact nan_sign_or64 rfl (nan_xor_sign64 rfl h).sqrt
  softclip x h := by rw [hs]; exact keeps_softclip h

theorem keeps_double (b : Build64) (P : Platform 64) : Keeps binary64 (b.lane P) := by
  cases b with
  | generic => exact keeps_scalar _ _ _
  | sse2 s f =>
    exact keeps_dbl _ P (fun x => undenormalize_lane64 (.sse2 s f) P x) (fun x => softclip_lane64 (.sse2 s f) P x)
      fun x => abs_lane64 (.sse2 s f) P x
  | avx f =>
    exact keeps_dbl _ P (fun x => undenormalize_lane64 (.avx f) P x) (fun x => softclip_lane64 (.avx f) P x)
      fun x => abs_lane64 (.avx f) P x

/-- A build without own transcendental functions calls the C library. -/
structure Build32.Library (b : Build32) (P : Platform 32) : Prop where
  sin : (b.lane P).sin = P.M.sin
  cos : (b.lane P).cos = P.M.cos
  tan : (b.lane P).tan = P.M.tan
  asin : (b.lane P).asin = P.M.asin
  acos : (b.lane P).acos = P.M.acos
  atan : (b.lane P).atan = P.M.atan
  tanh : (b.lane P).tanh = P.M.tanh
  log : (b.lane P).log = P.M.log
  log2 : (b.lane P).log2 = P.M.log2
  log10 : (b.lane P).log10 = P.M.log10
  exp : (b.lane P).exp = P.M.exp
  pow : (b.lane P).pow = P.M.pow

theorem Build32.library (b : Build32) (hb : ownMath b = false) (P : Platform 32) : b.Library P := by
  cases b with
  | generic => exact ⟨rfl, rfl, rfl, rfl, rfl, rfl, rfl, rfl, rfl, rfl, rfl, rfl⟩
  | sse s f =>
    have hf : f.sse2 = false := hb
    constructor <;> (simp only [Build32.lane, Sse.arith, hf]; rfl)
  | avx f => exact (Bool.false_ne_true hb.symm).elim
  | neon => exact ⟨rfl, rfl, rfl, rfl, rfl, rfl, rfl, rfl, rfl, rfl, rfl, rfl⟩
  | altivec => exact ⟨rfl, rfl, rfl, rfl, rfl, rfl, rfl, rfl, rfl, rfl, rfl, rfl⟩

theorem gt_mask (b : Build32) (hb : ownMath b = true) (P : Platform 32) (x y : BitVec 32) :
    ∃ c, (b.ops P).maskGt x y = maskOf c := by
  cases b with
  | sse s f => exact ⟨_, rfl⟩
  | avx f => exact ⟨_, rfl⟩
  | _ => exact absurd hb (by decide)

theorem sse_ops (b : Build32) (hb : ownMath b = true) (ha : b.isAvx = false) (P : Platform 32) :
    (b.ops P).NaNs ∧ (b.ops P).GtFalse := by
  cases b with
  | sse s f => exact ⟨sse_nans f P, sse_gtFalse f P⟩
  | avx f => exact (Bool.false_ne_true ha.symm).elim
  | _ => exact absurd hb (by decide)

theorem lane_sin_nan (b : Build32) (P : Platform 32) (hM : P.M.KeepsNaN binary32) {x : BitVec 32} (h : binary32.N x) :
    binary32.N ((b.lane P).sin x) := by
  by_cases hm : ownMath b = true
  · rw [(b.templates hm P).sin]; exact vecSin_nan (b.templates hm P).ieee h
  · rw [(b.library (by simpa using hm) P).sin]; exact hM.sin x h

theorem lane_cos_nan (b : Build32) (P : Platform 32) (hM : P.M.KeepsNaN binary32) {x : BitVec 32} (h : binary32.N x) :
    binary32.N ((b.lane P).cos x) := by
  by_cases hm : ownMath b = true
  · rw [(b.templates hm P).cos]; exact vecCos_nan (b.templates hm P).ieee h
  · rw [(b.library (by simpa using hm) P).cos]; exact hM.cos x h

theorem lane_tan_nan (b : Build32) (P : Platform 32) (hM : P.M.KeepsNaN binary32) {x : BitVec 32} (h : binary32.N x) :
    binary32.N ((b.lane P).tan x) := by
  by_cases hm : ownMath b = true
  · rw [(b.templates hm P).tan]; exact vecTan_nan (b.templates hm P).ieee h
  · rw [(b.library (by simpa using hm) P).tan]; exact hM.tan x h

theorem lane_atan_nan (b : Build32) (P : Platform 32) (hM : P.M.KeepsNaN binary32) {x : BitVec 32} (h : binary32.N x) :
    binary32.N ((b.lane P).atan x) := by
  by_cases hm : ownMath b = true
  · rw [(b.templates hm P).atan]; exact vecAtan_nan (b.templates hm P).ieee (gt_mask b hm P) h
  · rw [(b.library (by simpa using hm) P).atan]; exact hM.atan x h

theorem lane_asin_nan (b : Build32) (ha : b.isAvx = false) (P : Platform 32) (hM : P.M.KeepsNaN binary32) {x : BitVec 32}
    (h : binary32.N x) : binary32.N ((b.lane P).asin x) := by
  by_cases hm : ownMath b = true
  · rw [(b.templates hm P).asin]; exact vecAsin_nan ((sse_ops b hm ha P).1.toIeee) (sse_ops b hm ha P).2 h
  · rw [(b.library (by simpa using hm) P).asin]; exact hM.asin x h

theorem lane_acos_nan (b : Build32) (ha : b.isAvx = false) (P : Platform 32) (hM : P.M.KeepsNaN binary32) {x : BitVec 32}
    (h : binary32.N x) : binary32.N ((b.lane P).acos x) := by
  by_cases hm : ownMath b = true
  · rw [(b.templates hm P).acos]; exact vecAcos_nan ((sse_ops b hm ha P).1.toIeee) (sse_ops b hm ha P).2 h
  · rw [(b.library (by simpa using hm) P).acos]; exact hM.acos x h

theorem lane_tanh_nan (b : Build32) (ha : b.isAvx = false) (P : Platform 32) (hM : P.M.KeepsNaN binary32) {x : BitVec 32}
    (h : binary32.N x) : binary32.N ((b.lane P).tanh x) := by
  by_cases hm : ownMath b = true
  · rw [(b.templates hm P).tanh]; exact vecTanh_nan ((sse_ops b hm ha P).1) (sse_ops b hm ha P).2 h
  · rw [(b.library (by simpa using hm) P).tanh]; exact hM.tanh x h

theorem lane_exp_nan (b : Build32) (ha : b.isAvx = false) (P : Platform 32) (hM : P.M.KeepsNaN binary32) {x : BitVec 32}
    (h : binary32.N x) : binary32.N ((b.lane P).exp x) := by
  by_cases hm : ownMath b = true
  · rw [(b.templates hm P).exp]; exact vecExp_nan ((sse_ops b hm ha P).1) (sse_ops b hm ha P).2 h
  · rw [(b.library (by simpa using hm) P).exp]; exact hM.exp x h

theorem lane_log_nan (b : Build32) (hm : ownMath b = false) (P : Platform 32) (hM : P.M.KeepsNaN binary32) {x : BitVec 32}
    (h : binary32.N x) : binary32.N ((b.lane P).log x) := by
  rw [(b.library hm P).log]; exact hM.log x h

theorem lane_log2_nan (b : Build32) (hm : ownMath b = false) (P : Platform 32) (hM : P.M.KeepsNaN binary32) {x : BitVec 32}
    (h : binary32.N x) : binary32.N ((b.lane P).log2 x) := by
  rw [(b.library hm P).log2]; exact hM.log2 x h

theorem lane_log10_nan (b : Build32) (hm : ownMath b = false) (P : Platform 32) (hM : P.M.KeepsNaN binary32) {x : BitVec 32}
    (h : binary32.N x) : binary32.N ((b.lane P).log10 x) := by
  rw [(b.library hm P).log10]; exact hM.log10 x h

theorem lane_pow_nan (b : Build32) (ha : b.isAvx = false) (P : Platform 32) (hM : P.M.KeepsNaN binary32) {x y : BitVec 32}
    (h1 : x ≠ binary32.ofInt 1) (h0 : binary32.eqb x 0#32 = false) (h : binary32.N y) : binary32.N ((b.lane P).pow x y) := by
  by_cases hm : ownMath b = true
  · rw [(b.templates hm P).pow]; exact vecPow_nan (sse_ops b hm ha P).1 (sse_ops b hm ha P).2 h0 h
  · rw [(b.library (by simpa using hm) P).pow]; exact hM.pow x y h1 h

theorem lane_lit32 (b : Build32) (P : Platform 32) : (b.lane P).lit = litD32 := by cases b <;> rfl

end

theorem two_base : litD32 2 ≠ binary32.ofInt 1 ∧ binary32.eqb (litD32 2) 0#32 = false := by
  decide +kernel
theorem ten_base : litD32 10 ≠ binary32.ofInt 1 ∧ binary32.eqb (litD32 10) 0#32 = false := by
  decide +kernel
theorem two_base64 (P : Platform 64) : (Build64.scalar P).lit 2 ≠ binary64.ofInt 1 := by
  change binary64.ofRat 2 ≠ _; decide +kernel
theorem ten_base64 (P : Platform 64) : (Build64.scalar P).lit 10 ≠ binary64.ofInt 1 := by
  change binary64.ofRat 10 ≠ _; decide +kernel

section
attribute [local irreducible] litD litF litD32 Fmt.add Fmt.mul Fmt.div Fmt.sub Fmt.fma Fmt.ltb Fmt.leb Fmt.eqb
  Fmt.roundInt Fmt.toInt32 Fmt.ofInt32 Fmt.sqrt

/-! ## Functions of one argument -/

/-- SIMD versions of the functions of one `float`. -/
theorem C85_unary_float_partial (b : Build32) (P : Platform 32) (hM : P.M.KeepsNaN binary32) (op : UnOp)
    (hop : UnKeepsNaN b op = true) {x : BitVec 32} (hx : binary32.isNaN x = true) :
    ∃ y, op.f (b.lane P) x = .ok y ∧ binary32.isNaN y = true := by
  have K := keeps_float b P
  have hna : ∀ op', (op' = UnOp.asin ∨ op' = .acos ∨ op' = .tanh ∨ op' = .exp ∨ op' = .midi2freq ∨ op' = .midi2ratio ∨
      op' = .oct2freq ∨ op' = .db2amp) → UnKeepsNaN b op' = true → b.isAvx = false := by
    intro op' h1 h2
    cases b with
    | avx f => rcases h1 with h | h | h | h | h | h | h | h <;> subst h <;> exact (Bool.false_ne_true h2).elim
    | _ => rfl
  have hnm : ∀ op', (op' = UnOp.log ∨ op' = .log2 ∨ op' = .log10 ∨ op' = .freq2midi ∨ op' = .ratio2midi ∨
      op' = .freq2oct ∨ op' = .amp2db) → UnKeepsNaN b op' = true → ownMath b = false := by
    intro op' h1 h2
    rcases h1 with h | h | h | h | h | h | h <;> subst h <;> simpa [UnKeepsNaN] using h2
  have hlit := lane_lit32 b P
  cases op with
  | sgn => exact (Bool.false_ne_true hop).elim
  | abs => exact ⟨_, rfl, K.abs x hx⟩
  | square => exact ⟨_, rfl, K.square x hx⟩
  | cube => exact ⟨_, rfl, K.cube x hx⟩
  | round => exact ⟨_, rfl, K.round x hx⟩
  | frac => exact ⟨_, rfl, K.frac x hx⟩
  | ceil => exact ⟨_, rfl, K.ceil x hx⟩
  | floor => exact ⟨_, rfl, K.floor x hx⟩
  | trunc =>
    cases b with
    | sse s f =>
      have hf : f.sse41 = true := hop
      refine ⟨binary32.roundInt .zero x, ?_, Fmt.N.round hx⟩
      change (if f.sse41 = true then _ else _) = _
      rw [if_pos hf]; rfl
    | avx f => exact ⟨binary32.roundInt .zero x, rfl, Fmt.N.round hx⟩
    | _ => exact (Bool.false_ne_true hop).elim
  | undenormalize => exact ⟨_, rfl, K.undenormalize x hx⟩
  | reciprocal => exact ⟨_, rfl, K.reciprocal x hx⟩
  | sin => exact ⟨_, rfl, lane_sin_nan b P hM hx⟩
  | cos => exact ⟨_, rfl, lane_cos_nan b P hM hx⟩
  | tan => exact ⟨_, rfl, lane_tan_nan b P hM hx⟩
  | atan => exact ⟨_, rfl, lane_atan_nan b P hM hx⟩
  | asin => exact ⟨_, rfl, lane_asin_nan b (hna .asin (by simp) hop) P hM hx⟩
  | acos => exact ⟨_, rfl, lane_acos_nan b (hna .acos (by simp) hop) P hM hx⟩
  | tanh => exact ⟨_, rfl, lane_tanh_nan b (hna .tanh (by simp) hop) P hM hx⟩
  | exp => exact ⟨_, rfl, lane_exp_nan b (hna .exp (by simp) hop) P hM hx⟩
  | log => exact ⟨_, rfl, lane_log_nan b (hnm .log (by simp) hop) P hM hx⟩
  | log2 => exact ⟨_, rfl, lane_log2_nan b (hnm .log2 (by simp) hop) P hM hx⟩
  | log10 => exact ⟨_, rfl, lane_log10_nan b (hnm .log10 (by simp) hop) P hM hx⟩
  | signedSqrt => exact ⟨_, rfl, K.signedSqrt x hx⟩
  | midi2freq =>
    refine ⟨_, rfl, K.mul _ _ (.inr ?_)⟩
    rw [hlit]
    exact lane_pow_nan b (hna .midi2freq (by simp) hop) P hM two_base.1 two_base.2 (K.mul _ _ (.inl (K.sub _ _ (.inl hx))))
  | freq2midi =>
    exact ⟨_, rfl, K.add _ _ (.inl (K.mul _ _ (.inl (lane_log2_nan b (hnm .freq2midi (by simp) hop) P hM
      (K.abs _ (K.mul _ _ (.inl hx)))))))⟩
  | midi2ratio =>
    refine ⟨_, rfl, ?_⟩
    unfold Functor.midi2ratio
    rw [hlit]
    exact lane_pow_nan b (hna .midi2ratio (by simp) hop) P hM two_base.1 two_base.2 (K.mul _ _ (.inl hx))
  | ratio2midi => exact ⟨_, rfl, K.mul _ _ (.inr (lane_log2_nan b (hnm .ratio2midi (by simp) hop) P hM hx))⟩
  | oct2freq =>
    refine ⟨_, rfl, K.mul _ _ (.inr ?_)⟩
    rw [hlit]
    exact lane_pow_nan b (hna .oct2freq (by simp) hop) P hM two_base.1 two_base.2 (K.sub _ _ (.inl hx))
  | freq2oct =>
    exact ⟨_, rfl, K.add _ _ (.inl (lane_log2_nan b (hnm .freq2oct (by simp) hop) P hM
      (K.abs _ (K.mul _ _ (.inl hx)))))⟩
  | amp2db => exact ⟨_, rfl, K.mul _ _ (.inl (lane_log10_nan b (hnm .amp2db (by simp) hop) P hM (K.abs _ hx)))⟩
  | db2amp =>
    refine ⟨_, rfl, ?_⟩
    unfold Functor.db2amp
    rw [hlit]
    exact lane_pow_nan b (hna .db2amp (by simp) hop) P hM ten_base.1 ten_base.2 (K.mul _ _ (.inl hx))
  | softclip => exact ⟨_, rfl, K.softclip x hx⟩

/-- The functions of a number type that keep NaNs, given what its arithmetic and its C library keep. -/
theorem unary_keeps {w : Nat} {F : Fmt w} {A : Arith (BitVec w)} (K : Keeps F A) {M : Libm w} (hM : M.KeepsNaN F)
    (hs : A.sin = M.sin) (hc : A.cos = M.cos) (ht : A.tan = M.tan) (has : A.asin = M.asin) (hac : A.acos = M.acos)
    (hat : A.atan = M.atan) (hth : A.tanh = M.tanh) (hl : A.log = M.log) (hl2 : A.log2 = M.log2)
    (hl10 : A.log10 = M.log10) (he : A.exp = M.exp) (hp : A.pow = M.pow) (h2 : A.lit 2 ≠ F.ofInt 1)
    (h10 : A.lit 10 ≠ F.ofInt 1) (op : UnOp) (hop : ScalarKeepsNaN op = true) {x : BitVec w} (hx : F.isNaN x = true) :
    ∃ y, op.f A x = .ok y ∧ F.isNaN y = true := by
  cases op with
  | sgn => exact absurd hop (by decide)
  | trunc => exact absurd hop (by decide)
  | abs => exact ⟨_, rfl, K.abs x hx⟩
  | square => exact ⟨_, rfl, K.square x hx⟩
  | cube => exact ⟨_, rfl, K.cube x hx⟩
  | round => exact ⟨_, rfl, K.round x hx⟩
  | frac => exact ⟨_, rfl, K.frac x hx⟩
  | ceil => exact ⟨_, rfl, K.ceil x hx⟩
  | floor => exact ⟨_, rfl, K.floor x hx⟩
  | undenormalize => exact ⟨_, rfl, K.undenormalize x hx⟩
  | reciprocal => exact ⟨_, rfl, K.reciprocal x hx⟩
  | sin => exact ⟨_, rfl, by rw [hs]; exact hM.sin x hx⟩
  | cos => exact ⟨_, rfl, by rw [hc]; exact hM.cos x hx⟩
  | tan => exact ⟨_, rfl, by rw [ht]; exact hM.tan x hx⟩
  | atan => exact ⟨_, rfl, by rw [hat]; exact hM.atan x hx⟩
  | asin => exact ⟨_, rfl, by rw [has]; exact hM.asin x hx⟩
  | acos => exact ⟨_, rfl, by rw [hac]; exact hM.acos x hx⟩
  | tanh => exact ⟨_, rfl, by rw [hth]; exact hM.tanh x hx⟩
  | exp => exact ⟨_, rfl, by rw [he]; exact hM.exp x hx⟩
  | log => exact ⟨_, rfl, by rw [hl]; exact hM.log x hx⟩
  | log2 => exact ⟨_, rfl, by rw [hl2]; exact hM.log2 x hx⟩
  | log10 => exact ⟨_, rfl, by rw [hl10]; exact hM.log10 x hx⟩
  | signedSqrt => exact ⟨_, rfl, K.signedSqrt x hx⟩
  | midi2freq =>
    exact ⟨_, rfl, K.mul _ _ (.inr (by rw [hp]; exact hM.pow _ _ h2 (K.mul _ _ (.inl (K.sub _ _ (.inl hx))))))⟩
  | freq2midi =>
    refine ⟨_, rfl, K.add _ _ (.inl (K.mul _ _ (.inl ?_)))⟩
    unfold Functor.absLog2
    rw [hl2]; exact hM.log2 _ (K.abs _ (K.mul _ _ (.inl hx)))
  | midi2ratio =>
    refine ⟨_, rfl, ?_⟩
    unfold Functor.midi2ratio
    rw [hp]; exact hM.pow _ _ h2 (K.mul _ _ (.inl hx))
  | ratio2midi => exact ⟨_, rfl, K.mul _ _ (.inr (by rw [hl2]; exact hM.log2 x hx))⟩
  | oct2freq => exact ⟨_, rfl, K.mul _ _ (.inr (by rw [hp]; exact hM.pow _ _ h2 (K.sub _ _ (.inl hx))))⟩
  | freq2oct =>
    refine ⟨_, rfl, K.add _ _ (.inl ?_)⟩
    unfold Functor.absLog2
    rw [hl2]; exact hM.log2 _ (K.abs _ (K.mul _ _ (.inl hx)))
  | amp2db => exact ⟨_, rfl, K.mul _ _ (.inl (by rw [hl10]; exact hM.log10 _ (K.abs _ hx)))⟩
  | db2amp =>
    refine ⟨_, rfl, ?_⟩
    unfold Functor.db2amp
    rw [hp]; exact hM.pow _ _ h10 (K.mul _ _ (.inl hx))
  | softclip => exact ⟨_, rfl, K.softclip x hx⟩

/-- Scalar versions, `float`. -/
theorem C85_unary_scalar_float_partial (P : Platform 32) (hM : P.M.KeepsNaN binary32) (op : UnOp)
    (hop : ScalarKeepsNaN op = true) {x : BitVec 32} (hx : binary32.isNaN x = true) :
    ∃ y, op.f (Build32.scalar P) x = .ok y ∧ binary32.isNaN y = true :=
  unary_keeps (keeps_scalar _ _ _) hM rfl rfl rfl rfl rfl rfl rfl rfl rfl rfl rfl rfl two_base.1 ten_base.1 op hop hx

/-- Scalar versions, `double`. -/
theorem C85_unary_scalar_double_partial (P : Platform 64) (hM : P.M.KeepsNaN binary64) (op : UnOp)
    (hop : ScalarKeepsNaN op = true) {x : BitVec 64} (hx : binary64.isNaN x = true) :
    ∃ y, op.f (Build64.scalar P) x = .ok y ∧ binary64.isNaN y = true :=
  unary_keeps (keeps_scalar _ _ _) hM rfl rfl rfl rfl rfl rfl rfl rfl rfl rfl rfl rfl (two_base64 P) (ten_base64 P) op hop hx

/-- SIMD versions, `double`. -/
theorem C85_unary_double_partial (b : Build64) (P : Platform 64) (hM : P.M.KeepsNaN binary64) (op : UnOp)
    (hop : ScalarKeepsNaN op = true ∨ op = .trunc ∧ truncates b = true) {x : BitVec 64} (hx : binary64.isNaN x = true) :
    ∃ y, op.f (b.lane P) x = .ok y ∧ binary64.isNaN y = true := by
  rcases hop with hop | ⟨rfl, hb⟩
  · have hl : (b.lane P).lit = (Build64.scalar P).lit := by cases b <;> rfl
    refine unary_keeps (keeps_double b P) hM ?_ ?_ ?_ ?_ ?_ ?_ ?_ ?_ ?_ ?_ ?_ ?_ (hl ▸ two_base64 P) (hl ▸ ten_base64 P) op hop hx
    all_goals (cases b <;> rfl)
  · cases b with
    | generic => exact absurd hb (by decide)
    | sse2 s f =>
      have hs : s = true := hb
      subst hs
      exact ⟨binary64.roundInt .zero x, rfl, Fmt.N.round hx⟩
    | avx f => exact ⟨binary64.roundInt .zero x, rfl, Fmt.N.round hx⟩

/-! ## Functions of two, three and four arguments -/

theorem arm_max_min (b : Build32) (hb : armMinMax b = true) (P : Platform 32) {x y : BitVec 32}
    (h : binary32.N x ∨ binary32.N y) : binary32.N ((b.lane P).max_ x y) ∧ binary32.N ((b.lane P).min_ x y) := by
  cases b with
  | neon => exact ⟨.maxArm h, .minArm h⟩
  | altivec => exact ⟨.maxArm h, .minArm h⟩
  | _ => exact (Bool.false_ne_true hb).elim

/-- SIMD versions of the functions of two `float`s. -/
theorem C85_binary_float_partial (b : Build32) (P : Platform 32) (op : BinOp) (hop : BinKeepsNaN b op = true) {x y : BitVec 32}
    (h : binary32.isNaN x = true ∨ binary32.isNaN y = true) : binary32.isNaN (op.f (b.lane P) x y) = true := by
  have K := keeps_float b P
  cases op with
  | plus => exact K.add x y h
  | minus => exact K.sub x y h
  | times => exact K.mul x y h
  | over => exact K.div x y h
  | sum => exact K.add x y h
  | min => exact (arm_max_min b hop P h).2
  | max => exact (arm_max_min b hop P h).1
  | clip2 => exact (arm_max_min b hop P (.inr (arm_max_min b hop P h).2)).1
  | _ => exact (Bool.false_ne_true hop).elim

theorem binary_keeps {w : Nat} {F : Fmt w} {A : Arith (BitVec w)} (K : Keeps F A) (op : BinOp)
    (hop : ScalarBinKeepsNaN op = true) {x y : BitVec w} (h : F.isNaN x = true ∨ F.isNaN y = true) :
    F.isNaN (op.f A x y) = true := by
  cases op with
  | plus => exact K.add x y h
  | minus => exact K.sub x y h
  | times => exact K.mul x y h
  | over => exact K.div x y h
  | sum => exact K.add x y h
  | _ => exact (Bool.false_ne_true hop).elim

/-- Scalar versions, `float`. -/
theorem C85_binary_scalar_float_partial (P : Platform 32) (op : BinOp) (hop : ScalarBinKeepsNaN op = true) {x y : BitVec 32}
    (h : binary32.isNaN x = true ∨ binary32.isNaN y = true) : binary32.isNaN (op.f (Build32.scalar P) x y) = true :=
  binary_keeps (keeps_scalar _ _ _) op hop h

/-- Scalar and SIMD versions, `double`. -/
theorem C85_binary_double_partial (b : Build64) (P : Platform 64) (op : BinOp) (hop : ScalarBinKeepsNaN op = true) {x y : BitVec 64}
    (h : binary64.isNaN x = true ∨ binary64.isNaN y = true) :
    binary64.isNaN (op.f (b.lane P) x y) = true ∧ binary64.isNaN (op.f (Build64.scalar P) x y) = true :=
  ⟨binary_keeps (keeps_double b P) op hop h, binary_keeps (keeps_scalar _ _ _) op hop h⟩

theorem ternary_keeps {w : Nat} {F : Fmt w} {A : Arith (BitVec w)} (K : Keeps F A) (op : TerOp) (hop : op ≠ .clip)
    {x y z : BitVec w} (h : F.isNaN x = true ∨ F.isNaN y = true ∨ F.isNaN z = true) : F.isNaN (op.f A x y z) = true := by
  cases op with
  | clip => exact absurd rfl hop
  | muladd => exact K.madd x y z h
  | ampmod => exact K.mul _ _ (h.imp id fun h => K.add _ _ (.inr (K.mul _ _ h)))
  | sum => exact K.add _ _ (h.elim (fun h => .inl (K.add _ _ (.inl h))) fun h => h.imp (fun h => K.add _ _ (.inr h)) id)

/-- SIMD versions of the functions of three `float`s. -/
theorem C85_ternary_float_partial (b : Build32) (P : Platform 32) (op : TerOp) (hop : TerKeepsNaN b op = true) {x y z : BitVec 32}
    (h : binary32.isNaN x = true ∨ binary32.isNaN y = true ∨ binary32.isNaN z = true) :
    binary32.isNaN (op.f (b.lane P) x y z) = true := by
  by_cases hc : op = .clip
  · subst hc
    exact (arm_max_min b hop P (h.elim (fun h => .inl (arm_max_min b hop P (.inl h)).2) fun h =>
      h.elim (fun h => .inr h) fun h => .inl (arm_max_min b hop P (.inr h)).2)).1
  · exact ternary_keeps (keeps_float b P) op hc h

/-- Scalar versions, `float`. -/
theorem C85_ternary_scalar_float_partial (P : Platform 32) (op : TerOp) (hop : op ≠ .clip) {x y z : BitVec 32}
    (h : binary32.isNaN x = true ∨ binary32.isNaN y = true ∨ binary32.isNaN z = true) :
    binary32.isNaN (op.f (Build32.scalar P) x y z) = true := ternary_keeps (keeps_scalar _ _ _) op hop h

/-- Scalar and SIMD versions, `double`. -/
theorem C85_ternary_double_partial (b : Build64) (P : Platform 64) (op : TerOp) (hop : op ≠ .clip) {x y z : BitVec 64}
    (h : binary64.isNaN x = true ∨ binary64.isNaN y = true ∨ binary64.isNaN z = true) :
    binary64.isNaN (op.f (b.lane P) x y z) = true ∧ binary64.isNaN (op.f (Build64.scalar P) x y z) = true :=
  ⟨ternary_keeps (keeps_double b P) op hop h, ternary_keeps (keeps_scalar _ _ _) op hop h⟩

theorem quad_keeps {w : Nat} {F : Fmt w} {A : Arith (BitVec w)} (K : Keeps F A) (op : QuadOp) {x y z u : BitVec w}
    (h : F.isNaN x = true ∨ F.isNaN y = true ∨ F.isNaN z = true ∨ F.isNaN u = true) : F.isNaN (op.f A x y z u) = true := by
  rcases h with h | h | h | h <;> cases op
  · exact K.add _ _ (.inl (K.mul _ _ (.inl h)))
  · exact K.add _ _ (.inl (K.add _ _ (.inl h)))
  · exact K.add _ _ (.inl (K.mul _ _ (.inr h)))
  · exact K.add _ _ (.inl (K.add _ _ (.inr h)))
  · exact K.add _ _ (.inr (K.mul _ _ (.inl h)))
  · exact K.add _ _ (.inr (K.add _ _ (.inl h)))
  · exact K.add _ _ (.inr (K.mul _ _ (.inr h)))
  · exact K.add _ _ (.inr (K.add _ _ (.inr h)))

/-- Scalar and SIMD versions of the functions of four `float`s. -/
theorem C85_quad_float (b : Build32) (P : Platform 32) (op : QuadOp) {x y z u : BitVec 32}
    (h : binary32.isNaN x = true ∨ binary32.isNaN y = true ∨ binary32.isNaN z = true ∨ binary32.isNaN u = true) :
    binary32.isNaN (op.f (b.lane P) x y z u) = true ∧ binary32.isNaN (op.f (Build32.scalar P) x y z u) = true :=
  ⟨quad_keeps (keeps_float b P) op h, quad_keeps (keeps_scalar _ _ _) op h⟩

/-- Scalar and SIMD versions of the functions of four `double`s. -/
theorem C85_quad_double (b : Build64) (P : Platform 64) (op : QuadOp) {x y z u : BitVec 64}
    (h : binary64.isNaN x = true ∨ binary64.isNaN y = true ∨ binary64.isNaN z = true ∨ binary64.isNaN u = true) :
    binary64.isNaN (op.f (b.lane P) x y z u) = true ∧ binary64.isNaN (op.f (Build64.scalar P) x y z u) = true :=
  ⟨quad_keeps (keeps_double b P) op h, quad_keeps (keeps_scalar _ _ _) op h⟩

/-! ## Whole calls -/

/-- `f_vec_simd(out, in, n)`: wherever the input holds a NaN, the output does. -/
theorem C85_unary_call_partial (b : Build32) (P : Platform 32) (hM : P.M.KeepsNaN binary32) (op : UnOp)
    (hop : UnKeepsNaN b op = true) {m : Mem (BitVec 32)} {out inp : Nat} {n : BitVec 32} {x : Nat → BitVec 32}
    (hn : 0 < n.toNat) (hmul : b.target.perLine ∣ n.toNat) (hoal : b.target.align ∣ out) (hial : b.target.align ∣ inp)
    (hout : Allocated m out n.toNat) (hin : Holds m inp n.toNat x) (hs : SafePlacement out inp n.toNat)
    (hf : ∀ i < n.toNat, ∃ y, op.f (b.lane P) (x i) = .ok y) :
    ∃ y, op.vecSimd (b.vec P) out inp n m = .ok ((), overwrite m out n.toNat y) ∧
      ∀ i < n.toNat, binary32.isNaN (x i) = true → binary32.isNaN (y i) = true := by
  classical
  have hf' : ∀ i, ∃ y, i < n.toNat → op.f (b.lane P) (x i) = .ok y := fun i => by
    by_cases hi : i < n.toNat
    · obtain ⟨y, hy⟩ := hf i hi; exact ⟨y, fun _ => hy⟩
    · exact ⟨0, fun h => absurd h hi⟩
  choose y hy using hf'
  refine ⟨y, C01_unary_simd b.target (b.env P) op hn hmul hoal hial hout hin hs hy, fun i hi hx => ?_⟩
  obtain ⟨z, e1, e2⟩ := C85_unary_float_partial b P hM op hop hx
  rw [hy i hi] at e1
  cases e1
  exact e2

/-- `f_vec_simd(out, a, b, n)`: wherever an argument is a NaN, the output is. -/
theorem C85_binary_call_partial (b : Build32) (P : Platform 32) (op : BinOp) (hop : BinKeepsNaN b op = true)
    {m : Mem (BitVec 32)} {out : Nat} {a c : SArg (BitVec 32)} {n : BitVec 32} {x y : Nat → BitVec 32}
    (hn : 0 < n.toNat) (hmul : b.target.perLine ∣ n.toNat) (hoal : b.target.align ∣ out)
    (hout : Allocated m out n.toNat) (ha : SimdSupplies (b.vec P) b.target.align m out n.toNat a x)
    (hc : SimdSupplies (b.vec P) b.target.align m out n.toNat c y) :
    ∃ z, op.vecSimd (b.vec P) out a c n m = .ok ((), overwrite m out n.toNat z) ∧
      ∀ i < n.toNat, binary32.isNaN (x i) = true ∨ binary32.isNaN (y i) = true → binary32.isNaN (z i) = true :=
  ⟨_, C02_binary_simd b.target (b.env P) op hn hmul hoal hout ha hc, fun _ _ h => C85_binary_float_partial b P op hop h⟩

/-- The same of functions of three arguments. -/
theorem C85_ternary_call_partial (b : Build32) (P : Platform 32) (op : TerOp) (hop : TerKeepsNaN b op = true)
    {m : Mem (BitVec 32)} {out : Nat} {a c d : SArg (BitVec 32)} {n : BitVec 32} {x y z : Nat → BitVec 32}
    (hn : 0 < n.toNat) (hmul : b.target.perLine ∣ n.toNat) (hoal : b.target.align ∣ out)
    (hout : Allocated m out n.toNat) (ha : SimdSupplies (b.vec P) b.target.align m out n.toNat a x)
    (hc : SimdSupplies (b.vec P) b.target.align m out n.toNat c y)
    (hd : SimdSupplies (b.vec P) b.target.align m out n.toNat d z) :
    ∃ u, op.vecSimd (b.vec P) out a c d n m = .ok ((), overwrite m out n.toNat u) ∧
      ∀ i < n.toNat, binary32.isNaN (x i) = true ∨ binary32.isNaN (y i) = true ∨ binary32.isNaN (z i) = true →
        binary32.isNaN (u i) = true :=
  ⟨_, C03_ternary_simd b.target (b.env P) op hn hmul hoal hout ha hc hd, fun _ _ h => C85_ternary_float_partial b P op hop h⟩

/-! ## Functions that do not keep NaNs -/

/-- With AVX, `>` is true for a NaN, so that these functions take their "too large" branch for every NaN. -/
theorem C85_negation_avx (fma : Bool) (P : Platform 32) {x : BitVec 32} (hx : binary32.isNaN x = true) :
    ((Build32.avx fma).lane P).exp x = 0x7f7fffff#32 ∧
    ((Build32.avx fma).lane P).asin x = 0#32 ∧
    ((Build32.avx fma).lane P).acos x = 0#32 ∧
    ((Build32.avx fma).lane P).tanh x = (if x.msb then 0xbf800000#32 else 0x3f800000#32) ∧
    ∀ y, binary32.eqb y 0#32 = false → ((Build32.avx fma).lane P).pow y x = 0x7f7fffff#32 := by
  have h := avx_ieee fma P
  have hg := avx_gtTrue fma P
  refine ⟨vecExp_nan_avx h hg hx, vecAsin_nan_avx h hg hx, vecAcos_nan_avx h hg hx,
    (vecTanh_nan_avx h hg hx).trans ?_, fun y hy => vecPow_nan_avx h hg hy hx⟩
  have e : x &&& 0x80000000#32 = if x.msb then 0x80000000#32 else 0#32 := by
    rw [BitVec.msb_eq_getLsbD_last]
    exact BitVec.and_twoPow x 31
  rw [e]
  split <;> decide

/-- The own logarithm turns every NaN into a finite number. -/
theorem C85_negation_log (b : Build32) (hb : ownMath b = true) (P : Platform 32) {x : BitVec 32}
    (_hx : binary32.isNaN x = true) : binary32.isFinite ((b.lane P).log x) = true :=
  C65_finite b hb P x

/-- A NaN exponent gives a NaN, unless the base is 0 or 1, on all builds but AVX. -/
theorem C85_pow (b : Build32) (ha : ∀ f, b ≠ .avx f) (P : Platform 32) (hM : P.M.KeepsNaN binary32) {x y : BitVec 32}
    (h1 : x ≠ binary32.ofInt 1) (h0 : binary32.eqb x 0#32 = false) (h : binary32.isNaN y = true) :
    binary32.isNaN (BinOp.pow.f (b.lane P) x y) = true :=
  lane_pow_nan b (by cases b <;> first | rfl | exact absurd rfl (ha _)) P hM h1 h0 h

/-- The sign function never returns a NaN: ±1 in the SIMD versions, -1 in the scalar one. -/
theorem C85_sgn (b : Build32) (hb : b ≠ .generic) (P : Platform 32) {x : BitVec 32} (hx : binary32.isNaN x = true) :
    (b.lane P).sign x = (if x.msb then 0xbf800000#32 else 0x3f800000#32) ∧
    (Build32.scalar P).sign x = 0xbf800000#32 := by
  constructor
  · rw [sign_lane32 b hb P x, binary32.eqb_nan (Or.inl hx), show binary32.neg x = x.msb from rfl]
    cases x.msb <;> decide
  · change Scalar.sign binary32 x = _
    unfold Scalar.sign
    rw [binary32.ltb_nan (Or.inr hx), binary32.eqb_nan (Or.inl hx), negOne32]; rfl

/-- Without a truncating instruction `trunc` of a NaN is undefined, with Altivec it is 0. -/
theorem C85_trunc (P : Platform 32) {x : BitVec 32} (hx : binary32.isNaN x = true) :
    UnOp.trunc.f (Build32.scalar P) x = .error .badConv ∧
    UnOp.trunc.f ((Build32.altivec).lane P) x = .ok 0#32 := by
  constructor
  · change Scalar.trunc binary32 x = _
    unfold Scalar.trunc
    have : binary32.isFinite x = false := by
      unfold Fmt.isNaN at hx
      unfold Fmt.isFinite
      rw [decide_eq_true_eq] at hx
      exact decide_eq_false (by omega)
    rw [this]; rfl
  · change Except.ok (binary32.ofInt ((if binary32.isNaN x || binary32.neg x then 0 else _ : BitVec 32).toNat : ℤ)) = _
    rw [hx, Bool.true_or, if_pos rfl]
    congr 1

end

/-! ## The hypotheses can be met -/

example : binary32.isNaN 0x7fc00000#32 = true ∧ binary32.isNaN 0xff800001#32 = true ∧
    UnKeepsNaN (.avx true) .sin = true ∧ UnKeepsNaN (.sse false ⟨true, false, false⟩) .exp = true ∧
    BinKeepsNaN .neon .max = true ∧ TerKeepsNaN .altivec .clip = true ∧ binary32.eqb 0x40000000#32 0#32 = false := by
  decide +kernel

/-- A C library that keeps NaNs. -/
example : (⟨id, id, id, id, id, id, id, id, id, id, id, fun _ y => y⟩ : Libm 32).KeepsNaN binary32 :=
  ⟨fun _ h => h, fun _ h => h, fun _ h => h, fun _ h => h, fun _ h => h, fun _ h => h, fun _ h => h, fun _ h => h,
    fun _ h => h, fun _ h => h, fun _ h => h, fun _ _ _ h => h⟩

end Nova
