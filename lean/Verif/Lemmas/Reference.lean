import Verif.SpecReference
import Verif.Lemmas.Exactly
import Verif.Lemmas.OrderLanes
import Verif.Lemmas.TrigNumbers
import Verif.Lemmas.PowNumbers
import Verif.Lemmas.PowFinal
import Verif.Lemmas.TanhFinal
import Verif.Lemmas.Witness
import Verif.Lemmas.LogRange

/-!
# Exact values at reference points
-/

namespace Nova
open FP VecMath Spec

/-- What a class promises of its reference points. -/
structure RefMath {w : Nat} (zero : Bool) (F : Fmt w) (A : Arith (BitVec w)) : Prop where
  sin : ∀ x, Exactly F x 0 → Exactly F (A.sin x) 0
  cos : ∀ x, Exactly F x 0 → Exactly F (A.cos x) 1
  tan : ∀ x, Exactly F x 0 → Exactly F (A.tan x) 0
  asin : ∀ x, Exactly F x 0 → Exactly F (A.asin x) 0
  acos : ∀ x, Exactly F x 1 → Exactly F (A.acos x) 0
  atan : ∀ x, Exactly F x 0 → Exactly F (A.atan x) 0
  tanh : ∀ x, Exactly F x 0 → Exactly F (A.tanh x) 0
  exp : ∀ x, Exactly F x 0 → Exactly F (A.exp x) 1
  log : ∀ x, Exactly F x 1 → Exactly F (A.log x) 0
  log2 : ∀ x, Exactly F x 1 → Exactly F (A.log2 x) 0
  log10 : ∀ x, Exactly F x 1 → Exactly F (A.log10 x) 0
  pow_zero : ∀ x y, Exactly F y 0 → (F.toReal x = 0 → zero = true) → Exactly F (A.pow x y) 1
  one_pow : ∀ x y, Exactly F x 1 → IsFin F y → Exactly F (A.pow x y) 1
  spow : ∀ x y a, IsFin F y → Exactly F x a → Exactly F (A.pow (F.fabs x) y) 1 → a ≠ 0 → Exactly F (A.signedPow x y) (sgn a)

theorem sgn_of_abs_one {a : ℝ} (h : |a| = 1) : a ≠ 0 := fun e => by rw [e, abs_zero] at h; exact zero_ne_one h

section generic
variable {w : Nat} {F : Fmt w}

theorem exactly_units {x : BitVec w} (q : ℤ) (h : F.isFinite x = true) (hu : F.units x = q * 2 ^ F.scale) :
    Exactly F x q := by
  refine ⟨h, ?_⟩
  unfold Fmt.toReal
  rw [hu]; push_cast; field_simp

theorem exactly_units4 {x : BitVec w} (q : ℤ) (h : F.isFinite x = true) (hu : F.units x * 4 = q * 2 ^ F.scale) :
    Exactly F x (q / 4) := by
  refine ⟨h, ?_⟩
  unfold Fmt.toReal
  have : (F.units x : ℝ) * 4 = q * 2 ^ F.scale := by exact_mod_cast hu
  field_simp
  linarith

theorem exactly_fabs {x : BitVec w} {a : ℝ} (h : Exactly F x a) : Exactly F (F.fabs x) |a| :=
  ⟨(F.isFinite_fabs x).trans h.1, by rw [F.toReal_fabs, h.2]⟩

/-- The constants of the conversions. -/
structure RefLits (F : Fmt w) (lit : Rat → BitVec w) : Prop where
  two : Exactly F (lit 2) 2
  ten : Exactly F (lit 10) 10
  twelve : Exactly F (lit 12) 12
  twenty : Exactly F (lit 20) 20
  a : Exactly F (lit 440) 440
  base : Exactly F (lit 69) 69
  oct : Exactly F (lit 4.75) 4.75
  twelfth : IsFin F (lit 0.083333333333)
  twentieth : IsFin F (lit 0.05)

variable {A : Arith (BitVec w)}

theorem zero_rep (F : Fmt w) {x : BitVec w} {a : ℝ} (h : Exactly F x a) (h0 : a = 0) : Representable F 0 := h0 ▸ h.representable

theorem unary_reference {z : Bool} (O : OrderOps F A) (habs : ∀ x, A.abs x = F.fabs x) (R : RefMath z F A) (L : RefLits F A.lit)
    (hz : Representable F 0) (op : UnOp) {x : BitVec w} {a v : ℝ} (hx : Exactly F x a) (h : UnReference op a v) :
    ∃ y, op.f A x = .ok y ∧ Exactly F y v := by
  have two0 : F.toReal (A.lit 2) = 0 → z = true := fun e => by rw [L.two.2] at e; norm_num at e
  have ten0 : F.toReal (A.lit 10) = 0 → z = true := fun e => by rw [L.ten.2] at e; norm_num at e
  have zl : ∀ {x c : BitVec w}, Exactly F x 0 → IsFin F c → Exactly F (A.mul x c) 0 := fun hx hc => by
    have := O.mul_exactly hx ⟨hc, rfl⟩ (by rw [zero_mul]; exact hz)
    rwa [zero_mul] at this
  have zr : ∀ {x c : BitVec w}, Exactly F x 0 → IsFin F c → Exactly F (A.mul c x) 0 := fun hx hc => by
    have := O.mul_exactly ⟨hc, rfl⟩ hx (by rw [mul_zero]; exact hz)
    rwa [mul_zero] at this
  have one : ∀ {x c : BitVec w} {r : ℝ}, Exactly F x 1 → Exactly F c r → Exactly F (A.mul c x) r := fun hx hc => by
    have := O.mul_exactly hc hx (by rw [mul_one]; exact hc.representable)
    rwa [mul_one] at this
  have sz : ∀ {x c : BitVec w} {r : ℝ}, Exactly F x r → Exactly F c r → Exactly F (A.sub x c) 0 := fun hx hc => by
    rw [O.sub]
    have := hx.sub hc (by rw [sub_self]; exact hz)
    rwa [sub_self] at this
  cases op with
  | sin => obtain ⟨rfl, rfl⟩ := h; exact ⟨_, rfl, R.sin x hx⟩
  | cos => obtain ⟨rfl, rfl⟩ := h; exact ⟨_, rfl, R.cos x hx⟩
  | tan => obtain ⟨rfl, rfl⟩ := h; exact ⟨_, rfl, R.tan x hx⟩
  | asin => obtain ⟨rfl, rfl⟩ := h; exact ⟨_, rfl, R.asin x hx⟩
  | acos => obtain ⟨rfl, rfl⟩ := h; exact ⟨_, rfl, R.acos x hx⟩
  | atan => obtain ⟨rfl, rfl⟩ := h; exact ⟨_, rfl, R.atan x hx⟩
  | tanh => obtain ⟨rfl, rfl⟩ := h; exact ⟨_, rfl, R.tanh x hx⟩
  | exp => obtain ⟨rfl, rfl⟩ := h; exact ⟨_, rfl, R.exp x hx⟩
  | log => obtain ⟨rfl, rfl⟩ := h; exact ⟨_, rfl, R.log x hx⟩
  | log2 => obtain ⟨rfl, rfl⟩ := h; exact ⟨_, rfl, R.log2 x hx⟩
  | log10 => obtain ⟨rfl, rfl⟩ := h; exact ⟨_, rfl, R.log10 x hx⟩
  | ratio2midi => obtain ⟨rfl, rfl⟩ := h; exact ⟨_, rfl, zr (R.log2 x hx) L.twelve.1⟩
  | amp2db =>
    obtain ⟨ha, rfl⟩ := h
    refine ⟨_, rfl, zl (R.log10 _ ?_) L.twenty.1⟩
    rw [habs, ← ha]; exact exactly_fabs hx
  | midi2ratio => obtain ⟨rfl, rfl⟩ := h; exact ⟨_, rfl, R.pow_zero _ _ (zl hx L.twelfth) two0⟩
  | db2amp => obtain ⟨rfl, rfl⟩ := h; exact ⟨_, rfl, R.pow_zero _ _ (zl hx L.twentieth) ten0⟩
  | midi2freq =>
    obtain ⟨rfl, rfl⟩ := h
    exact ⟨_, rfl, one (R.pow_zero _ _ (zl (sz hx L.base) L.twelfth) two0) L.a⟩
  | oct2freq => obtain ⟨rfl, rfl⟩ := h; exact ⟨_, rfl, one (R.pow_zero _ _ (sz hx L.oct) two0) L.a⟩
  | _ => exact h.elim

theorem binary_reference {z : Bool} (R : RefMath z F A) (op : BinOp) {x y : BitVec w} {a b v : ℝ} (hx : Exactly F x a)
    (hy : Exactly F y b) (h : BinReference z op a b v) : Exactly F (op.f A x y) v := by
  cases op with
  | pow =>
    obtain ⟨h, rfl⟩ := h
    rcases h with ⟨rfl, h⟩ | rfl
    · exact R.pow_zero x y hy fun e => h (hx.2.symm.trans e)
    · exact R.one_pow x y hx hy.1
  | spow =>
    obtain ⟨h, rfl⟩ := h
    rcases h with ⟨rfl, h⟩ | h
    · exact R.spow x y a hy.1 hx (R.pow_zero _ y hy fun e => absurd ((exactly_fabs hx).2.symm.trans e) (abs_ne_zero.mpr h)) h
    · exact R.spow x y a hy.1 hx (R.one_pow _ y (h ▸ exactly_fabs hx) hy.1) (sgn_of_abs_one h)
  | _ => exact h.elim

/-! ## The C library -/

theorem signedPow_reference {pow : BitVec w → BitVec w → BitVec w} (x y : BitVec w) (a : ℝ) (hx : Exactly F x a)
    (h : Exactly F (pow (F.fabs x) y) 1) (h0 : a ≠ 0) : Exactly F (Scalar.signedPow F pow x y) (sgn a) := by
  have e := F.ltb_iff_value (x := F.posZero) (y := x)
  rw [F.toEReal_posZero, F.toEReal_of_finite hx.1, hx.2] at e
  unfold Scalar.signedPow sgn
  by_cases hp : 0 < a
  · rw [if_pos (e.mpr ⟨F.isNaN_posZero, num_of_fin hx.1, by exact_mod_cast hp⟩), if_pos hp,
      show x = F.fabs x from F.eq_of_toReal (by rw [F.toReal_fabs, hx.2, abs_of_pos hp])
        (by rw [F.toReal_fabs, hx.2]; exact abs_ne_zero.mpr h0)]
    exact h
  · rw [if_neg (fun hc => hp (by exact_mod_cast (e.mp hc).2.2)), if_neg hp, if_neg h0,
      show F.negate x = F.fabs x from F.eq_of_toReal (by rw [F.toReal_fabs, F.toReal_negate, hx.2, abs_of_nonpos (not_lt.mp hp)])
        (by rw [F.toReal_fabs, hx.2]; exact abs_ne_zero.mpr h0)]
    exact h.negate

theorem library_reference {M : Libm w} (hM : M.Reference F) 
    (hs : A.sin = M.sin) (hc : A.cos = M.cos) (ht : A.tan = M.tan) (has : A.asin = M.asin) (hac : A.acos = M.acos)
    (hat : A.atan = M.atan) (hth : A.tanh = M.tanh) (hl : A.log = M.log) (hl2 : A.log2 = M.log2)
    (hl10 : A.log10 = M.log10) (he : A.exp = M.exp) (hp : A.pow = M.pow)
    (hsp : ∀ x y, A.signedPow x y = Scalar.signedPow F M.pow x y) : RefMath true F A where
  sin := by rw [hs]; exact hM.sin
  cos := by rw [hc]; exact hM.cos
  tan := by rw [ht]; exact hM.tan
  asin := by rw [has]; exact hM.asin
  acos := by rw [hac]; exact hM.acos
  atan := by rw [hat]; exact hM.atan
  tanh := by rw [hth]; exact hM.tanh
  exp := by rw [he]; exact hM.exp
  log := by rw [hl]; exact hM.log
  log2 := by rw [hl2]; exact hM.log2
  log10 := by rw [hl10]; exact hM.log10
  pow_zero x y hy _ := by rw [hp]; exact hM.pow_zero x y hy
  one_pow x y hx _ := by rw [hp]; exact hM.one_pow x y hx
  spow x y a _ hx h h0 := by rw [hsp]; rw [hp] at h; exact signedPow_reference x y a hx h h0

end generic

/-! ## Own functions -/

section own
attribute [local irreducible] litD litF litD32 Fmt.add Fmt.mul Fmt.div Fmt.sub Fmt.fma Fmt.ltb Fmt.leb Fmt.eqb
  Fmt.roundInt Fmt.toInt32 Fmt.ofInt32 Fmt.sqrt

theorem avx_tan0 (f : Bool) (P : Platform 32) (x : BitVec 32) :
    vecTan (AvxF.ops f (P.x86 binary32)) x = vecTan (AvxF.ops f (platform0.x86 binary32)) x := rfl
theorem sse_tan0 (f : Sse.Flags) (P : Platform 32) (x : BitVec 32) :
    vecTan (Sse.ops f (P.x86 binary32)) x = vecTan (Sse.ops f (platform0.x86 binary32)) x := rfl
theorem avx_asin0 (f : Bool) (P : Platform 32) (x : BitVec 32) :
    vecAsin (AvxF.ops f (P.x86 binary32)) x = vecAsin (AvxF.ops f (platform0.x86 binary32)) x := rfl
theorem sse_asin0 (f : Sse.Flags) (P : Platform 32) (x : BitVec 32) :
    vecAsin (Sse.ops f (P.x86 binary32)) x = vecAsin (Sse.ops f (platform0.x86 binary32)) x := rfl
theorem avx_acos1 (f : Bool) (P : Platform 32) (x : BitVec 32) :
    vecAcos (AvxF.ops f (P.x86 binary32)) x = vecAcos (AvxF.ops f (platform0.x86 binary32)) x := rfl
theorem sse_acos1 (f : Sse.Flags) (P : Platform 32) (x : BitVec 32) :
    vecAcos (Sse.ops f (P.x86 binary32)) x = vecAcos (Sse.ops f (platform0.x86 binary32)) x := rfl
theorem avx_atan0 (f : Bool) (P : Platform 32) (x : BitVec 32) :
    vecAtan (AvxF.ops f (P.x86 binary32)) x = vecAtan (AvxF.ops f (platform0.x86 binary32)) x := rfl
theorem sse_atan0 (f : Sse.Flags) (P : Platform 32) (x : BitVec 32) :
    vecAtan (Sse.ops f (P.x86 binary32)) x = vecAtan (Sse.ops f (platform0.x86 binary32)) x := rfl

/-- The value of an own function at an argument, in all builds. -/
theorem own_value (b : Build32) (hb : ownMath b = true) (P : Platform 32) (g : LaneOps 32 → BitVec 32 → BitVec 32) (x : BitVec 32)
    (q : ℚ) (ha : ∀ f, g (AvxF.ops f (P.x86 binary32)) x = g (AvxF.ops f (platform0.x86 binary32)) x)
    (hs : ∀ f, g (Sse.ops f (P.x86 binary32)) x = g (Sse.ops f (platform0.x86 binary32)) x)
    (da : ∀ f, isVal (g (AvxF.ops f (platform0.x86 binary32)) x) q = true)
    (ds : ∀ f1 f2 f3, isVal (g (Sse.ops ⟨f1, f2, f3⟩ (platform0.x86 binary32)) x) q = true) :
    Exactly binary32 (g (b.ops P) x) q := by
  cases b with
  | sse s f =>
    change Exactly binary32 (g (Sse.ops f (P.x86 binary32)) x) q
    rw [hs]
    exact val32 q (ds _ _ _)
  | avx f =>
    change Exactly binary32 (g (AvxF.ops f (P.x86 binary32)) x) q
    rw [ha]
    exact val32 q (da f)
  | _ => exact absurd hb (by decide)

theorem own_sin_at0 (b : Build32) (hb : ownMath b = true) (P : Platform 32) : Exactly binary32 (vecSin (b.ops P) 0#32) 0 := by
  have := own_value b hb P vecSin 0#32 0 (fun f => avx_sin0 f P _) (fun f => sse_sin0 f P _)
    (by intro f; cases f <;> decide +kernel) (by intro f1 f2 f3; cases f1 <;> cases f2 <;> cases f3 <;> decide +kernel)
  simpa using this
theorem own_sin_at1 (b : Build32) (hb : ownMath b = true) (P : Platform 32) : Exactly binary32 (vecSin (b.ops P) 0x80000000#32) 0 := by
  have := own_value b hb P vecSin 0x80000000#32 0 (fun f => avx_sin0 f P _) (fun f => sse_sin0 f P _)
    (by intro f; cases f <;> decide +kernel) (by intro f1 f2 f3; cases f1 <;> cases f2 <;> cases f3 <;> decide +kernel)
  simpa using this
theorem own_cos_at0 (b : Build32) (hb : ownMath b = true) (P : Platform 32) : Exactly binary32 (vecCos (b.ops P) 0#32) 1 := by
  have := own_value b hb P vecCos 0#32 1 (fun f => avx_cos0 f P _) (fun f => sse_cos0 f P _)
    (by intro f; cases f <;> decide +kernel) (by intro f1 f2 f3; cases f1 <;> cases f2 <;> cases f3 <;> decide +kernel)
  simpa using this
theorem own_cos_at1 (b : Build32) (hb : ownMath b = true) (P : Platform 32) : Exactly binary32 (vecCos (b.ops P) 0x80000000#32) 1 := by
  have := own_value b hb P vecCos 0x80000000#32 1 (fun f => avx_cos0 f P _) (fun f => sse_cos0 f P _)
    (by intro f; cases f <;> decide +kernel) (by intro f1 f2 f3; cases f1 <;> cases f2 <;> cases f3 <;> decide +kernel)
  simpa using this
theorem own_tan_at0 (b : Build32) (hb : ownMath b = true) (P : Platform 32) : Exactly binary32 (vecTan (b.ops P) 0#32) 0 := by
  have := own_value b hb P vecTan 0#32 0 (fun f => avx_tan0 f P _) (fun f => sse_tan0 f P _)
    (by intro f; cases f <;> decide +kernel) (by intro f1 f2 f3; cases f1 <;> cases f2 <;> cases f3 <;> decide +kernel)
  simpa using this
theorem own_tan_at1 (b : Build32) (hb : ownMath b = true) (P : Platform 32) : Exactly binary32 (vecTan (b.ops P) 0x80000000#32) 0 := by
  have := own_value b hb P vecTan 0x80000000#32 0 (fun f => avx_tan0 f P _) (fun f => sse_tan0 f P _)
    (by intro f; cases f <;> decide +kernel) (by intro f1 f2 f3; cases f1 <;> cases f2 <;> cases f3 <;> decide +kernel)
  simpa using this
theorem own_asin_at0 (b : Build32) (hb : ownMath b = true) (P : Platform 32) : Exactly binary32 (vecAsin (b.ops P) 0#32) 0 := by
  have := own_value b hb P vecAsin 0#32 0 (fun f => avx_asin0 f P _) (fun f => sse_asin0 f P _)
    (by intro f; cases f <;> decide +kernel) (by intro f1 f2 f3; cases f1 <;> cases f2 <;> cases f3 <;> decide +kernel)
  simpa using this
theorem own_asin_at1 (b : Build32) (hb : ownMath b = true) (P : Platform 32) : Exactly binary32 (vecAsin (b.ops P) 0x80000000#32) 0 := by
  have := own_value b hb P vecAsin 0x80000000#32 0 (fun f => avx_asin0 f P _) (fun f => sse_asin0 f P _)
    (by intro f; cases f <;> decide +kernel) (by intro f1 f2 f3; cases f1 <;> cases f2 <;> cases f3 <;> decide +kernel)
  simpa using this
theorem own_atan_at0 (b : Build32) (hb : ownMath b = true) (P : Platform 32) : Exactly binary32 (vecAtan (b.ops P) 0#32) 0 := by
  have := own_value b hb P vecAtan 0#32 0 (fun f => avx_atan0 f P _) (fun f => sse_atan0 f P _)
    (by intro f; cases f <;> decide +kernel) (by intro f1 f2 f3; cases f1 <;> cases f2 <;> cases f3 <;> decide +kernel)
  simpa using this
theorem own_atan_at1 (b : Build32) (hb : ownMath b = true) (P : Platform 32) : Exactly binary32 (vecAtan (b.ops P) 0x80000000#32) 0 := by
  have := own_value b hb P vecAtan 0x80000000#32 0 (fun f => avx_atan0 f P _) (fun f => sse_atan0 f P _)
    (by intro f; cases f <;> decide +kernel) (by intro f1 f2 f3; cases f1 <;> cases f2 <;> cases f3 <;> decide +kernel)
  simpa using this
theorem own_tanh_at0 (b : Build32) (hb : ownMath b = true) (P : Platform 32) : Exactly binary32 (vecTanh (b.ops P) 0#32) 0 := by
  have := own_value b hb P vecTanh 0#32 0 (fun f => avx_tanh0 f P _) (fun f => sse_tanh0 f P _)
    (by intro f; cases f <;> decide +kernel) (by intro f1 f2 f3; cases f1 <;> cases f2 <;> cases f3 <;> decide +kernel)
  simpa using this
theorem own_tanh_at1 (b : Build32) (hb : ownMath b = true) (P : Platform 32) : Exactly binary32 (vecTanh (b.ops P) 0x80000000#32) 0 := by
  have := own_value b hb P vecTanh 0x80000000#32 0 (fun f => avx_tanh0 f P _) (fun f => sse_tanh0 f P _)
    (by intro f; cases f <;> decide +kernel) (by intro f1 f2 f3; cases f1 <;> cases f2 <;> cases f3 <;> decide +kernel)
  simpa using this
theorem own_exp_at0 (b : Build32) (hb : ownMath b = true) (P : Platform 32) : Exactly binary32 (vecExp (b.ops P) 0#32) 1 := by
  have := own_value b hb P vecExp 0#32 1 (fun f => avx_exp0 f P _) (fun f => sse_exp0 f P _)
    (by intro f; cases f <;> decide +kernel) (by intro f1 f2 f3; cases f1 <;> cases f2 <;> cases f3 <;> decide +kernel)
  simpa using this
theorem own_exp_at1 (b : Build32) (hb : ownMath b = true) (P : Platform 32) : Exactly binary32 (vecExp (b.ops P) 0x80000000#32) 1 := by
  have := own_value b hb P vecExp 0x80000000#32 1 (fun f => avx_exp0 f P _) (fun f => sse_exp0 f P _)
    (by intro f; cases f <;> decide +kernel) (by intro f1 f2 f3; cases f1 <;> cases f2 <;> cases f3 <;> decide +kernel)
  simpa using this
theorem own_acos_at0 (b : Build32) (hb : ownMath b = true) (P : Platform 32) : Exactly binary32 (vecAcos (b.ops P) 0x3f800000#32) 0 := by
  have := own_value b hb P vecAcos 0x3f800000#32 0 (fun f => avx_acos1 f P _) (fun f => sse_acos1 f P _)
    (by intro f; cases f <;> decide +kernel) (by intro f1 f2 f3; cases f1 <;> cases f2 <;> cases f3 <;> decide +kernel)
  simpa using this
theorem own_log_at0 (b : Build32) (hb : ownMath b = true) (P : Platform 32) : Exactly binary32 (vecLog (b.ops P) 0x3f800000#32) 0 := by
  have := own_value b hb P vecLog 0x3f800000#32 0 (fun f => avx_log0 f P _) (fun f => sse_log0 f P _)
    (by intro f; cases f <;> decide +kernel) (by intro f1 f2 f3; cases f1 <;> cases f2 <;> cases f3 <;> decide +kernel)
  simpa using this

theorem two_zeros {x : BitVec 32} (h : Exactly binary32 x 0) : x = 0#32 ∨ x = 0x80000000#32 := by
  cases hn : binary32.neg x
  · exact .inl (Nova.eq_of_toReal binary32 (hn.trans (by decide)) (h.2.trans (by rw [(val32 (x := 0#32) 0 (by decide +kernel)).2]; simp)))
  · refine .inr (Nova.eq_of_toReal binary32 (hn.trans (by decide)) (h.2.trans ?_))
    rw [(val32 (x := 0x80000000#32) 0 (by decide +kernel)).2]; simp

theorem the_one {x : BitVec 32} (h : Exactly binary32 x 1) : x = 0x3f800000#32 := by
  have e := (val32 (x := 0x3f800000#32) 1 (by decide +kernel)).2
  exact binary32.eq_of_toReal (by rw [h.2, e]; simp) (by rw [e]; simp)

theorem zero_rep32 : Representable binary32 0 := by
  have := val32 (x := 0#32) 0 (by decide +kernel)
  exact ⟨0#32, this.1, by rw [this.2]; simp⟩

theorem own_exp_zero (b : Build32) (hb : ownMath b = true) (P : Platform 32) {x : BitVec 32} (hx : Exactly binary32 x 0) :
    Exactly binary32 (vecExp (b.ops P) x) 1 := by
  rcases two_zeros hx with rfl | rfl
  · exact own_exp_at0 b hb P
  · exact own_exp_at1 b hb P

/-- `exp(y * log(x))` if the product is a zero. -/
theorem own_pow_one (b : Build32) (hb : ownMath b = true) (P : Platform 32) {x y : BitVec 32} (h0 : binary32.toReal x ≠ 0)
    (h : Exactly binary32 (binary32.mul y (vecLog (b.ops P) x)) 0) : Exactly binary32 (vecPow (b.ops P) x y) 1 := by
  have T := b.templates hb P
  unfold vecPow
  dsimp only
  rw [T.ieee.eq, T.ieee.sel, T.ieee.mul, T.ieee.zero, if_neg]
  · exact own_exp_zero b hb P h
  · intro he
    have hk := (binary32.eqb_iff.mp he).2.2
    rw [show binary32.key 0#32 = 0 by decide] at hk
    exact code_of_real h0 (binary32.key_eq_zero.mp hk)

theorem own_reference (b : Build32) (hb : ownMath b = true) (P : Platform 32) (h2 : IsFin binary32 P.r2)
    (h10 : IsFin binary32 P.r10) : RefMath false binary32 (b.lane P) where
  sin x hx := by
    rw [(b.templates hb P).sin]
    rcases two_zeros hx with rfl | rfl
    · exact own_sin_at0 b hb P
    · exact own_sin_at1 b hb P
  cos x hx := by
    rw [(b.templates hb P).cos]
    rcases two_zeros hx with rfl | rfl
    · exact own_cos_at0 b hb P
    · exact own_cos_at1 b hb P
  tan x hx := by
    rw [(b.templates hb P).tan]
    rcases two_zeros hx with rfl | rfl
    · exact own_tan_at0 b hb P
    · exact own_tan_at1 b hb P
  asin x hx := by
    rw [(b.templates hb P).asin]
    rcases two_zeros hx with rfl | rfl
    · exact own_asin_at0 b hb P
    · exact own_asin_at1 b hb P
  atan x hx := by
    rw [(b.templates hb P).atan]
    rcases two_zeros hx with rfl | rfl
    · exact own_atan_at0 b hb P
    · exact own_atan_at1 b hb P
  tanh x hx := by
    rw [(b.templates hb P).tanh]
    rcases two_zeros hx with rfl | rfl
    · exact own_tanh_at0 b hb P
    · exact own_tanh_at1 b hb P
  exp x hx := by
    rw [(b.templates hb P).exp]
    rcases two_zeros hx with rfl | rfl
    · exact own_exp_at0 b hb P
    · exact own_exp_at1 b hb P
  acos x hx := by rw [the_one hx, (b.templates hb P).acos]; exact own_acos_at0 b hb P
  log x hx := by rw [the_one hx, (b.templates hb P).log]; exact own_log_at0 b hb P
  log2 x hx := by
    have T := b.templates hb P
    have := (own_log_at0 b hb P).mul ⟨h2, rfl⟩ (by rw [zero_mul]; exact zero_rep32)
    rw [the_one hx, T.log2]
    unfold vecLogBase
    rwa [T.ieee.mul, ← zero_mul (binary32.toReal P.r2)]
  log10 x hx := by
    have T := b.templates hb P
    have := (own_log_at0 b hb P).mul ⟨h10, rfl⟩ (by rw [zero_mul]; exact zero_rep32)
    rw [the_one hx, T.log10]
    unfold vecLogBase
    rwa [T.ieee.mul, ← zero_mul (binary32.toReal P.r10)]
  pow_zero x y hy h := by
    have T := b.templates hb P
    have := hy.mul ⟨vecLog_fin T.ieee T.x86 x, rfl⟩ (by rw [zero_mul]; exact zero_rep32)
    rw [zero_mul] at this
    rw [T.pow]
    exact own_pow_one b hb P (fun e => absurd (h e) (by decide)) this
  one_pow x y hx hy := by
    have T := b.templates hb P
    have := Spec.Exactly.mul ⟨hy, rfl⟩ (own_log_at0 b hb P) (by rw [mul_zero]; exact zero_rep32)
    rw [mul_zero, ← the_one hx] at this
    rw [T.pow]
    exact own_pow_one b hb P (by rw [hx.2]; exact one_ne_zero) this
  spow x y a hy hx h h0 := by
    have T := b.templates hb P
    rw [T.pow] at h
    rw [T.signedPow, vecSignedPow_eq T.ieee, the_one h]
    unfold sgn
    have e1 := val32 (x := 0x3f800000#32) 1 (by decide +kernel)
    have e2 := val32 (x := 0xbf800000#32) (-1) (by decide +kernel)
    by_cases hp : 0 < a
    · rw [if_pos hp, neg_of_toReal (hx.2.symm ▸ hp)]
      exact ⟨e1.1, by rw [show signBit false ||| 0x3f800000#32 = 0x3f800000#32 by decide, e1.2]; simp⟩
    · rw [if_neg hp, if_neg h0]
      cases hn : binary32.neg x with
      | true => exact ⟨by decide, by rw [show signBit true ||| 0x3f800000#32 = 0xbf800000#32 by decide, e2.2]; simp⟩
      | false =>
        have := binary32.toReal_nonneg hn
        rw [hx.2] at this
        exact absurd (lt_of_le_of_ne this h0.symm) hp

end own

end Nova
