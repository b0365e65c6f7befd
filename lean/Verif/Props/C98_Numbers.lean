import Verif.Lemmas.NumberLanes
import Verif.Lemmas.TrigNumbers
import Verif.Lemmas.TrigLarge
import Verif.Lemmas.PowNumbers
import Verif.Lemmas.FloatExtrema
import Verif.Lemmas.Flush
import Verif.Lemmas.LogRange
import Verif.Lemmas.BasicFinal
import Verif.Props.C01_Elementwise
import Verif.Props.C43_Math
import Verif.Props.C46_Exp
import Verif.Props.C61_Trig
import Verif.Props.C63_Log
import Verif.Props.C70_Atan
import Verif.Props.C71_Asin
import Verif.Props.C73_Tanh
import Verif.Props.C77_Units
import Verif.Props.C85_NaN
import Verif.Props.C90_Order

/-!
# C98: finite arguments do not give a NaN

`C98_unary_scalar_float` … `C98_quad_double`: for the arguments listed in `SpecNumbers`, every build and every function, the result
is a number.  `C98_unary_call_partial` …: the same of whole calls.  Outside these tables it is false: `C98_negation_cos`,
`C98_negation_midi`, `C98_negation_ampmod`, `C98_negation_quad`.
-/

namespace Nova
open FP VecMath Spec

/-! ## Functions of one argument -/

/-- A positive finite constant. -/
def PosLit {w : Nat} (F : Fmt w) (c : BitVec w) : Prop := F.isFinite c = true ∧ F.ltb F.posZero c = true

instance {w : Nat} (F : Fmt w) (c : BitVec w) : Decidable (PosLit F c) := inferInstanceAs (Decidable (_ ∧ _))

/-- The constants of the unit conversions. -/
structure UnitLits {w : Nat} (F : Fmt w) (lit : Rat → BitVec w) : Prop where
  two : PosLit F (lit 2)
  ten : PosLit F (lit 10)
  twelve : PosLit F (lit 12)
  twenty : PosLit F (lit 20)
  a : PosLit F (lit 440)
  base : PosLit F (lit 69)
  oct : PosLit F (lit 4.75)
  twelfth : PosLit F (lit 0.083333333333)
  twentieth : PosLit F (lit 0.05)
  ratio : PosLit F (lit 0.0022727272727)

theorem unitLits32 : UnitLits binary32 litD32 := by constructor <;> decide +kernel
theorem unitLits64 : UnitLits binary64 binary64.ofRat := by constructor <;> decide +kernel

section generic
variable {w : Nat} {F : Fmt w}

theorem PosLit.fin {c : BitVec w} (h : PosLit F c) : IsFin F c := h.1
theorem PosLit.pos {c : BitVec w} (h : PosLit F c) : 0 < F.toReal c := by
  have := (F.ltb_iff_value.mp h.2).2.2
  rw [F.toEReal_posZero, F.toEReal_of_finite h.1] at this
  exact_mod_cast this
theorem PosLit.code {c : BitVec w} (h : PosLit F c) : F.code c ≠ 0 := code_of_real h.pos.ne'

theorem ereal_nonneg {x : BitVec w} (hx : IsFin F x) (h : 0 ≤ F.toReal x) : 0 ≤ F.toEReal x := by
  rw [F.toEReal_of_finite hx]; exact_mod_cast h

/-- What the logarithms of a class promise. -/
structure LogNumbers (F : Fmt w) (A : Arith (BitVec w)) : Prop where
  log2 : ∀ x, Num F x → 0 ≤ F.toEReal x → Num F (A.log2 x)
  log10 : ∀ x, Num F x → 0 ≤ F.toEReal x → Num F (A.log10 x)

variable {A : Arith (BitVec w)} {d : Bool}

theorem freq2midi_num (H : NumberOps F A d) (L : LogNumbers F A) (U : UnitLits F A.lit) {x : BitVec w} (hx : IsFin F x) :
    Num F (Functor.freq2midi A x) := by
  have h := H.mul hx U.ratio.fin
  have e := L.log2 (A.abs (A.mul x (A.lit 0.0022727272727))) (by rw [H.abs]; exact num_fabs h)
    (by rw [H.abs]; exact zero_le_fabs h)
  exact H.add (H.mul_r U.twelve.fin U.twelve.code e) (num_of_fin U.base.fin) (.inr U.base.fin)

theorem freq2oct_num (H : NumberOps F A d) (L : LogNumbers F A) (U : UnitLits F A.lit) {x : BitVec w} (hx : IsFin F x) :
    Num F (Functor.freq2oct A x) := by
  have h := H.mul hx U.ratio.fin
  have e := L.log2 (A.abs (A.mul x (A.lit 0.0022727272727))) (by rw [H.abs]; exact num_fabs h)
    (by rw [H.abs]; exact zero_le_fabs h)
  exact H.add e (num_of_fin U.oct.fin) (.inr U.oct.fin)

theorem amp2db_num (H : NumberOps F A d) (L : LogNumbers F A) (U : UnitLits F A.lit) {x : BitVec w} (hx : IsFin F x) :
    Num F (Functor.amp2db A x) := by
  have h := num_of_fin hx
  have e := L.log10 (A.abs x) (by rw [H.abs]; exact num_fabs h) (by rw [H.abs]; exact zero_le_fabs h)
  exact H.mul_r U.twenty.fin U.twenty.code e

theorem ratio2midi_num (H : NumberOps F A d) (U : UnitLits F A.lit) {x : BitVec w} (h : Num F (A.log2 x)) :
    Num F (Functor.ratio2midi A x) := H.mul_l U.twelve.fin U.twelve.code h

/-- The functions that need no transcendental functions. -/
theorem plain_num (H : NumberOps F A d) {op : UnOp}
    (ho : op ∈ [UnOp.abs, .sgn, .square, .cube, .round, .frac, .ceil, .floor, .trunc, .undenormalize, .softclip])
    {x y : BitVec w} (hx : IsFin F x) (hy : op.f A x = .ok y) : Num F y := by
  have nx := num_of_fin hx
  cases op with
  | abs => cases hy; change Num F (A.abs x); rw [H.abs]; exact num_fabs nx
  | sgn => cases hy; exact H.sign x hx
  | square => cases hy; change Num F (A.square x); rw [H.order.square]; exact H.mul hx hx
  | cube => cases hy; exact H.cube hx
  | round => cases hy; exact H.round x hx
  | frac => cases hy; change Num F (A.frac x); rw [H.frac]; exact num_sub_fin nx (H.floor x hx) (.inl hx)
  | ceil => cases hy; exact H.ceil x hx
  | floor => cases hy; exact H.floor x hx
  | trunc => exact H.trunc x y hx hy
  | undenormalize => cases hy; exact H.undenormalize x hx
  | softclip => cases hy; exact H.softclip x hx
  | _ => exact absurd ho (by decide)

/-- Functions of a class that calls the C library. -/
theorem unary_numbers (H : NumberOps F A d) {M : Libm w} (hM : M.KeepsNumbers F) (U : UnitLits F A.lit)
    (hs : A.sin = M.sin) (hc : A.cos = M.cos) (ht : A.tan = M.tan) (has : A.asin = M.asin) (hac : A.acos = M.acos)
    (hat : A.atan = M.atan) (hth : A.tanh = M.tanh) (hl : A.log = M.log) (hl2 : A.log2 = M.log2)
    (hl10 : A.log10 = M.log10) (he : A.exp = M.exp) (hp : A.pow = M.pow) (op : UnOp) {x y : BitVec w} (hx : IsFin F x)
    (hr : op = .reciprocal → F.toReal x ≠ 0 → Num F (A.reciprocal x)) (hq : op = .signedSqrt → Num F (A.signedSqrt x))
    (h : InDomain F x op) (hy : op.f A x = .ok y) : Num F y := by
  have nx := num_of_fin hx
  have L : LogNumbers F A := ⟨by rw [hl2]; exact hM.log2, by rw [hl10]; exact hM.log10⟩
  have pw : ∀ c y, PosLit F c → Num F y → Num F (A.pow c y) := fun c y hc hy => by rw [hp]; exact hM.pow c y hc.fin hc.pos hy
  by_cases ho : op ∈ [UnOp.abs, .sgn, .square, .cube, .round, .frac, .ceil, .floor, .trunc, .undenormalize, .softclip]
  · exact plain_num H ho hx hy
  cases op with
  | reciprocal => cases hy; exact hr rfl h
  | signedSqrt => cases hy; exact hq rfl
  | sin => cases hy; change Num F (A.sin x); rw [hs]; exact hM.sin x hx
  | cos => cases hy; change Num F (A.cos x); rw [hc]; exact hM.cos x hx
  | tan => cases hy; change Num F (A.tan x); rw [ht]; exact hM.tan x hx
  | asin => cases hy; change Num F (A.asin x); rw [has]; exact hM.asin x hx h
  | acos => cases hy; change Num F (A.acos x); rw [hac]; exact hM.acos x hx h
  | atan => cases hy; change Num F (A.atan x); rw [hat]; exact hM.atan x hx
  | tanh => cases hy; change Num F (A.tanh x); rw [hth]; exact hM.tanh x hx
  | exp => cases hy; change Num F (A.exp x); rw [he]; exact hM.exp x hx
  | log => cases hy; change Num F (A.log x); rw [hl]; exact hM.log x nx (ereal_nonneg hx h)
  | log2 => cases hy; change Num F (A.log2 x); rw [hl2]; exact hM.log2 x nx (ereal_nonneg hx h)
  | log10 => cases hy; change Num F (A.log10 x); rw [hl10]; exact hM.log10 x nx (ereal_nonneg hx h)
  | midi2freq =>
    cases hy
    refine H.mul_l U.a.fin U.a.code (pw _ _ U.two ?_)
    exact H.mul_r U.twelfth.fin U.twelfth.code (H.sub nx (num_of_fin U.base.fin) (.inl hx))
  | freq2midi => cases hy; exact freq2midi_num H L U hx
  | midi2ratio => cases hy; exact pw _ _ U.two (H.mul hx U.twelfth.fin)
  | ratio2midi => cases hy; exact ratio2midi_num H U (L.log2 x nx (ereal_nonneg hx h))
  | oct2freq =>
    cases hy
    exact H.mul_l U.a.fin U.a.code (pw _ _ U.two (H.sub nx (num_of_fin U.oct.fin) (.inl hx)))
  | freq2oct => cases hy; exact freq2oct_num H L U hx
  | amp2db => cases hy; exact amp2db_num H L U hx
  | db2amp => cases hy; exact pw _ _ U.ten (H.mul hx U.twentieth.fin)
  | _ => exact absurd (by decide) ho

theorem reciprocal_num {x : BitVec w} (h1 : IsFin F (F.ofInt 1)) (hx : IsFin F x) (h : F.toReal x ≠ 0) :
    Num F (F.div (F.ofInt 1) x) := num_div h1 hx h

end generic

/-- Scalar versions of the functions of one `float`. -/
theorem C98_unary_scalar_float (P : Platform 32) (hM : P.M.KeepsNumbers binary32) (op : UnOp) {x y : BitVec 32}
    (hx : IsFin binary32 x) (h : InDomain binary32 x op) (hy : op.f (Build32.scalar P) x = .ok y) : Num binary32 y :=
  unary_numbers (lane_numberOps32 .generic P) hM unitLits32 rfl rfl rfl rfl rfl rfl rfl rfl rfl rfl rfl rfl op hx
    (fun _ h => reciprocal_num (by decide +kernel) hx h) (fun _ => (C43_signed_sqrt_float .generic rfl P x (num_of_fin hx)).2.1) h hy

/-- The reciprocal of a `double` is a division. -/
theorem lane_reciprocal64 (b : Build64) (P : Platform 64) (x : BitVec 64) :
    (b.lane P).reciprocal x = binary64.div (binary64.ofInt 1) x := by
  rw [(lane_math64 b P).reciprocal]
  exact scalar_reciprocal binary64 _ _ _ x

theorem one_fin64' : IsFin binary64 (binary64.ofInt 1) := by decide +kernel

/-- Scalar and SIMD versions of the functions of one `double`. -/
theorem C98_unary_double (b : Build64) (P : Platform 64) (hM : P.M.KeepsNumbers binary64) (op : UnOp) {x y : BitVec 64}
    (hx : IsFin binary64 x) (h : InDomain binary64 x op) :
    (op.f (b.lane P) x = .ok y → Num binary64 y) ∧ (op.f (Build64.scalar P) x = .ok y → Num binary64 y) := by
  have key : ∀ b : Build64, op.f (b.lane P) x = .ok y → Num binary64 y := fun b hy => by
    have hl : (b.lane P).lit = binary64.ofRat := by cases b <;> rfl
    refine unary_numbers (lane_numberOps64 b P) hM (hl ▸ unitLits64) ?_ ?_ ?_ ?_ ?_ ?_ ?_ ?_ ?_ ?_ ?_ ?_ op hx
      (fun _ h => by rw [lane_reciprocal64]; exact reciprocal_num one_fin64' hx h)
      (fun _ => (C43_signed_sqrt_double b P x (num_of_fin hx)).2.1) h hy
    all_goals (cases b <;> rfl)
  exact ⟨key b, key .generic⟩

section own
attribute [local irreducible] litD litF litD32 Fmt.add Fmt.mul Fmt.div Fmt.sub Fmt.fma Fmt.ltb Fmt.leb Fmt.eqb
  Fmt.roundInt Fmt.toInt32 Fmt.ofInt32 Fmt.sqrt

theorem avx_acos0 (f : Bool) (P : Platform 32) (x : BitVec 32) :
    vecAcos (AvxF.ops f (P.x86 binary32)) x = vecAcos (AvxF.ops f (platform0.x86 binary32)) x := rfl

theorem sse_acos0 (f : Sse.Flags) (P : Platform 32) (x : BitVec 32) :
    vecAcos (Sse.ops f (P.x86 binary32)) x = vecAcos (Sse.ops f (platform0.x86 binary32)) x := rfl

theorem avx_pow0 (f : Bool) (P : Platform 32) (x y : BitVec 32) :
    vecPow (AvxF.ops f (P.x86 binary32)) x y = vecPow (AvxF.ops f (platform0.x86 binary32)) x y := rfl

theorem sse_pow0 (f : Sse.Flags) (P : Platform 32) (x y : BitVec 32) :
    vecPow (Sse.ops f (P.x86 binary32)) x y = vecPow (Sse.ops f (platform0.x86 binary32)) x y := rfl

end own

/-- Own logarithms: every pattern gives a finite number, and the change of base a number. -/
theorem own_logs (b : Build32) (hb : ownMath b = true) (P : Platform 32) (h2 : IsFin binary32 P.r2) (h10 : IsFin binary32 P.r10)
    (x : BitVec 32) : Num binary32 ((b.lane P).log x) ∧ Num binary32 ((b.lane P).log2 x) ∧ Num binary32 ((b.lane P).log10 x) := by
  have T := b.templates hb P
  have f := C65_finite b hb P x
  rw [T.log] at f
  rw [T.log, T.log2, T.log10]
  unfold vecLogBase
  rw [T.ieee.mul]
  exact ⟨num_of_fin f, num_mul f h2, num_mul f h10⟩

theorem minus_half : binary32.toReal 0xbf000000#32 = -1 / 2 := by
  rw [(val32 (-1 / 2) (by decide +kernel)).2]; norm_num

theorem acos_half_num (b : Build32) (hb : ownMath b = true) (P : Platform 32) :
    Num binary32 ((b.lane P).acos 0xbf000000#32) := by
  rw [(b.templates hb P).acos]
  cases b with
  | sse s f =>
    change Num binary32 (vecAcos (Sse.ops f (P.x86 binary32)) _)
    rw [sse_acos0]
    obtain ⟨f1, f2, f3⟩ := f
    cases f1 <;> cases f2 <;> cases f3 <;> decide +kernel
  | avx f =>
    change Num binary32 (vecAcos (AvxF.ops f (P.x86 binary32)) _)
    rw [avx_acos0]
    cases f <;> decide +kernel
  | _ => exact absurd hb (by decide)

theorem abs_gt_one {x : BitVec 32} (hx : IsFin binary32 x) (hr : ¬ |binary32.toReal x| ≤ 1) :
    1 < binary32.toEReal x ∨ binary32.toEReal x < -1 := by
  rw [binary32.toEReal_of_finite hx]
  rcases lt_abs.mp (not_le.mp hr) with h | h
  · exact .inl (by exact_mod_cast h)
  · refine .inr ?_
    rw [show (-1 : EReal) = ((-1 : ℝ) : EReal) by simp]
    exact EReal.coe_lt_coe_iff.mpr (by linarith)

theorem own_asin_acos (b : Build32) (hb : ownMath b = true) (P : Platform 32) {x : BitVec 32} (hx : IsFin binary32 x) :
    Num binary32 ((b.lane P).asin x) ∧ Num binary32 ((b.lane P).acos x) := by
  by_cases hr : |binary32.toReal x| ≤ 1
  · refine ⟨num_of_fin (C71_asin b hb P x hx hr).1, ?_⟩
    by_cases hh : binary32.toReal x = -1 / 2
    · have : x = 0xbf000000#32 := binary32.eq_of_toReal (hh.trans minus_half.symm) (by rw [minus_half]; norm_num)
      rw [this]; exact acos_half_num b hb P
    · exact num_of_fin (C72_acos_partial b hb P x hx hr hh).1
  · obtain ⟨e, e'⟩ := C47_asin_acos b hb P x (num_of_fin hx) (abs_gt_one hx hr)
    rw [e, e']; exact ⟨by decide, by decide⟩

/-- SIMD versions of the functions of one `float`. -/
theorem C98_unary_float_partial (b : Build32) (P : Platform 32) (hM : P.M.KeepsNumbers binary32) (h2 : IsFin binary32 P.r2)
    (h10 : IsFin binary32 P.r10) (op : UnOp) {x y : BitVec 32} (hx : IsFin binary32 x) (h : UnNumber b x op)
    (hy : op.f (b.lane P) x = .ok y) : Num binary32 y := by
  have H := lane_numberOps32 b P
  have U : UnitLits binary32 (b.lane P).lit := by rw [lane_lit32]; exact unitLits32
  have nx := num_of_fin hx
  have hsq : op = .signedSqrt → Num binary32 ((b.lane P).signedSqrt x) := fun e => by
    subst e
    exact (C43_signed_sqrt_float b (by cases b <;> first | rfl | exact absurd rfl h) P x nx).2.1
  have hrc : op = .reciprocal → Num binary32 ((b.lane P).reciprocal x) := fun e => by
    subst e
    obtain ⟨rfl, h⟩ := h
    exact reciprocal_num (by decide +kernel) hx h
  by_cases hm : ownMath b = true
  · have hlog := own_logs b hm P h2 h10
    have L : LogNumbers binary32 (b.lane P) := ⟨fun x _ _ => (hlog x).2.1, fun x _ _ => (hlog x).2.2⟩
    by_cases ho : op ∈ [UnOp.abs, .sgn, .square, .cube, .round, .frac, .ceil, .floor, .trunc, .undenormalize, .softclip]
    · exact plain_num H ho hx hy
    cases op with
    | reciprocal => cases hy; exact hrc rfl
    | signedSqrt => cases hy; exact hsq rfl
    | sin => cases hy; rw [(b.templates hm P).sin]; exact vecSin_num_all (b.templates hm P).ieee hx
    | cos => cases hy; rw [(b.templates hm P).cos]; exact (vecCos_num_iff (b.templates hm P).ieee hx).mpr (h hm)
    | tan => cases hy; rw [(b.templates hm P).tan]; exact vecTan_num (b.templates hm P).ieee hx
    | asin => cases hy; exact (own_asin_acos b hm P hx).1
    | acos => cases hy; exact (own_asin_acos b hm P hx).2
    | atan => cases hy; exact num_of_fin (C70_atan b hm P x hx).1
    | tanh => cases hy; exact num_of_fin (C73_tanh b hm P x hx).1
    | exp => cases hy; exact C46_number_partial b hm P x nx (h hm)
    | log => cases hy; exact (hlog x).1
    | log2 => cases hy; exact (hlog x).2.1
    | log10 => cases hy; exact (hlog x).2.2
    | midi2freq => cases hy; exact own_midi2freq_num b hm P nx (h hm)
    | midi2ratio => cases hy; exact own_midi2ratio_num b hm P nx (h hm)
    | oct2freq => cases hy; exact own_oct2freq_num b hm P nx (h hm)
    | db2amp => cases hy; exact own_db2amp_num b hm P nx (h hm)
    | freq2midi => cases hy; exact freq2midi_num H L U hx
    | ratio2midi => cases hy; exact ratio2midi_num H U (hlog x).2.1
    | freq2oct => cases hy; exact freq2oct_num H L U hx
    | amp2db => cases hy; exact amp2db_num H L U hx
    | _ => exact absurd (by decide) ho
  · have hm' : ownMath b = false := by simpa using hm
    have T := b.library hm' P
    refine unary_numbers H hM U T.sin T.cos T.tan T.asin T.acos T.atan T.tanh T.log T.log2 T.log10 T.exp T.pow op hx
      (fun e _ => hrc e) hsq ?_ hy
    cases op with
    | reciprocal => exact h.2
    | asin => exact h.resolve_left hm
    | acos => exact h.resolve_left hm
    | log => exact h.resolve_left hm
    | log2 => exact h.resolve_left hm
    | log10 => exact h.resolve_left hm
    | ratio2midi => exact h.resolve_left hm
    | _ => trivial

/-! ## Functions of two, three and four arguments -/

/-- SIMD versions of the functions of two `float`s. -/
theorem C98_binary_float_partial (b : Build32) (P : Platform 32) (hM : P.M.KeepsNumbers binary32) (op : BinOp)
    {x y : BitVec 32} (hx : IsFin binary32 x) (hy : IsFin binary32 y)
    (h : BinNumber32 b (b.lane P).log x y op) : Num binary32 (op.f (b.lane P) x y) := by
  by_cases hm : ownMath b = true
  · have key : BinNumber binary32 (divides b) false x y op → Num binary32 (op.f (b.lane P) x y) := fun h =>
      (lane_numberOps32 b P).binary op hx hy h (fun hp => absurd hp (by decide)) fun hp => absurd hp (by decide)
    cases op with
    | pow => exact own_pow_num b hm P hy ((if_pos hm : (if _ then _ else _) = _).mp h)
    | spow => exact own_spow_num b hm P hy ((if_pos hm : (if _ then _ else _) = _).mp h)
    | _ => exact key h
  · have hm' : ownMath b = false := by simpa using hm
    refine (lane_numberOps32 b P).binary (p := true) op hx hy ?_ (fun _ => ?_) fun _ => ?_
    · cases op with
      | pow => exact ⟨rfl, (if_neg hm : (if _ then _ else _) = _).mp h⟩
      | spow => exact ⟨rfl, (if_neg hm : (if _ then _ else _) = _).mp h⟩
      | _ => exact h
    · rw [(b.library hm' P).pow]; exact hM.pow
    · intro x y
      cases b with
      | sse s f =>
        have hf : f.sse2 = false := by simpa [ownMath] using hm'
        simp only [Build32.lane, Sse.arith, hf]
        rfl
      | avx f => exact absurd rfl hm
      | _ => rfl

/-- Scalar versions of the functions of two `float`s. -/
theorem C98_binary_scalar_float (P : Platform 32) (hM : P.M.KeepsNumbers binary32) (op : BinOp)
    {x y : BitVec 32} (hx : IsFin binary32 x) (hy : IsFin binary32 y)
    (h : BinNumber binary32 true true x y op) : Num binary32 (op.f (Build32.scalar P) x y) :=
  C98_binary_float_partial .generic P hM op hx hy (by
    cases op with
    | pow => exact h.2
    | spow => exact h.2
    | _ => exact h)

/-- Scalar and SIMD versions of the functions of two `double`s. -/
theorem C98_binary_double (b : Build64) (P : Platform 64) (hM : P.M.KeepsNumbers binary64) (op : BinOp)
    {x y : BitVec 64} (hx : IsFin binary64 x) (hy : IsFin binary64 y) (h : BinNumber binary64 true true x y op) :
    Num binary64 (op.f (b.lane P) x y) ∧ Num binary64 (op.f (Build64.scalar P) x y) := by
  have key : ∀ b : Build64, Num binary64 (op.f (b.lane P) x y) := fun b =>
    (lane_numberOps64 b P).binary op hx hy h (fun _ => by
      have e : (b.lane P).pow = P.M.pow := by cases b <;> rfl
      rw [e]; exact hM.pow) fun _ x y => by cases b <;> rfl
  exact ⟨key b, key .generic⟩

/-- Scalar and SIMD versions of the functions of three `float`s. -/
theorem C98_ternary_float (b : Build32) (P : Platform 32) (op : TerOp) {x y z : BitVec 32} (hx : IsFin binary32 x)
    (hy : IsFin binary32 y) (hz : IsFin binary32 z) (h : TerNumber binary32 x op) :
    Num binary32 (op.f (b.lane P) x y z) ∧ Num binary32 (op.f (Build32.scalar P) x y z) := by
  have key : ∀ b : Build32, Num binary32 (op.f (b.lane P) x y z) := fun b =>
    (lane_numberOps32 b P).ternary (by rw [lane_one32]; decide) op hx hy hz h
  exact ⟨key b, key .generic⟩

/-- Scalar and SIMD versions of the functions of three `double`s. -/
theorem C98_ternary_double (b : Build64) (P : Platform 64) (op : TerOp) {x y z : BitVec 64} (hx : IsFin binary64 x)
    (hy : IsFin binary64 y) (hz : IsFin binary64 z) (h : TerNumber binary64 x op) :
    Num binary64 (op.f (b.lane P) x y z) ∧ Num binary64 (op.f (Build64.scalar P) x y z) := by
  have key : ∀ b : Build64, Num binary64 (op.f (b.lane P) x y z) := fun b =>
    (lane_numberOps64 b P).ternary (by rw [lane_one64']; decide) op hx hy hz h
  exact ⟨key b, key .generic⟩

theorem two126 : IsFin binary32 0x7e800000#32 ∧ binary32.toReal 0x7e800000#32 = 2 ^ 126 := by
  have := val32 (x := 0x7e800000#32) (2 ^ 126) (by decide +kernel)
  exact ⟨this.1, this.2.trans (by norm_num)⟩

/-- Scalar and SIMD versions of the functions of four `float`s, at levels up to 2^63. -/
theorem C98_quad_float_partial (b : Build32) (P : Platform 32) (op : QuadOp) {x y z u : BitVec 32} (hx : IsFin binary32 x)
    (hy : IsFin binary32 y) (hz : IsFin binary32 z) (hu : IsFin binary32 u) (h : QuadNumber binary32 (2 ^ 63) x y z u) :
    Num binary32 (op.f (b.lane P) x y z u) ∧ Num binary32 (op.f (Build32.scalar P) x y z u) := by
  have key : ∀ b : Build32, Num binary32 (op.f (b.lane P) x y z u) := fun b =>
    (lane_numberOps32 b P).quad two126.1 (by rw [two126.2]; norm_num) (by rw [two126.2]; norm_num) op hx hy hz hu h
  exact ⟨key b, key .generic⟩

theorem two1022 : IsFin binary64 0x7fd0000000000000#64 ∧ binary64.toReal 0x7fd0000000000000#64 = 2 ^ 1022 := by
  refine ⟨by decide, ?_⟩
  have h1 : mag binary64.mb (binary64.code 0x7fd0000000000000#64) = 2 ^ 2096 := by decide +kernel
  have h2 : binary64.neg 0x7fd0000000000000#64 = false := by decide
  rw [Fmt.toReal_eq, h1, h2]
  have h3 : binary64.scale = 1074 := by decide
  rw [h3, if_neg (by decide), Nat.cast_pow, one_mul, div_eq_iff (by positivity), ← pow_add, Nat.cast_ofNat]

/-- Scalar and SIMD versions of the functions of four `double`s, at levels up to 2^511. -/
theorem C98_quad_double_partial (b : Build64) (P : Platform 64) (op : QuadOp) {x y z u : BitVec 64} (hx : IsFin binary64 x)
    (hy : IsFin binary64 y) (hz : IsFin binary64 z) (hu : IsFin binary64 u) (h : QuadNumber binary64 (2 ^ 511) x y z u) :
    Num binary64 (op.f (b.lane P) x y z u) ∧ Num binary64 (op.f (Build64.scalar P) x y z u) := by
  have key : ∀ b : Build64, Num binary64 (op.f (b.lane P) x y z u) := fun b =>
    (lane_numberOps64 b P).quad two1022.1 (by rw [two1022.2, ← pow_succ']; exact pow_le_pow_right₀ (by norm_num) (by norm_num))
      (by rw [two1022.2, ← pow_add]) op hx hy hz hu h
  exact ⟨key b, key .generic⟩

/-! ## Whole calls -/

/-- `f_vec_simd(out, in, n)` of finite `float`s for which the table promises numbers. -/
theorem C98_unary_call_partial (b : Build32) (P : Platform 32) (hM : P.M.KeepsNumbers binary32) (h2 : IsFin binary32 P.r2)
    (h10 : IsFin binary32 P.r10) (op : UnOp) {m : Mem (BitVec 32)} {out inp : Nat} {n : BitVec 32} {x : Nat → BitVec 32}
    (hn : 0 < n.toNat) (hmul : b.target.perLine ∣ n.toNat) (hoal : b.target.align ∣ out) (hial : b.target.align ∣ inp)
    (hout : Allocated m out n.toNat) (hin : Holds m inp n.toNat x) (hs : SafePlacement out inp n.toNat)
    (hx : ∀ i < n.toNat, IsFin binary32 (x i)) (h : ∀ i < n.toNat, UnNumber b (x i) op)
    (hf : ∀ i < n.toNat, ∃ y, op.f (b.lane P) (x i) = .ok y) :
    ∃ y, op.vecSimd (b.vec P) out inp n m = .ok ((), overwrite m out n.toNat y) ∧
      ∀ i < n.toNat, Num binary32 (y i) := by
  classical
  have hf' : ∀ i, ∃ y, i < n.toNat → op.f (b.lane P) (x i) = .ok y := fun i => by
    by_cases hi : i < n.toNat
    · obtain ⟨y, hy⟩ := hf i hi; exact ⟨y, fun _ => hy⟩
    · exact ⟨0, fun h => absurd h hi⟩
  choose y hy using hf'
  exact ⟨y, C01_unary_simd b.target (b.env P) op hn hmul hoal hial hout hin hs hy, fun i hi =>
    C98_unary_float_partial b P hM h2 h10 op (hx i hi) (h i hi) (hy i hi)⟩

/-- The same of `double`s. -/
theorem C98_unary_call_double (b : Build64) (P : Platform 64) (hM : P.M.KeepsNumbers binary64) (op : UnOp)
    {m : Mem (BitVec 64)} {out inp : Nat} {n : BitVec 32} {x : Nat → BitVec 64}
    (hn : 0 < n.toNat) (hmul : b.target.perLine ∣ n.toNat) (hoal : b.target.align ∣ out) (hial : b.target.align ∣ inp)
    (hout : Allocated m out n.toNat) (hin : Holds m inp n.toNat x) (hs : SafePlacement out inp n.toNat)
    (hx : ∀ i < n.toNat, IsFin binary64 (x i)) (h : ∀ i < n.toNat, InDomain binary64 (x i) op)
    (hf : ∀ i < n.toNat, ∃ y, op.f (b.lane P) (x i) = .ok y) :
    ∃ y, op.vecSimd (b.vec P) out inp n m = .ok ((), overwrite m out n.toNat y) ∧
      ∀ i < n.toNat, Num binary64 (y i) := by
  classical
  have hf' : ∀ i, ∃ y, i < n.toNat → op.f (b.lane P) (x i) = .ok y := fun i => by
    by_cases hi : i < n.toNat
    · obtain ⟨y, hy⟩ := hf i hi; exact ⟨y, fun _ => hy⟩
    · exact ⟨0, fun h => absurd h hi⟩
  choose y hy using hf'
  exact ⟨y, C01_unary_simd b.target (b.env P) op hn hmul hoal hial hout hin hs hy, fun i hi =>
    (C98_unary_double b P hM op (hx i hi) (h i hi)).1 (hy i hi)⟩

/-- `f_vec_simd(out, a, b, n)` of `float`s. -/
theorem C98_binary_call_partial (b : Build32) (P : Platform 32) (hM : P.M.KeepsNumbers binary32) (op : BinOp)
    {m : Mem (BitVec 32)} {out : Nat} {a c : SArg (BitVec 32)} {n : BitVec 32} {x y : Nat → BitVec 32}
    (hn : 0 < n.toNat) (hmul : b.target.perLine ∣ n.toNat) (hoal : b.target.align ∣ out)
    (hout : Allocated m out n.toNat) (ha : SimdSupplies (b.vec P) b.target.align m out n.toNat a x)
    (hc : SimdSupplies (b.vec P) b.target.align m out n.toNat c y)
    (hx : ∀ i < n.toNat, IsFin binary32 (x i)) (hy : ∀ i < n.toNat, IsFin binary32 (y i))
    (h : ∀ i < n.toNat, BinNumber32 b (b.lane P).log (x i) (y i) op) :
    ∃ z, op.vecSimd (b.vec P) out a c n m = .ok ((), overwrite m out n.toNat z) ∧ ∀ i < n.toNat, Num binary32 (z i) :=
  ⟨_, C02_binary_simd b.target (b.env P) op hn hmul hoal hout ha hc, fun i hi =>
    C98_binary_float_partial b P hM op (hx i hi) (hy i hi) (h i hi)⟩

/-- The same of `double`s. -/
theorem C98_binary_call_double (b : Build64) (P : Platform 64) (hM : P.M.KeepsNumbers binary64) (op : BinOp)
    {m : Mem (BitVec 64)} {out : Nat} {a c : SArg (BitVec 64)} {n : BitVec 32} {x y : Nat → BitVec 64}
    (hn : 0 < n.toNat) (hmul : b.target.perLine ∣ n.toNat) (hoal : b.target.align ∣ out)
    (hout : Allocated m out n.toNat) (ha : SimdSupplies (b.vec P) b.target.align m out n.toNat a x)
    (hc : SimdSupplies (b.vec P) b.target.align m out n.toNat c y)
    (hx : ∀ i < n.toNat, IsFin binary64 (x i)) (hy : ∀ i < n.toNat, IsFin binary64 (y i))
    (h : ∀ i < n.toNat, BinNumber binary64 true true (x i) (y i) op) :
    ∃ z, op.vecSimd (b.vec P) out a c n m = .ok ((), overwrite m out n.toNat z) ∧ ∀ i < n.toNat, Num binary64 (z i) :=
  ⟨_, C02_binary_simd b.target (b.env P) op hn hmul hoal hout ha hc, fun i hi =>
    (C98_binary_double b P hM op (hx i hi) (hy i hi) (h i hi)).1⟩

/-- `f_vec_simd(out, a, b, c, n)` of `float`s. -/
theorem C98_ternary_call_float (b : Build32) (P : Platform 32) (op : TerOp)
    {m : Mem (BitVec 32)} {out : Nat} {a c d : SArg (BitVec 32)} {n : BitVec 32} {x y z : Nat → BitVec 32}
    (hn : 0 < n.toNat) (hmul : b.target.perLine ∣ n.toNat) (hoal : b.target.align ∣ out)
    (hout : Allocated m out n.toNat) (ha : SimdSupplies (b.vec P) b.target.align m out n.toNat a x)
    (hc : SimdSupplies (b.vec P) b.target.align m out n.toNat c y)
    (hd : SimdSupplies (b.vec P) b.target.align m out n.toNat d z)
    (hx : ∀ i < n.toNat, IsFin binary32 (x i)) (hy : ∀ i < n.toNat, IsFin binary32 (y i))
    (hz : ∀ i < n.toNat, IsFin binary32 (z i)) (h : ∀ i < n.toNat, TerNumber binary32 (x i) op) :
    ∃ u, op.vecSimd (b.vec P) out a c d n m = .ok ((), overwrite m out n.toNat u) ∧ ∀ i < n.toNat, Num binary32 (u i) :=
  ⟨_, C03_ternary_simd b.target (b.env P) op hn hmul hoal hout ha hc hd, fun i hi =>
    (C98_ternary_float b P op (hx i hi) (hy i hi) (hz i hi) (h i hi)).1⟩

/-- The same of `double`s. -/
theorem C98_ternary_call_double (b : Build64) (P : Platform 64) (op : TerOp)
    {m : Mem (BitVec 64)} {out : Nat} {a c d : SArg (BitVec 64)} {n : BitVec 32} {x y z : Nat → BitVec 64}
    (hn : 0 < n.toNat) (hmul : b.target.perLine ∣ n.toNat) (hoal : b.target.align ∣ out)
    (hout : Allocated m out n.toNat) (ha : SimdSupplies (b.vec P) b.target.align m out n.toNat a x)
    (hc : SimdSupplies (b.vec P) b.target.align m out n.toNat c y)
    (hd : SimdSupplies (b.vec P) b.target.align m out n.toNat d z)
    (hx : ∀ i < n.toNat, IsFin binary64 (x i)) (hy : ∀ i < n.toNat, IsFin binary64 (y i))
    (hz : ∀ i < n.toNat, IsFin binary64 (z i)) (h : ∀ i < n.toNat, TerNumber binary64 (x i) op) :
    ∃ u, op.vecSimd (b.vec P) out a c d n m = .ok ((), overwrite m out n.toNat u) ∧ ∀ i < n.toNat, Num binary64 (u i) :=
  ⟨_, C03_ternary_simd b.target (b.env P) op hn hmul hoal hout ha hc hd, fun i hi =>
    (C98_ternary_double b P op (hx i hi) (hy i hi) (hz i hi) (h i hi)).1⟩

/-! ## Functions that fail -/

/-- The reduction of the argument of the own cosine overflows: cos is a NaN from 2^64 on, and only there. -/
theorem C98_negation_cos (b : Build32) (hb : ownMath b = true) (P : Platform 32) {x : BitVec 32} (hx : IsFin binary32 x) :
    ¬ Num binary32 ((b.lane P).cos x) ↔ 2 ^ 64 ≤ |binary32.toReal x| := by
  rw [(b.templates hb P).cos, vecCos_num_iff (b.templates hb P).ieee hx, not_lt]

/-- For example at 2^64 itself. -/
theorem C98_negation_cos_witness (b : Build32) (hb : ownMath b = true) (P : Platform 32) :
    IsFin binary32 0x5f800000#32 ∧ ¬ Num binary32 ((b.lane P).cos 0x5f800000#32) :=
  ⟨c64.1, (C98_negation_cos b hb P c64.1).mpr (by rw [c64.2, abs_of_nonneg (by norm_num)])⟩

theorem own_pow_nan (b : Build32) (hb : ownMath b = true) (P : Platform 32) {y : BitVec 32} (hy : y = 0x43000000#32) :
    ¬ Num binary32 ((b.lane P).pow (litD32 2) y) := by
  subst hy
  rw [(b.templates hb P).pow]
  cases b with
  | sse s f =>
    change ¬ Num binary32 (vecPow (Sse.ops f (P.x86 binary32)) _ _)
    rw [sse_pow0]
    obtain ⟨f1, f2, f3⟩ := f
    cases f1 <;> cases f2 <;> cases f3 <;> decide +kernel
  | avx f =>
    change ¬ Num binary32 (vecPow (AvxF.ops f (P.x86 binary32)) _ _)
    rw [avx_pow0]
    cases f <;> decide +kernel
  | _ => exact absurd hb (by decide)

/-- 128 octaves are too many: `midi2ratio(1536)`, `midi2freq(1605)` and `oct2freq(132.75)` are NaNs. -/
theorem C98_negation_midi (b : Build32) (hb : ownMath b = true) (P : Platform 32) :
    (∃ r, UnOp.midi2ratio.f (b.lane P) 0x44c00000#32 = .ok r ∧ ¬ Num binary32 r) ∧
    (∃ r, UnOp.midi2freq.f (b.lane P) 0x44c8a000#32 = .ok r ∧ ¬ Num binary32 r) ∧
    (∃ r, UnOp.oct2freq.f (b.lane P) 0x4304c000#32 = .ok r ∧ ¬ Num binary32 r) := by
  have hl := lane_lit32 b P
  have hm := lane_mul32 b hb P
  have hs := lane_sub32' b P
  have hn : ∀ c y, ¬ Num binary32 y → ¬ Num binary32 (binary32.mul c y) := fun c y h => by
    unfold Num at *
    rw [Bool.not_eq_false] at *
    exact Fmt.N.mul_r h
  refine ⟨⟨_, rfl, ?_⟩, ⟨_, rfl, ?_⟩, ⟨_, rfl, ?_⟩⟩
  · unfold Functor.midi2ratio
    rw [hl, hm]
    exact own_pow_nan b hb P (by decide +kernel)
  · unfold Functor.midi2freq
    rw [hl, hm, hs]
    exact hn _ _ (own_pow_nan b hb P (by decide +kernel))
  · unfold Functor.oct2freq
    rw [hl, hm, hs]
    exact hn _ _ (own_pow_nan b hb P (by decide +kernel))

/-- `db2amp(770.63671875)` is a NaN. -/
theorem C98_negation_db2amp (b : Build32) (hb : ownMath b = true) (P : Platform 32) :
    IsFin binary32 0x4440a8c0#32 ∧ ∃ r, UnOp.db2amp.f (b.lane P) 0x4440a8c0#32 = .ok r ∧ ¬ Num binary32 r := by
  refine ⟨by decide, _, rfl, ?_⟩
  unfold Functor.db2amp
  rw [lane_lit32 b P, lane_mul32 b hb P, (b.templates hb P).pow]
  cases b with
  | sse s f =>
    change ¬ Num binary32 (vecPow (Sse.ops f (P.x86 binary32)) _ _)
    rw [sse_pow0]
    obtain ⟨f1, f2, f3⟩ := f
    cases f1 <;> cases f2 <;> cases f3 <;> decide +kernel
  | avx f =>
    change ¬ Num binary32 (vecPow (AvxF.ops f (P.x86 binary32)) _ _)
    rw [avx_pow0]
    cases f <;> decide +kernel
  | _ => exact absurd hb (by decide)

theorem lane_mul_cases (b : Build32) (P : Platform 32) :
    (b.lane P).mul = binary32.mul ∨ (b.lane P).mul = fun x y => binary32.fma x y 0#32 := by
  cases b with
  | altivec => exact .inr rfl
  | _ => exact .inl rfl

/-- An amplitude modulation that overflows makes silence a NaN, in all builds. -/
theorem C98_negation_ampmod (b : Build32) (P : Platform 32) :
    IsFin binary32 0x7f7fffff#32 ∧ ¬ Num binary32 (TerOp.ampmod.f (b.lane P) 0#32 0x7f7fffff#32 0x7f7fffff#32) := by
  refine ⟨by decide, ?_⟩
  change ¬ Num binary32 ((b.lane P).mul _ ((b.lane P).add (b.lane P).one ((b.lane P).mul _ _)))
  rw [lane_one32, lane_add32]
  rcases lane_mul_cases b P with h | h <;> rw [h] <;> decide +kernel

/-- Sums and products of four finite numbers that overflow in opposite directions, in all builds. -/
theorem C98_negation_quad (b : Build32) (P : Platform 32) :
    IsFin binary32 0xff7fffff#32 ∧
    ¬ Num binary32 (QuadOp.sum.f (b.lane P) 0x7f7fffff#32 0x7f7fffff#32 0xff7fffff#32 0xff7fffff#32) ∧
    ¬ Num binary32 (QuadOp.mix.f (b.lane P) 0x7f7fffff#32 0x7f7fffff#32 0xff7fffff#32 0x7f7fffff#32) := by
  refine ⟨by decide, ?_, ?_⟩
  · change ¬ Num binary32 ((b.lane P).add ((b.lane P).add _ _) ((b.lane P).add _ _))
    rw [lane_add32]
    decide +kernel
  · change ¬ Num binary32 ((b.lane P).add ((b.lane P).mul _ _) ((b.lane P).mul _ _))
    rw [lane_add32]
    rcases lane_mul_cases b P with h | h <;> rw [h] <;> decide +kernel

/-! ## The hypotheses can be met -/

theorem zero_num32 : binary32.isNaN 0 = false := by decide

/-- A C library that returns numbers. -/
example : (⟨fun _ => 0, fun _ => 0, fun _ => 0, fun _ => 0, fun _ => 0, fun _ => 0, fun _ => 0, fun _ => 0, fun _ => 0,
    fun _ => 0, fun _ => 0, fun _ _ => 0⟩ : Libm 32).KeepsNumbers binary32 := by
  constructor <;> intros <;> exact zero_num32

example : IsFin binary32 0x3fb8aa3b#32 ∧ IsFin binary32 0x3ede5bd9#32 ∧ UnNumber (.avx true) 0x42000000#32 .atan ∧
    UnNumber (.sse false ⟨true, false, false⟩) 0x42b17219#32 .exp ∧ BinNumber binary32 true false 0#32 0#32 .plus ∧
    UnNumber (.avx true) 0x44c00001#32 .midi2ratio ∧ UnNumber (.avx false) 0x4440a8bf#32 .db2amp ∧
    TerNumber binary32 0#32 .clip :=
  ⟨by decide, by decide, trivial, fun _ => by decide, trivial, fun _ => by decide, fun _ => by decide, trivial⟩

example : QuadNumber binary32 (2 ^ 63) 0x3f800000#32 0x3f800000#32 0x3f800000#32 0x3f800000#32 := by
  have := (val32 (x := 0x3f800000#32) 1 (by decide +kernel)).2
  refine ⟨?_, ?_, ?_, ?_⟩ <;> rw [this] <;> norm_num

end Nova
