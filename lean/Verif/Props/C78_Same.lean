import Verif.SpecSame
import Verif.Props.C76_Accuracy

/-!
# C78 SIMD and scalar calls give the same numbers

For the functions and arguments of the tables in `SpecSame` a call of `f_vec_simd` and a call of `f_vec` with the same
arguments write the same numbers, bit for bit except for the sign of a zero.
-/

namespace Nova
open FP VecMath Spec

theorem Spec.Same.refl {w : Nat} (F : Fmt w) (a : BitVec w) : Same F a a := .inl rfl

theorem same_of_value {w : Nat} (F : Fmt w) {a b : BitVec w} (ha : Num F a) (hb : Num F b)
    (h : F.toEReal a = F.toEReal b) : Same F a b := by
  by_cases h0 : F.toEReal a = 0
  · right
    have e1 := (F.key_zero_iff ha).mpr h0
    have e2 := (F.key_zero_iff hb).mpr (h ▸ h0)
    exact ⟨F.key_eq_zero.mp e1, F.key_eq_zero.mp e2⟩
  · exact .inl (eq_of_value F ha hb h h0)

theorem same_of_real {w : Nat} (F : Fmt w) {a b : BitVec w} (ha : IsFin F a) (hb : IsFin F b)
    (h : F.toReal a = F.toReal b) : Same F a b :=
  same_of_value F (F.isFinite_not_nan ha) (F.isFinite_not_nan hb)
    (by rw [F.toEReal_of_finite ha, F.toEReal_of_finite hb, h])

theorem isNaN_packRnd {w : Nat} (F : Fmt w) (s : Bool) (N D : Nat) : F.isNaN (F.packRnd s N D) = false := by
  unfold Fmt.packRnd Fmt.isNaN
  rw [F.code_pack _ (by have := F.infCode_lt; omega)]
  simp

theorem isNaN_mul_fin {w : Nat} (F : Fmt w) {x y : BitVec w} (hx : IsFin F x) (hy : IsFin F y) :
    F.isNaN (F.mul x y) = false := by
  unfold Fmt.mul
  rw [F.isFinite_not_nan hx, F.isFinite_not_nan hy, F.isFinite_not_inf hx, F.isFinite_not_inf hy]
  exact isNaN_packRnd F _ _ _

theorem add_comm_not_nan {w : Nat} (F : Fmt w) {x y : BitVec w} (hx : F.isNaN x = false) (hy : F.isNaN y = false)
    (hi : F.isInf y = false) : F.add x y = F.add y x := by
  unfold Fmt.add
  simp only [hx, hy, hi, Bool.or_self, Bool.false_eq_true, if_false, Bool.false_and, Bool.and_comm (F.neg x),
    Int.add_comm (F.units x)]

theorem isNaN_mul_self {w : Nat} (F : Fmt w) {x : BitVec w} (hx : IsFin F x) : F.isNaN (F.mul x x) = false :=
  isNaN_mul_fin F hx hx

theorem lane_mul32' (b : Build32) (hb : multiplies b = true) (P : Platform 32) : (b.lane P).mul = binary32.mul := by
  cases b <;> first | rfl | exact absurd hb (by decide)

theorem lane_mul_s (b : Build32) (hb : multiplies b = true) (P : Platform 32) : (b.lane P).mul = (Build32.scalar P).mul :=
  lane_mul32' b hb P
theorem lane_add_s (b : Build32) (P : Platform 32) : (b.lane P).add = (Build32.scalar P).add := lane_add32 b P
theorem lane_sub_s (b : Build32) (P : Platform 32) : (b.lane P).sub = (Build32.scalar P).sub := lane_sub32' b P
theorem lane_lit_s (b : Build32) (P : Platform 32) : (b.lane P).lit = (Build32.scalar P).lit := by cases b <;> rfl
theorem lane_abs_s (b : Build32) (P : Platform 32) : (b.lane P).abs = (Build32.scalar P).abs :=
  funext fun x => lane_abs32 b P x
theorem lane_one_s (b : Build32) (P : Platform 32) : (b.lane P).one = (Build32.scalar P).one :=
  (lane_one32 b P).trans one32.symm

theorem sq_same (b : Build32) (hb : multiplies b = true) (P : Platform 32) (x : BitVec 32) :
    (b.lane P).square x = (Build32.scalar P).square x := by
  cases b <;> first | rfl | exact absurd hb (by decide)

/-- The functions of the C library. -/
structure SameMath (L S : Arith (BitVec 32)) : Prop where
  sin : L.sin = S.sin
  cos : L.cos = S.cos
  tan : L.tan = S.tan
  asin : L.asin = S.asin
  acos : L.acos = S.acos
  atan : L.atan = S.atan
  tanh : L.tanh = S.tanh
  log : L.log = S.log
  log2 : L.log2 = S.log2
  log10 : L.log10 = S.log10
  exp : L.exp = S.exp
  pow : L.pow = S.pow
  signedPow : L.signedPow = S.signedPow

theorem lane_math32 (b : Build32) (hb : b.simdMath = false) (P : Platform 32) : SameMath (b.lane P) (Build32.scalar P) := by
  cases b with
  | sse s f =>
    obtain ⟨s2, s41, fm⟩ := f
    have : s2 = false := hb
    subst this
    constructor <;> rfl
  | avx f => exact absurd hb (by cases f <;> decide)
  | _ => constructor <;> rfl

/-- One element of a unary function of `float`. -/
theorem C78_unary_float (b : Build32) (P : Platform 32) (op : UnOp) (x : BitVec 32) (hx : IsFin binary32 x)
    (hr : UnSame b P.c99 op (binary32.toReal x)) :
    ∃ r s, op.f (b.lane P) x = .ok r ∧ op.f (Build32.scalar P) x = .ok s ∧ Same binary32 r s := by
  have hN : Num binary32 x := binary32.isFinite_not_nan hx
  cases op with
  | abs => exact ⟨_, _, rfl, rfl, .inl (lane_abs32 b P x)⟩
  | sgn =>
    refine ⟨_, _, rfl, rfl, ?_⟩
    obtain ⟨h1, h2, h3⟩ := C39_sign_float b P x hN
    rcases lt_trichotomy (binary32.toEReal x) 0 with h | h | h
    · rw [(h2 h).1, (h2 h).2]; exact .inl rfl
    · rw [(h3 h).1, (h3 h).2]
      split
      · exact .inl rfl
      · exact .inr ⟨binary32.key_eq_zero.mp ((binary32.key_zero_iff hN).mpr h), by decide⟩
    · rw [(h1 h).1, (h1 h).2]; exact .inl rfl
  | square =>
    refine ⟨_, _, rfl, rfl, .inl ?_⟩
    exact sq_same b hr P x
  | cube =>
    refine ⟨_, _, rfl, rfl, .inl ?_⟩
    have e := mul_comm_not_nan binary32 hN (isNaN_mul_self binary32 hx)
    have hr : multiplies b = true := hr
    cases b <;> first | rfl | exact e | exact absurd hr (by decide)
  | round => exact ⟨_, _, rfl, rfl, .inl (C42_round_partial b P hr.1 x hx hr.2.1 hr.2.2)⟩
  | frac => exact ⟨_, _, rfl, rfl, .inl (C58_frac_partial b P x hx hr).1⟩
  | floor => exact ⟨_, _, rfl, rfl, .inl (C41_floor_partial b P x hx hr).2.2.2⟩
  | ceil =>
    obtain ⟨f, v, -⟩ := C41_ceil_partial b P x hx hr
    obtain ⟨f', v', -⟩ := C41_ceil_partial .generic P x hx (.inl rfl)
    exact ⟨_, _, rfl, rfl, same_of_real binary32 f f' (v.trans v'.symm)⟩
  | trunc =>
    obtain ⟨r, e, f, v⟩ := C57_simd_partial b hr.1 P x hx (.inr hr.2)
    obtain ⟨r', e', f', v'⟩ := C57_simd_partial .generic (by decide) P x hx (.inr hr.2)
    exact ⟨r, r', e, e', same_of_real binary32 f f' (v.trans v'.symm)⟩
  | undenormalize => exact ⟨_, _, rfl, rfl, .inl (C40_undenormalize_float b hr P x).2.symm⟩
  | reciprocal => cases hr; exact ⟨_, _, rfl, rfl, .inl rfl⟩
  | signedSqrt => exact ⟨_, _, rfl, rfl, .inl (C43_signed_sqrt_float b hr P x hN).1⟩
  | softclip => exact ⟨_, _, rfl, rfl, .inl (C48_softclip_float b P x)⟩
  | sin => exact ⟨_, _, rfl, rfl, .inl (congrFun (lane_math32 b hr P).sin x)⟩
  | cos => exact ⟨_, _, rfl, rfl, .inl (congrFun (lane_math32 b hr P).cos x)⟩
  | tan => exact ⟨_, _, rfl, rfl, .inl (congrFun (lane_math32 b hr P).tan x)⟩
  | asin => exact ⟨_, _, rfl, rfl, .inl (congrFun (lane_math32 b hr P).asin x)⟩
  | acos => exact ⟨_, _, rfl, rfl, .inl (congrFun (lane_math32 b hr P).acos x)⟩
  | atan => exact ⟨_, _, rfl, rfl, .inl (congrFun (lane_math32 b hr P).atan x)⟩
  | tanh => exact ⟨_, _, rfl, rfl, .inl (congrFun (lane_math32 b hr P).tanh x)⟩
  | log => exact ⟨_, _, rfl, rfl, .inl (congrFun (lane_math32 b hr P).log x)⟩
  | log2 => exact ⟨_, _, rfl, rfl, .inl (congrFun (lane_math32 b hr P).log2 x)⟩
  | log10 => exact ⟨_, _, rfl, rfl, .inl (congrFun (lane_math32 b hr P).log10 x)⟩
  | exp => exact ⟨_, _, rfl, rfl, .inl (congrFun (lane_math32 b hr P).exp x)⟩
  | midi2freq =>
    refine ⟨_, _, rfl, rfl, .inl ?_⟩
    unfold Functor.midi2freq
    rw [lane_mul_s b hr.2, lane_sub_s, lane_lit_s, (lane_math32 b hr.1 P).pow]
  | freq2midi =>
    refine ⟨_, _, rfl, rfl, .inl ?_⟩
    unfold Functor.freq2midi Functor.absLog2
    rw [lane_mul_s b hr.2, lane_add_s, lane_lit_s, lane_abs_s, (lane_math32 b hr.1 P).log2]
  | midi2ratio =>
    refine ⟨_, _, rfl, rfl, .inl ?_⟩
    unfold Functor.midi2ratio
    rw [lane_mul_s b hr.2, lane_lit_s, (lane_math32 b hr.1 P).pow]
  | ratio2midi =>
    refine ⟨_, _, rfl, rfl, .inl ?_⟩
    unfold Functor.ratio2midi
    rw [lane_mul_s b hr.2, lane_lit_s, (lane_math32 b hr.1 P).log2]
  | oct2freq =>
    refine ⟨_, _, rfl, rfl, .inl ?_⟩
    unfold Functor.oct2freq
    rw [lane_mul_s b hr.2, lane_sub_s, lane_lit_s, (lane_math32 b hr.1 P).pow]
  | freq2oct =>
    refine ⟨_, _, rfl, rfl, .inl ?_⟩
    unfold Functor.freq2oct Functor.absLog2
    rw [lane_mul_s b hr.2, lane_add_s, lane_lit_s, lane_abs_s, (lane_math32 b hr.1 P).log2]
  | amp2db =>
    refine ⟨_, _, rfl, rfl, .inl ?_⟩
    unfold Functor.amp2db
    rw [lane_mul_s b hr.2, lane_lit_s, lane_abs_s, (lane_math32 b hr.1 P).log10]
  | db2amp =>
    refine ⟨_, _, rfl, rfl, .inl ?_⟩
    unfold Functor.db2amp
    rw [lane_mul_s b hr.2, lane_lit_s, (lane_math32 b hr.1 P).pow]

theorem rel_same32 (b : Build32) (P : Platform 32) (r : Rel) {x y : BitVec 32} (hx : Num binary32 x) (hy : Num binary32 y) :
    r.op.f (b.lane P) x y = r.op.f (Build32.scalar P) x y :=
  (rel_lane32 b P r x y (.inr ⟨hx, hy⟩)).trans (rel_lane32 .generic P r x y (.inl rfl)).symm

/-- One element of a binary function of `float`. -/
theorem C78_binary_float (b : Build32) (P : Platform 32) (op : BinOp) (x y : BitVec 32) (hx : IsFin binary32 x)
    (hy : IsFin binary32 y) (hr : BinSame b op) :
    Same binary32 (op.f (b.lane P) x y) (op.f (Build32.scalar P) x y) := by
  have nx : Num binary32 x := binary32.isFinite_not_nan hx
  have ny : Num binary32 y := binary32.isFinite_not_nan hy
  cases op with
  | plus => exact .inl (congrFun (congrFun (lane_add32 b P) x) y)
  | sum => exact .inl (congrFun (congrFun (lane_add32 b P) x) y)
  | minus => exact .inl (congrFun (congrFun (lane_sub32' b P) x) y)
  | times => exact .inl (congrFun (congrFun (lane_mul32' b hr P) x) y)
  | over =>
    have hr : divides b = true := hr
    refine .inl (C59_exact b ?_ P y x)
    constructor <;> (rintro rfl; exact absurd hr (by decide))
  | min =>
    have h1 := isMin_lane32 b P
    have h2 : IsMin binary32 (Build32.scalar P).min_ := isMin_stdMin _
    exact same_of_value _ (h1.num nx ny) (h2.num nx ny) ((h1.val _ _ nx ny).trans (h2.val _ _ nx ny).symm)
  | max =>
    have h1 := isMax_lane32 b P
    have h2 : IsMax binary32 (Build32.scalar P).max_ := isMax_stdMax _
    exact same_of_value _ (h1.num nx ny) (h2.num nx ny) ((h1.val _ _ nx ny).trans (h2.val _ _ nx ny).symm)
  | less => exact .inl (rel_same32 b P .less nx ny)
  | lessEqual => exact .inl (rel_same32 b P .lessEqual nx ny)
  | greater => exact .inl (rel_same32 b P .greater nx ny)
  | greaterEqual => exact .inl (rel_same32 b P .greaterEqual nx ny)
  | equal => exact .inl (rel_same32 b P .equal nx ny)
  | notequal => exact .inl (rel_same32 b P .notEqual nx ny)
  | clip2 =>
    obtain ⟨n1, v1⟩ := clip2_spec binary32 (isMax_lane32 b P) (isMin_lane32 b P) (lane_zero32' b P) (lane_sub32' b P) nx ny
    obtain ⟨n2, v2⟩ := clip2_spec (A := Build32.scalar P) binary32 (isMax_stdMax _) (isMin_stdMin _) rfl rfl nx ny
    exact same_of_value _ n1 n2 (v1.trans v2.symm)
  | pow => exact .inl (congrFun (congrFun (lane_math32 b hr P).pow x) y)
  | spow => exact .inl (congrFun (congrFun (lane_math32 b hr P).signedPow x) y)

/-- One element of a ternary function of `float`. -/
theorem C78_ternary_float (b : Build32) (P : Platform 32) (op : TerOp) (x y z : BitVec 32) (hx : IsFin binary32 x)
    (hy : IsFin binary32 y) (hz : IsFin binary32 z) (hr : TerSame b op) :
    Same binary32 (op.f (b.lane P) x y z) (op.f (Build32.scalar P) x y z) := by
  have nx : Num binary32 x := binary32.isFinite_not_nan hx
  have ny : Num binary32 y := binary32.isFinite_not_nan hy
  have nz : Num binary32 z := binary32.isFinite_not_nan hz
  cases op with
  | clip =>
    obtain ⟨n1, v1⟩ := clip_spec binary32 (isMax_lane32 b P) (isMin_lane32 b P) nx ny nz
    obtain ⟨n2, v2⟩ := clip_spec (A := Build32.scalar P) binary32 (isMax_stdMax _) (isMin_stdMin _) nx ny nz
    exact same_of_value _ n1 n2 (v1.trans v2.symm)
  | muladd =>
    have hr : unfused b = true := hr
    refine .inl ?_
    change (b.lane P).madd x y z = (Build32.scalar P).madd x y z
    cases b with
    | generic => rfl
    | sse s f =>
      have hf : f.fma = false := by simpa [unfused] using hr
      rw [lane_madd_sse, hf]; rfl
    | avx f =>
      have hf : f = false := by simpa [unfused] using hr
      rw [lane_madd_avx, hf]; rfl
    | neon =>
      have e1 : (Build32.neon.lane P).madd x y z = binary32.add z (binary32.mul y x) := rfl
      have e2 : (Build32.scalar P).madd x y z = binary32.add (binary32.mul x y) z := rfl
      rw [e1, e2, mul_comm_not_nan binary32 ny nx,
        add_comm_not_nan binary32 (isNaN_mul_fin binary32 hx hy) nz (binary32.isFinite_not_inf hz)]
    | altivec => exact absurd hr (by decide)
  | ampmod =>
    refine .inl ?_
    change Functor.ampmod (b.lane P) x y z = Functor.ampmod (Build32.scalar P) x y z
    unfold Functor.ampmod
    rw [lane_mul_s b hr, lane_add_s, lane_one_s]
  | sum =>
    refine .inl ?_
    change Functor.sum3 (b.lane P) x y z = Functor.sum3 (Build32.scalar P) x y z
    unfold Functor.sum3
    rw [lane_add_s]

/-- One element of a function of four `float`s. -/
theorem C78_quad_float (b : Build32) (P : Platform 32) (op : QuadOp) (x y z u : BitVec 32) (hr : QuadSame b op) :
    op.f (b.lane P) x y z u = op.f (Build32.scalar P) x y z u := by
  cases op with
  | mix =>
    change Functor.mix2 (b.lane P) x y z u = Functor.mix2 (Build32.scalar P) x y z u
    unfold Functor.mix2
    rw [lane_mul_s b hr, lane_add_s]
  | sum =>
    change Functor.sum4 (b.lane P) x y z u = Functor.sum4 (Build32.scalar P) x y z u
    unfold Functor.sum4
    rw [lane_add_s]

/-! ## `double` -/

theorem lane64_one (b : Build64) (P : Platform 64) : (b.lane P).one = (Build64.scalar P).one := by
  cases b with
  | generic => rfl
  | _ => exact (show binary64.ofRat 1 = binary64.ofInt 1 by decide +kernel)

/-- Fields in which the lanes and the scalar functions are the same function. -/
structure SameMath64 (L S : Arith (BitVec 64)) : Prop where
  sin : L.sin = S.sin
  cos : L.cos = S.cos
  tan : L.tan = S.tan
  asin : L.asin = S.asin
  acos : L.acos = S.acos
  atan : L.atan = S.atan
  tanh : L.tanh = S.tanh
  log : L.log = S.log
  log2 : L.log2 = S.log2
  log10 : L.log10 = S.log10
  exp : L.exp = S.exp
  pow : L.pow = S.pow
  signedPow : L.signedPow = S.signedPow
  mul : L.mul = S.mul
  add : L.add = S.add
  sub : L.sub = S.sub
  div : L.div = S.div
  lit : L.lit = S.lit
  square : L.square = S.square
  reciprocal : L.reciprocal = S.reciprocal

theorem dbl_square (f : Dbl.Flags) (hw : Hw 64) (S : Arith (BitVec 64)) :
    (Dbl.arith f hw S).square = fun x => hw.mul x x := rfl

theorem dbl_reciprocal (f : Dbl.Flags) (hw : Hw 64) (S : Arith (BitVec 64)) :
    (Dbl.arith f hw S).reciprocal = S.reciprocal := rfl

theorem dbl_math (f : Dbl.Flags) (P : Platform 64) :
    SameMath64 (Dbl.arith f (P.x86 binary64) (Build64.scalar P)) (Build64.scalar P) := by
  have h : (Build64.scalar P).square = fun x => binary64.mul x x := rfl
  have h' : (P.x86 binary64).mul = binary64.mul := rfl
  refine ⟨rfl, rfl, rfl, rfl, rfl, rfl, rfl, rfl, rfl, rfl, rfl, rfl, rfl, rfl, rfl, rfl, rfl, rfl, ?_, dbl_reciprocal _ _ _⟩
  rw [h, dbl_square, h']

theorem lane_math64 (b : Build64) (P : Platform 64) : SameMath64 (b.lane P) (Build64.scalar P) := by
  cases b with
  | generic => constructor <;> rfl
  | sse2 s f => exact dbl_math ⟨false, s, f⟩ P
  | avx f => exact dbl_math ⟨true, true, f⟩ P

theorem lane64_abs (b : Build64) (P : Platform 64) : (b.lane P).abs = (Build64.scalar P).abs :=
  funext fun x => (C33_abs_double b P x).2

/-- One element of a unary function of `double`. -/
theorem C78_unary_double (b : Build64) (P : Platform 64) (op : UnOp) (x : BitVec 64) (hx : IsFin binary64 x)
    (hr : UnSame64 op (binary64.toReal x)) :
    ∃ r s, op.f (b.lane P) x = .ok r ∧ op.f (Build64.scalar P) x = .ok s ∧ Same binary64 r s := by
  have hN : Num binary64 x := binary64.isFinite_not_nan hx
  have M := lane_math64 b P
  cases op with
  | abs => exact ⟨_, _, rfl, rfl, .inl (congrFun (lane64_abs b P) x)⟩
  | sgn =>
    refine ⟨_, _, rfl, rfl, ?_⟩
    obtain ⟨h1, h2, h3⟩ := C39_sign_double b P x hN
    rcases lt_trichotomy (binary64.toEReal x) 0 with h | h | h
    · rw [(h2 h).1, (h2 h).2]; exact .inl rfl
    · rw [(h3 h).1, (h3 h).2]
      split
      · exact .inl rfl
      · exact .inr ⟨binary64.key_eq_zero.mp ((binary64.key_zero_iff hN).mpr h), by decide⟩
    · rw [(h1 h).1, (h1 h).2]; exact .inl rfl
  | square => exact ⟨_, _, rfl, rfl, .inl (congrFun M.square x)⟩
  | cube =>
    refine ⟨_, _, rfl, rfl, .inl ?_⟩
    have e := mul_comm_not_nan binary64 hN (isNaN_mul_self binary64 hx)
    cases b with
    | generic => rfl
    | _ => exact e
  | round => exact ⟨_, _, rfl, rfl, .inl (C42_round_double_partial b P x hx hr)⟩
  | frac => exact ⟨_, _, rfl, rfl, .inl (C58_frac_double_partial b P x hx).1⟩
  | floor => exact ⟨_, _, rfl, rfl, .inl (C41_double b P x hx).1⟩
  | ceil => exact ⟨_, _, rfl, rfl, .inl (C41_double b P x hx).2.1⟩
  | trunc =>
    obtain ⟨r, e, f, v⟩ := C57_simd_double b P x hx hr
    obtain ⟨r', e', f', v'⟩ := C57_simd_double .generic P x hx hr
    exact ⟨r, r', e, e', same_of_real binary64 f f' (v.trans v'.symm)⟩
  | undenormalize => exact ⟨_, _, rfl, rfl, .inl (C40_undenormalize_double b P x).2.symm⟩
  | reciprocal => exact ⟨_, _, rfl, rfl, .inl (congrFun M.reciprocal x)⟩
  | signedSqrt => exact ⟨_, _, rfl, rfl, .inl (C43_signed_sqrt_double b P x hN).1⟩
  | softclip => exact ⟨_, _, rfl, rfl, .inl (C48_softclip_double b P x)⟩
  | sin => exact ⟨_, _, rfl, rfl, .inl (congrFun M.sin x)⟩
  | cos => exact ⟨_, _, rfl, rfl, .inl (congrFun M.cos x)⟩
  | tan => exact ⟨_, _, rfl, rfl, .inl (congrFun M.tan x)⟩
  | asin => exact ⟨_, _, rfl, rfl, .inl (congrFun M.asin x)⟩
  | acos => exact ⟨_, _, rfl, rfl, .inl (congrFun M.acos x)⟩
  | atan => exact ⟨_, _, rfl, rfl, .inl (congrFun M.atan x)⟩
  | tanh => exact ⟨_, _, rfl, rfl, .inl (congrFun M.tanh x)⟩
  | log => exact ⟨_, _, rfl, rfl, .inl (congrFun M.log x)⟩
  | log2 => exact ⟨_, _, rfl, rfl, .inl (congrFun M.log2 x)⟩
  | log10 => exact ⟨_, _, rfl, rfl, .inl (congrFun M.log10 x)⟩
  | exp => exact ⟨_, _, rfl, rfl, .inl (congrFun M.exp x)⟩
  | midi2freq =>
    refine ⟨_, _, rfl, rfl, .inl ?_⟩
    unfold Functor.midi2freq
    rw [M.mul, M.sub, M.lit, M.pow]
  | freq2midi =>
    refine ⟨_, _, rfl, rfl, .inl ?_⟩
    unfold Functor.freq2midi Functor.absLog2
    rw [M.mul, M.add, M.lit, lane64_abs, M.log2]
  | midi2ratio =>
    refine ⟨_, _, rfl, rfl, .inl ?_⟩
    unfold Functor.midi2ratio
    rw [M.mul, M.lit, M.pow]
  | ratio2midi =>
    refine ⟨_, _, rfl, rfl, .inl ?_⟩
    unfold Functor.ratio2midi
    rw [M.mul, M.lit, M.log2]
  | oct2freq =>
    refine ⟨_, _, rfl, rfl, .inl ?_⟩
    unfold Functor.oct2freq
    rw [M.mul, M.sub, M.lit, M.pow]
  | freq2oct =>
    refine ⟨_, _, rfl, rfl, .inl ?_⟩
    unfold Functor.freq2oct Functor.absLog2
    rw [M.mul, M.add, M.lit, lane64_abs, M.log2]
  | amp2db =>
    refine ⟨_, _, rfl, rfl, .inl ?_⟩
    unfold Functor.amp2db
    rw [M.mul, M.lit, lane64_abs, M.log10]
  | db2amp =>
    refine ⟨_, _, rfl, rfl, .inl ?_⟩
    unfold Functor.db2amp
    rw [M.mul, M.lit, M.pow]

theorem rel_same64 (b : Build64) (P : Platform 64) (r : Rel) {x y : BitVec 64} (hx : Num binary64 x) (hy : Num binary64 y) :
    r.op.f (b.lane P) x y = r.op.f (Build64.scalar P) x y :=
  (rel_lane64 b P r x y (.inr ⟨hx, hy⟩)).trans (rel_lane64 .generic P r x y (.inl rfl)).symm

/-- One element of a binary function of `double`: always the same number. -/
theorem C78_binary_double (b : Build64) (P : Platform 64) (op : BinOp) (x y : BitVec 64) (hx : IsFin binary64 x)
    (hy : IsFin binary64 y) : Same binary64 (op.f (b.lane P) x y) (op.f (Build64.scalar P) x y) := by
  have nx : Num binary64 x := binary64.isFinite_not_nan hx
  have ny : Num binary64 y := binary64.isFinite_not_nan hy
  have M := lane_math64 b P
  cases op with
  | plus => exact .inl (congrFun (congrFun M.add x) y)
  | sum => exact .inl (congrFun (congrFun M.add x) y)
  | minus => exact .inl (congrFun (congrFun M.sub x) y)
  | times => exact .inl (congrFun (congrFun M.mul x) y)
  | over => exact .inl (congrFun (congrFun M.div x) y)
  | pow => exact .inl (congrFun (congrFun M.pow x) y)
  | spow => exact .inl (congrFun (congrFun M.signedPow x) y)
  | min =>
    have h1 := isMin_lane64 b P
    have h2 : IsMin binary64 (Build64.scalar P).min_ := isMin_stdMin _
    exact same_of_value _ (h1.num nx ny) (h2.num nx ny) ((h1.val _ _ nx ny).trans (h2.val _ _ nx ny).symm)
  | max =>
    have h1 := isMax_lane64 b P
    have h2 : IsMax binary64 (Build64.scalar P).max_ := isMax_stdMax _
    exact same_of_value _ (h1.num nx ny) (h2.num nx ny) ((h1.val _ _ nx ny).trans (h2.val _ _ nx ny).symm)
  | less => exact .inl (rel_same64 b P .less nx ny)
  | lessEqual => exact .inl (rel_same64 b P .lessEqual nx ny)
  | greater => exact .inl (rel_same64 b P .greater nx ny)
  | greaterEqual => exact .inl (rel_same64 b P .greaterEqual nx ny)
  | equal => exact .inl (rel_same64 b P .equal nx ny)
  | notequal => exact .inl (rel_same64 b P .notEqual nx ny)
  | clip2 =>
    obtain ⟨n1, v1⟩ := clip2_spec binary64 (isMax_lane64 b P) (isMin_lane64 b P) (lane_zero64 b P) (lane_sub64 b P) nx ny
    obtain ⟨n2, v2⟩ := clip2_spec (A := Build64.scalar P) binary64 (isMax_stdMax _) (isMin_stdMin _) rfl rfl nx ny
    exact same_of_value _ n1 n2 (v1.trans v2.symm)

theorem dbl_madd (f : Dbl.Flags) (hf : f.fma = false) (P : Platform 64) (x y z : BitVec 64) :
    (Dbl.arith f (P.x86 binary64) (Build64.scalar P)).madd x y z = (Build64.scalar P).madd x y z := by
  have e : (Dbl.arith f (P.x86 binary64) (Build64.scalar P)).madd x y z =
    if f.fma then binary64.fma x y z else binary64.add (binary64.mul x y) z := rfl
  rw [e, hf]; rfl

/-- One element of a ternary function of `double`. -/
theorem C78_ternary_double (b : Build64) (P : Platform 64) (op : TerOp) (x y z : BitVec 64) (hx : IsFin binary64 x)
    (hy : IsFin binary64 y) (hz : IsFin binary64 z) (hr : TerSame64 b op) :
    Same binary64 (op.f (b.lane P) x y z) (op.f (Build64.scalar P) x y z) := by
  have nx : Num binary64 x := binary64.isFinite_not_nan hx
  have ny : Num binary64 y := binary64.isFinite_not_nan hy
  have nz : Num binary64 z := binary64.isFinite_not_nan hz
  have M := lane_math64 b P
  cases op with
  | clip =>
    obtain ⟨n1, v1⟩ := clip_spec binary64 (isMax_lane64 b P) (isMin_lane64 b P) nx ny nz
    obtain ⟨n2, v2⟩ := clip_spec (A := Build64.scalar P) binary64 (isMax_stdMax _) (isMin_stdMin _) nx ny nz
    exact same_of_value _ n1 n2 (v1.trans v2.symm)
  | muladd =>
    refine .inl ?_
    cases b with
    | generic => rfl
    | sse2 s f => have hf : f = false := hr; exact dbl_madd ⟨false, s, f⟩ hf P x y z
    | avx f => have hf : f = false := hr; exact dbl_madd ⟨true, true, f⟩ hf P x y z
  | ampmod =>
    refine .inl ?_
    change Functor.ampmod (b.lane P) x y z = Functor.ampmod (Build64.scalar P) x y z
    unfold Functor.ampmod
    rw [M.mul, M.add, lane64_one]
  | sum =>
    refine .inl ?_
    change Functor.sum3 (b.lane P) x y z = Functor.sum3 (Build64.scalar P) x y z
    unfold Functor.sum3
    rw [M.add]

/-- One element of a function of four `double`s: always the same pattern. -/
theorem C78_quad_double (b : Build64) (P : Platform 64) (op : QuadOp) (x y z u : BitVec 64) :
    op.f (b.lane P) x y z u = op.f (Build64.scalar P) x y z u := by
  have M := lane_math64 b P
  cases op with
  | mix =>
    change Functor.mix2 (b.lane P) x y z u = Functor.mix2 (Build64.scalar P) x y z u
    unfold Functor.mix2
    rw [M.mul, M.add]
  | sum =>
    change Functor.sum4 (b.lane P) x y z u = Functor.sum4 (Build64.scalar P) x y z u
    unfold Functor.sum4
    rw [M.add]

/-! ## Whole calls -/

section calls
variable {w : Nat} (F : Fmt w)

theorem same_calls_unary (t : Target) (E : Env (BitVec w)) (op : UnOp) {m : Mem (BitVec w)} {out inp : Nat} {n : BitVec 32}
    {x : Nat → BitVec w} (hn : 0 < n.toNat) (hmul : t.perLine ∣ n.toNat) (hoal : t.align ∣ out) (hial : t.align ∣ inp)
    (hout : Allocated m out n.toNat) (hin : Holds m inp n.toNat x) (hs : SafePlacement out inp n.toNat)
    (h : ∀ i, i < n.toNat → ∃ r s, op.f E.L (x i) = .ok r ∧ op.f E.S (x i) = .ok s ∧ Same F r s) :
    ∃ y z : Nat → BitVec w, op.vecSimd (t.vec E) out inp n m = .ok ((), overwrite m out n.toNat y) ∧
      op.vec E.S out inp n m = .ok ((), overwrite m out n.toNat z) ∧ ∀ i, i < n.toNat → Same F (y i) (z i) := by
  classical
  choose y z h1 h2 h3 using h
  refine ⟨fun i => if h : i < n.toNat then y i h else 0, fun i => if h : i < n.toNat then z i h else 0, ?_, ?_, ?_⟩
  · refine C01_unary_simd t E op hn hmul hoal hial hout hin hs fun i h => ?_
    rw [dif_pos h]; exact h1 i h
  · refine C01_unary_scalar E.S op hn hout hin hs fun i h => ?_
    rw [dif_pos h]; exact h2 i h
  · intro i h; simp only [dif_pos h]; exact h3 i h

end calls

/-- `f_vec_simd(out, in, n)` and `f_vec(out, in, n)` for `float`. -/
theorem C78_unary_calls_float (b : Build32) (P : Platform 32) (op : UnOp) {m : Mem (BitVec 32)} {out inp : Nat}
    {n : BitVec 32} {x : Nat → BitVec 32} (hn : 0 < n.toNat) (hmul : b.target.perLine ∣ n.toNat)
    (hoal : b.target.align ∣ out) (hial : b.target.align ∣ inp) (hout : Allocated m out n.toNat)
    (hin : Holds m inp n.toNat x) (hs : SafePlacement out inp n.toNat)
    (hx : ∀ i, i < n.toNat → IsFin binary32 (x i) ∧ UnSame b P.c99 op (binary32.toReal (x i))) :
    ∃ y z : Nat → BitVec 32, op.vecSimd (b.vec P) out inp n m = .ok ((), overwrite m out n.toNat y) ∧
      op.vec (Build32.scalar P) out inp n m = .ok ((), overwrite m out n.toNat z) ∧
      ∀ i, i < n.toNat → Same binary32 (y i) (z i) :=
  same_calls_unary binary32 b.target (b.env P) op hn hmul hoal hial hout hin hs fun i h =>
    C78_unary_float b P op (x i) (hx i h).1 (hx i h).2

/-- `f_vec_simd(out, in, n)` and `f_vec(out, in, n)` for `double`. -/
theorem C78_unary_calls_double (b : Build64) (P : Platform 64) (op : UnOp) {m : Mem (BitVec 64)} {out inp : Nat}
    {n : BitVec 32} {x : Nat → BitVec 64} (hn : 0 < n.toNat) (hmul : b.target.perLine ∣ n.toNat)
    (hoal : b.target.align ∣ out) (hial : b.target.align ∣ inp) (hout : Allocated m out n.toNat)
    (hin : Holds m inp n.toNat x) (hs : SafePlacement out inp n.toNat)
    (hx : ∀ i, i < n.toNat → IsFin binary64 (x i) ∧ UnSame64 op (binary64.toReal (x i))) :
    ∃ y z : Nat → BitVec 64, op.vecSimd (b.vec P) out inp n m = .ok ((), overwrite m out n.toNat y) ∧
      op.vec (Build64.scalar P) out inp n m = .ok ((), overwrite m out n.toNat z) ∧
      ∀ i, i < n.toNat → Same binary64 (y i) (z i) :=
  same_calls_unary binary64 b.target (b.env P) op hn hmul hoal hial hout hin hs fun i h =>
    C78_unary_double b P op (x i) (hx i h).1 (hx i h).2

/-- `f_vec_simd` and `f_vec` with 2 arguments for `float`: pointers and numbers. -/
theorem C78_binary_calls_float (bd : Build32) (P : Platform 32) (op : BinOp) {m : Mem (BitVec 32)} {out : Nat}
    {a b : SArg (BitVec 32)} {n : BitVec 32} {x y : Nat → BitVec 32} (hn : 0 < n.toNat)
    (hmul : bd.target.perLine ∣ n.toNat) (hoal : bd.target.align ∣ out) (hout : Allocated m out n.toNat)
    (ha : SimdSupplies (bd.vec P) bd.target.align m out n.toNat a x) (ha' : ScalarSupplies (Build32.scalar P) m out n.toNat a x)
    (hb : SimdSupplies (bd.vec P) bd.target.align m out n.toNat b y) (hb' : ScalarSupplies (Build32.scalar P) m out n.toNat b y)
    (hx : ∀ i, i < n.toNat → IsFin binary32 (x i) ∧ IsFin binary32 (y i)) (hr : BinSame bd op) :
    ∃ r s : Nat → BitVec 32, op.vecSimd (bd.vec P) out a b n m = .ok ((), overwrite m out n.toNat r) ∧
      op.vec (Build32.scalar P) out a b n m = .ok ((), overwrite m out n.toNat s) ∧
      ∀ i, i < n.toNat → Same binary32 (r i) (s i) :=
  ⟨_, _, C02_binary_simd bd.target (bd.env P) op hn hmul hoal hout ha hb,
    C02_binary_scalar (Build32.scalar P) op hn hout ha' hb', fun i h => C78_binary_float bd P op (x i) (y i) (hx i h).1 (hx i h).2 hr⟩

/-- `f_vec_simd` and `f_vec` with 3 arguments for `float`: pointers and numbers. -/
theorem C78_ternary_calls_float (bd : Build32) (P : Platform 32) (op : TerOp) {m : Mem (BitVec 32)} {out : Nat}
    {a b c : SArg (BitVec 32)} {n : BitVec 32} {x y z : Nat → BitVec 32} (hn : 0 < n.toNat)
    (hmul : bd.target.perLine ∣ n.toNat) (hoal : bd.target.align ∣ out) (hout : Allocated m out n.toNat)
    (ha : SimdSupplies (bd.vec P) bd.target.align m out n.toNat a x) (ha' : ScalarSupplies (Build32.scalar P) m out n.toNat a x)
    (hb : SimdSupplies (bd.vec P) bd.target.align m out n.toNat b y) (hb' : ScalarSupplies (Build32.scalar P) m out n.toNat b y)
    (hc : SimdSupplies (bd.vec P) bd.target.align m out n.toNat c z) (hc' : ScalarSupplies (Build32.scalar P) m out n.toNat c z)
    (hx : ∀ i, i < n.toNat → IsFin binary32 (x i) ∧ IsFin binary32 (y i) ∧ IsFin binary32 (z i)) (hr : TerSame bd op) :
    ∃ r s : Nat → BitVec 32, op.vecSimd (bd.vec P) out a b c n m = .ok ((), overwrite m out n.toNat r) ∧
      op.vec (Build32.scalar P) out a b c n m = .ok ((), overwrite m out n.toNat s) ∧
      ∀ i, i < n.toNat → Same binary32 (r i) (s i) :=
  ⟨_, _, C03_ternary_simd bd.target (bd.env P) op hn hmul hoal hout ha hb hc,
    C03_ternary_scalar (Build32.scalar P) op hn hout ha' hb' hc', fun i h => C78_ternary_float bd P op (x i) (y i) (z i) (hx i h).1 (hx i h).2.1 (hx i h).2.2 hr⟩

/-- `f_vec_simd` and `f_vec` with 4 arguments for `float`: pointers and numbers. -/
theorem C78_quad_calls_float (bd : Build32) (P : Platform 32) (op : QuadOp) {m : Mem (BitVec 32)} {out : Nat}
    {a b c d : SArg (BitVec 32)} {n : BitVec 32} {x y z u : Nat → BitVec 32} (hn : 0 < n.toNat)
    (hmul : bd.target.perLine ∣ n.toNat) (hoal : bd.target.align ∣ out) (hout : Allocated m out n.toNat)
    (ha : SimdSupplies (bd.vec P) bd.target.align m out n.toNat a x) (ha' : ScalarSupplies (Build32.scalar P) m out n.toNat a x)
    (hb : SimdSupplies (bd.vec P) bd.target.align m out n.toNat b y) (hb' : ScalarSupplies (Build32.scalar P) m out n.toNat b y)
    (hc : SimdSupplies (bd.vec P) bd.target.align m out n.toNat c z) (hc' : ScalarSupplies (Build32.scalar P) m out n.toNat c z)
    (hd : SimdSupplies (bd.vec P) bd.target.align m out n.toNat d u) (hd' : ScalarSupplies (Build32.scalar P) m out n.toNat d u)
     (hr : QuadSame bd op) :
    ∃ r s : Nat → BitVec 32, op.vecSimd (bd.vec P) out a b c d n m = .ok ((), overwrite m out n.toNat r) ∧
      op.vec (Build32.scalar P) out a b c d n m = .ok ((), overwrite m out n.toNat s) ∧
      ∀ i, i < n.toNat → Same binary32 (r i) (s i) :=
  ⟨_, _, C04_quad_simd bd.target (bd.env P) op hn hmul hoal hout ha hb hc hd,
    C04_quad_scalar (Build32.scalar P) op hn hout ha' hb' hc' hd', fun i _ => .inl (C78_quad_float bd P op (x i) (y i) (z i) (u i) hr)⟩

/-- `f_vec_simd` and `f_vec` with 2 arguments for `double`: pointers and numbers. -/
theorem C78_binary_calls_double (bd : Build64) (P : Platform 64) (op : BinOp) {m : Mem (BitVec 64)} {out : Nat}
    {a b : SArg (BitVec 64)} {n : BitVec 32} {x y : Nat → BitVec 64} (hn : 0 < n.toNat)
    (hmul : bd.target.perLine ∣ n.toNat) (hoal : bd.target.align ∣ out) (hout : Allocated m out n.toNat)
    (ha : SimdSupplies (bd.vec P) bd.target.align m out n.toNat a x) (ha' : ScalarSupplies (Build64.scalar P) m out n.toNat a x)
    (hb : SimdSupplies (bd.vec P) bd.target.align m out n.toNat b y) (hb' : ScalarSupplies (Build64.scalar P) m out n.toNat b y)
    (hx : ∀ i, i < n.toNat → IsFin binary64 (x i) ∧ IsFin binary64 (y i))  :
    ∃ r s : Nat → BitVec 64, op.vecSimd (bd.vec P) out a b n m = .ok ((), overwrite m out n.toNat r) ∧
      op.vec (Build64.scalar P) out a b n m = .ok ((), overwrite m out n.toNat s) ∧
      ∀ i, i < n.toNat → Same binary64 (r i) (s i) :=
  ⟨_, _, C02_binary_simd bd.target (bd.env P) op hn hmul hoal hout ha hb,
    C02_binary_scalar (Build64.scalar P) op hn hout ha' hb', fun i h => C78_binary_double bd P op (x i) (y i) (hx i h).1 (hx i h).2⟩

/-- `f_vec_simd` and `f_vec` with 3 arguments for `double`: pointers and numbers. -/
theorem C78_ternary_calls_double (bd : Build64) (P : Platform 64) (op : TerOp) {m : Mem (BitVec 64)} {out : Nat}
    {a b c : SArg (BitVec 64)} {n : BitVec 32} {x y z : Nat → BitVec 64} (hn : 0 < n.toNat)
    (hmul : bd.target.perLine ∣ n.toNat) (hoal : bd.target.align ∣ out) (hout : Allocated m out n.toNat)
    (ha : SimdSupplies (bd.vec P) bd.target.align m out n.toNat a x) (ha' : ScalarSupplies (Build64.scalar P) m out n.toNat a x)
    (hb : SimdSupplies (bd.vec P) bd.target.align m out n.toNat b y) (hb' : ScalarSupplies (Build64.scalar P) m out n.toNat b y)
    (hc : SimdSupplies (bd.vec P) bd.target.align m out n.toNat c z) (hc' : ScalarSupplies (Build64.scalar P) m out n.toNat c z)
    (hx : ∀ i, i < n.toNat → IsFin binary64 (x i) ∧ IsFin binary64 (y i) ∧ IsFin binary64 (z i)) (hr : TerSame64 bd op) :
    ∃ r s : Nat → BitVec 64, op.vecSimd (bd.vec P) out a b c n m = .ok ((), overwrite m out n.toNat r) ∧
      op.vec (Build64.scalar P) out a b c n m = .ok ((), overwrite m out n.toNat s) ∧
      ∀ i, i < n.toNat → Same binary64 (r i) (s i) :=
  ⟨_, _, C03_ternary_simd bd.target (bd.env P) op hn hmul hoal hout ha hb hc,
    C03_ternary_scalar (Build64.scalar P) op hn hout ha' hb' hc', fun i h => C78_ternary_double bd P op (x i) (y i) (z i) (hx i h).1 (hx i h).2.1 (hx i h).2.2 hr⟩

/-- `f_vec_simd` and `f_vec` with 4 arguments for `double`: pointers and numbers. -/
theorem C78_quad_calls_double (bd : Build64) (P : Platform 64) (op : QuadOp) {m : Mem (BitVec 64)} {out : Nat}
    {a b c d : SArg (BitVec 64)} {n : BitVec 32} {x y z u : Nat → BitVec 64} (hn : 0 < n.toNat)
    (hmul : bd.target.perLine ∣ n.toNat) (hoal : bd.target.align ∣ out) (hout : Allocated m out n.toNat)
    (ha : SimdSupplies (bd.vec P) bd.target.align m out n.toNat a x) (ha' : ScalarSupplies (Build64.scalar P) m out n.toNat a x)
    (hb : SimdSupplies (bd.vec P) bd.target.align m out n.toNat b y) (hb' : ScalarSupplies (Build64.scalar P) m out n.toNat b y)
    (hc : SimdSupplies (bd.vec P) bd.target.align m out n.toNat c z) (hc' : ScalarSupplies (Build64.scalar P) m out n.toNat c z)
    (hd : SimdSupplies (bd.vec P) bd.target.align m out n.toNat d u) (hd' : ScalarSupplies (Build64.scalar P) m out n.toNat d u)
      :
    ∃ r s : Nat → BitVec 64, op.vecSimd (bd.vec P) out a b c d n m = .ok ((), overwrite m out n.toNat r) ∧
      op.vec (Build64.scalar P) out a b c d n m = .ok ((), overwrite m out n.toNat s) ∧
      ∀ i, i < n.toNat → Same binary64 (r i) (s i) :=
  ⟨_, _, C04_quad_simd bd.target (bd.env P) op hn hmul hoal hout ha hb hc hd,
    C04_quad_scalar (Build64.scalar P) op hn hout ha' hb' hc' hd', fun i _ => .inl (C78_quad_double bd P op (x i) (y i) (z i) (u i))⟩

/-- A pointer and a number supply the same values to both calls. -/
example {w : Nat} (I : VecImpl (BitVec w)) (A : Arith (BitVec w)) (m : Mem (BitVec w)) (out p n : Nat) (x : Nat → BitVec w)
    (c : BitVec w) (h : 8 ∣ p) (hm : Holds m p n x) (hs : SafePlacement out p n) :
    (SimdSupplies I 8 m out n (.ptr p) x ∧ ScalarSupplies A m out n (.ptr p) x) ∧
    (SimdSupplies I 8 m out n (.scalar c) (fun _ => c) ∧ ScalarSupplies A m out n (.scalar c) (fun _ => c)) :=
  ⟨⟨⟨h, hm, hs⟩, ⟨hm, hs⟩⟩, ⟨fun _ _ => rfl, fun _ _ => rfl⟩⟩

/-- Sixteen times `ceil(0.75)` on SSE without SSE4.1. -/
example (P : Platform 32) :
    ∃ y z : Nat → BitVec 32, UnOp.ceil.vecSimd ((Build32.sse false ⟨true, false, false⟩).vec P) 0 0 16#32
        (fun i => if i < 16 then some 0x3f400000#32 else none) =
      .ok ((), overwrite (fun i => if i < 16 then some 0x3f400000#32 else none) 0 16 y) ∧
      UnOp.ceil.vec (Build32.scalar P) 0 0 16#32 (fun i => if i < 16 then some 0x3f400000#32 else none) =
        .ok ((), overwrite (fun i => if i < 16 then some 0x3f400000#32 else none) 0 16 z) ∧
      ∀ i, i < 16 → Same binary32 (y i) (z i) := by
  obtain ⟨o1, o2⟩ := val32 (x := 0x3f400000#32) (3 / 4) (by decide +kernel)
  refine C78_unary_calls_float (.sse false ⟨true, false, false⟩) P .ceil (n := 16#32) (x := fun _ => 0x3f400000#32)
    (by decide) (by decide) (by decide) (by decide) (by unfold Allocated; decide) (by unfold Holds; decide) (.inl le_rfl)
    fun i _ => ⟨o1, .inr ?_⟩
  rw [o2, abs_of_pos] <;> norm_num

/-- What the tables leave out does differ: a fused `muladd` of 1 + 2^-12, 1 + 2^-12 and -1 keeps the last bit of the product
that two roundings lose. -/
theorem C78_negation_muladd (P : Platform 32) (s : Bool) (f : Sse.Flags) (hf : f.fma = true) :
    TerOp.muladd.f ((Build32.sse s f).lane P) 0x3f800800#32 0x3f800800#32 0xbf800000#32 = 0x3a000400#32 ∧
    TerOp.muladd.f (Build32.scalar P) 0x3f800800#32 0x3f800800#32 0xbf800000#32 = 0x3a000000#32 := by
  constructor
  · rw [show TerOp.muladd.f ((Build32.sse s f).lane P) 0x3f800800#32 0x3f800800#32 0xbf800000#32 =
      ((Build32.sse s f).lane P).madd 0x3f800800#32 0x3f800800#32 0xbf800000#32 from rfl, lane_madd_sse, hf]
    exact (show binary32.fma 0x3f800800#32 0x3f800800#32 0xbf800000#32 = 0x3a000400#32 by decide +kernel)
  · exact (show binary32.add (binary32.mul 0x3f800800#32 0x3f800800#32) 0xbf800000#32 = 0x3a000000#32 by decide +kernel)

end Nova
