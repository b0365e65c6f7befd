import Verif.SpecBuilds
import Verif.Lemmas.Alike
import Verif.Props.C01_Elementwise
import Verif.Props.C76_Accuracy
import Verif.Props.C41_Rounding
import Verif.Examples

/-!
# C91 The same bits from every x86 build

Builds for SSE2, SSE4.1, AVX, with and without FMA, on any two machines with IEEE arithmetic, return the same bits for
the functions of the tables in `SpecBuilds`: all transcendental functions included, although the classes compare, select
and round differently.  Whole calls leave the same memory, whatever the width of a register.
-/

namespace Nova
open FP VecMath Spec

section
attribute [local irreducible] litD litF Fmt.add Fmt.mul Fmt.div Fmt.sub Fmt.fma Fmt.ltb Fmt.leb Fmt.eqb Fmt.roundInt
  Fmt.toInt32 Fmt.ofInt32 Fmt.sqrt Fmt.maxArm Fmt.minArm

/-- The instructions shared by two x86 builds. -/
structure AlikeOps (L L' : Arith (BitVec 32)) : Prop where
  add : L.add = L'.add
  sub : L.sub = L'.sub
  mul : L.mul = L'.mul
  div : L.div = L'.div
  max_ : L.max_ = L'.max_
  min_ : L.min_ = L'.min_
  lit : L.lit = L'.lit
  zero : L.zero = L'.zero
  square : L.square = L'.square

theorem x86_alike {b b' : Build32} (hb : b.simdMath = true) (hb' : b'.simdMath = true) (P P' : Platform 32) :
    AlikeOps (b.lane P) (b'.lane P') := by
  cases b with
  | sse s f => cases b' with
    | sse s' f' => constructor <;> rfl
    | avx f' => constructor <;> rfl
    | _ => exact absurd hb' (by decide)
  | avx f => cases b' with
    | sse s' f' => constructor <;> rfl
    | avx f' => constructor <;> rfl
    | _ => exact absurd hb' (by decide)
  | _ => exact absurd hb (by decide)

end

theorem x86_exactSqrt {b : Build32} (hb : b.simdMath = true) : b.exactSqrt = true ∧ b.hasUndenormalize = true ∧
    b.floorsAll = b.roundsAll ∧ b ≠ .generic ∧ b ≠ .altivec := by
  cases b <;> first | exact absurd hb (by decide) | exact ⟨rfl, rfl, rfl, nofun, nofun⟩

/-- The product of a number with a finite number other than zero is a number. -/
theorem isNaN_mul_nonzero {w : Nat} (F : Fmt w) {x y : BitVec w} (hx : Num F x) (hy : IsFin F y) (h0 : F.isZero y = false) :
    Num F (F.mul x y) := by
  have hx : F.isNaN x = false := hx
  unfold Num Fmt.mul
  rw [hx, F.isFinite_not_nan hy, F.isFinite_not_inf hy, h0]
  simp only [Bool.or_self, Bool.false_eq_true, if_false, Bool.or_false]
  split
  · next hi =>
    rw [Fmt.isZero_of_isInf hi, if_neg (by decide)]
    unfold Fmt.isNaN
    rw [F.code_pack _ F.infCode_lt]; simp
  · exact isNaN_packRnd F _ _ _

/-- The factor of the powers of the unit conversions. -/
theorem log_base {V : LaneOps 32} (h : V.Ieee) (h86 : IsX86Class V) {x : BitVec 32}
    (hx : x = litD32 2 ∨ x = litD32 10) {y : BitVec 32} (hy : Num binary32 y) : Num binary32 (binary32.mul y (vecLog V x)) := by
  refine isNaN_mul_nonzero binary32 hy (vecLog_fin h h86 x) ?_
  have e := h.vecLog_alike (avx_ieee false platform0) x
  generalize hV : AvxF.ops false (platform0.x86 binary32) = V' at e
  rw [e]
  subst hV
  rcases hx with hx | hx <;> rw [hx]
  · exact (by decide +kernel : binary32.isZero (vecLog (AvxF.ops false (platform0.x86 binary32)) (litD32 2)) = false)
  · exact (by decide +kernel : binary32.isZero (vecLog (AvxF.ops false (platform0.x86 binary32)) (litD32 10)) = false)

theorem num_sub {x y : BitVec 32} (hx : IsFin binary32 x) (hy : IsFin binary32 y) : Num binary32 (binary32.sub x y) := by
  unfold Num
  rw [binary32.sub_num (binary32.isFinite_not_nan hx) (binary32.isFinite_not_nan hy)]
  exact (Fmt.add_rounds hx (by rw [binary32.isFinite_negate]; exact hy)).1

/-- The patterns of the transcendental functions of two x86 builds. -/
structure AlikeMath (L L' : Arith (BitVec 32)) : Prop where
  sin : ∀ x, L.sin x = L'.sin x
  cos : ∀ x, L.cos x = L'.cos x
  tan : ∀ x, L.tan x = L'.tan x
  asin : ∀ x, Num binary32 x → L.asin x = L'.asin x
  acos : ∀ x, IsFin binary32 x → L.acos x = L'.acos x
  atan : ∀ x, Num binary32 x → L.atan x = L'.atan x
  tanh : ∀ x, IsFin binary32 x → L.tanh x = L'.tanh x
  log : ∀ x, L.log x = L'.log x
  log2 : ∀ x, L.log2 x = L'.log2 x
  log10 : ∀ x, L.log10 x = L'.log10 x
  exp : ∀ x, Num binary32 x → L.exp x = L'.exp x
  pow : ∀ x y, IsFin binary32 y → L.pow x y = L'.pow x y
  signedPow : ∀ x y, IsFin binary32 y → L.signedPow x y = L'.signedPow x y
  powBase : ∀ x y, (x = litD32 2 ∨ x = litD32 10) → Num binary32 y → L.pow x y = L'.pow x y

theorem alike_math {b b' : Build32} (hb : b.simdMath = true) (hb' : b'.simdMath = true) {P P' : Platform 32}
    (hP : SameFactors P P') : AlikeMath (b.lane P) (b'.lane P') := by
  have T := b.templates hb P
  have T' := b'.templates hb' P'
  have h := T.ieee
  have h' := T'.ieee
  constructor
  · intro x; rw [T.sin, T'.sin]; exact h.vecSin_alike h' x
  · intro x; rw [T.cos, T'.cos]; exact h.vecCos_alike h' x
  · intro x; rw [T.tan, T'.tan]; exact h.vecTan_alike h' x
  · intro x hx; rw [T.asin, T'.asin]; exact h.vecAsin_alike h' hx
  · intro x hx; rw [T.acos, T'.acos]; exact h.vecAcos_alike h' hx
  · intro x hx; rw [T.atan, T'.atan]; exact h.vecAtan_alike h' hx
  · intro x hx; rw [T.tanh, T'.tanh]; exact h.vecTanh_alike h' hx
  · intro x; rw [T.log, T'.log]; exact h.vecLog_alike h' x
  · intro x; rw [T.log2, T'.log2, hP.1]; exact h.vecLogBase_alike h' _ x
  · intro x; rw [T.log10, T'.log10, hP.2]; exact h.vecLogBase_alike h' _ x
  · intro x hx; rw [T.exp, T'.exp]; exact h.vecExp_alike h' hx
  · intro x y hy; rw [T.pow, T'.pow]; exact h.vecPow_alike h' x (isNaN_mul_fin _ hy (vecLog_fin h T.x86 x))
  · intro x y hy
    rw [T.signedPow, T'.signedPow]
    exact h.vecSignedPow_alike h' x fun x => isNaN_mul_fin _ hy (vecLog_fin h T.x86 x)
  · intro x y hx hy; rw [T.pow, T'.pow]; exact h.vecPow_alike h' x (log_base h T.x86 hx hy)

/-- One element of a unary function of `float`: the same bits. -/
theorem C91_unary_partial (b b' : Build32) (hb : b.simdMath = true) (hb' : b'.simdMath = true) (P P' : Platform 32)
    (hP : SameFactors P P') (op : UnOp) (x : BitVec 32) (hx : IsFin binary32 x) (hr : UnAlike b b' op (binary32.toReal x)) :
    op.f (b.lane P) x = op.f (b'.lane P') x := by
  have hN : Num binary32 x := binary32.isFinite_not_nan hx
  have A := x86_alike hb hb' P P'
  have M := alike_math hb hb' hP
  obtain ⟨s, u, fl, g, av⟩ := x86_exactSqrt hb
  obtain ⟨s', u', fl', g', av'⟩ := x86_exactSqrt hb'
  have ab : (b.lane P).abs = (b'.lane P').abs := funext fun y => (abs_lane32 b P y).trans (abs_lane32 b' P' y).symm
  have l2 : (b.lane P).lit = litD32 := by cases b <;> rfl
  cases op with
  | abs => exact congrArg Except.ok (congrFun ab x)
  | sgn => exact congrArg Except.ok ((sign_lane32 b g P x).trans (sign_lane32 b' g' P' x).symm)
  | square => exact congrArg Except.ok (congrFun A.square x)
  | cube =>
    refine congrArg Except.ok ?_
    have e : ∀ (b : Build32) (P : Platform 32), b.simdMath = true → (b.lane P).cube x = binary32.mul x (binary32.mul x x) := by
      intro b P hb
      have e := mul_comm_not_nan binary32 hN (isNaN_mul_self binary32 hx)
      cases b <;> first | rfl | exact e.symm | exact absurd hb (by decide)
    rw [e b P hb, e b' P' hb']
  | round =>
    refine congrArg Except.ok ?_
    have hr : (b.roundsAll = true ∧ b'.roundsAll = true) ∨ |binary32.toReal x| < 2 ^ 23 := hr
    rcases round_lane32 b P (x := x) (hr.imp And.left code_lt_of_value) with h | h
    · exact absurd h.1 g
    rcases round_lane32 b' P' (x := x) (hr.imp And.right code_lt_of_value) with h' | h'
    · exact absurd h'.1 g'
    rw [h.2, h'.2]
  | floor =>
    refine congrArg Except.ok ?_
    have hr : (b.roundsAll = true ∧ b'.roundsAll = true) ∨ |binary32.toReal x| < 2 ^ 23 := hr
    rw [floor_lane32 b P (x := x) (hr.imp (fun h => by rw [fl]; exact h.1) code_lt_of_value),
      floor_lane32 b' P' (x := x) (hr.imp (fun h => by rw [fl']; exact h.2) code_lt_of_value)]
  | frac =>
    refine congrArg Except.ok ?_
    have hr : (b.roundsAll = true ∧ b'.roundsAll = true) ∨ |binary32.toReal x| < 2 ^ 23 := hr
    exact ((C58_frac_partial b P x hx (hr.imp_left (fun h => by rw [fl]; exact h.1))).1).trans
      ((C58_frac_partial b' P' x hx (hr.imp_left (fun h => by rw [fl']; exact h.2))).1).symm
  | ceil =>
    refine congrArg Except.ok ?_
    have hr : (b.roundsAll = true ∧ b'.roundsAll = true) ∨ (|binary32.toReal x| < 2 ^ 23 ∧ ⌈binary32.toReal x⌉ ≠ 0) := hr
    exact ((C41_ceil_partial b P x hx (hr.imp (fun h => by rw [fl]; exact h.1) And.left)).2.2
        (hr.imp (fun h => by rw [fl]; exact h.1) And.right)).trans
      ((C41_ceil_partial b' P' x hx (hr.imp (fun h => by rw [fl']; exact h.2) And.left)).2.2
        (hr.imp (fun h => by rw [fl']; exact h.2) And.right)).symm
  | trunc =>
    have hr : (b.roundsAll = true ∧ b'.roundsAll = true) ∨ (|binary32.toReal x| < 2 ^ 63 ∧ 1 ≤ |binary32.toReal x|) := hr
    rcases hr with ⟨h1, h2⟩ | ⟨h1, h2⟩
    · have e : ∀ (b : Build32) (P : Platform 32), b.simdMath = true → b.roundsAll = true →
          (b.lane P).trunc x = .ok (binary32.roundInt .zero x) := by
        intro b P hb hr
        cases b with
        | sse s f =>
          have hr : f.sse41 = true := hr
          simp only [Build32.lane, Sse.arith, hr, if_true]; rfl
        | avx f => rfl
        | _ => exact absurd hb (by decide)
      exact (e b P hb h1).trans (e b' P' hb' h2).symm
    · obtain ⟨r, e, f, v⟩ := C57_simd_partial b av P x hx (.inr h1)
      obtain ⟨r', e', f', v'⟩ := C57_simd_partial b' av' P' x hx (.inr h1)
      change (b.lane P).trunc x = (b'.lane P').trunc x
      rw [e, e']
      refine congrArg Except.ok (eq_of_value binary32 (binary32.isFinite_not_nan f) (binary32.isFinite_not_nan f') ?_ ?_)
      · rw [binary32.toEReal_of_finite f, binary32.toEReal_of_finite f', v, v']
      · rw [binary32.toEReal_of_finite f, v]
        intro h
        have h : (if 0 ≤ binary32.toReal x then (⌊binary32.toReal x⌋ : ℝ) else ⌈binary32.toReal x⌉) = 0 := by exact_mod_cast h
        split at h
        · next h0 =>
          rw [abs_of_nonneg h0] at h2
          have : (1 : ℤ) ≤ ⌊binary32.toReal x⌋ := Int.le_floor.mpr (by exact_mod_cast h2)
          have h : ⌊binary32.toReal x⌋ = 0 := by exact_mod_cast h
          omega
        · next h0 =>
          rw [abs_of_neg (not_le.mp h0)] at h2
          have : ⌈binary32.toReal x⌉ ≤ (-1 : ℤ) := Int.ceil_le.mpr (by push_cast; linarith)
          have h : ⌈binary32.toReal x⌉ = 0 := by exact_mod_cast h
          omega
  | undenormalize =>
    exact congrArg Except.ok ((undenormalize_lane32 b u P x).trans (undenormalize_lane32 b' u' P' x).symm)
  | signedSqrt => exact congrArg Except.ok ((signedSqrt_lane32 b s P hN).trans (signedSqrt_lane32 b' s' P' hN).symm)
  | softclip => exact congrArg Except.ok ((softclip_lane32 b P x).trans (softclip_lane32 b' P' x).symm)
  | reciprocal => exact hr.elim
  | sin => exact congrArg Except.ok (M.sin x)
  | cos => exact congrArg Except.ok (M.cos x)
  | tan => exact congrArg Except.ok (M.tan x)
  | asin => exact congrArg Except.ok (M.asin x hN)
  | acos => exact congrArg Except.ok (M.acos x hx)
  | atan => exact congrArg Except.ok (M.atan x hN)
  | tanh => exact congrArg Except.ok (M.tanh x hx)
  | log => exact congrArg Except.ok (M.log x)
  | log2 => exact congrArg Except.ok (M.log2 x)
  | log10 => exact congrArg Except.ok (M.log10 x)
  | exp => exact congrArg Except.ok (M.exp x hN)
  | midi2freq =>
    refine congrArg Except.ok ?_
    unfold Functor.midi2freq
    rw [A.mul, A.sub, A.lit, M.powBase _ _ (.inl (by rw [← A.lit, l2]))]
    rw [← A.lit, ← A.mul, ← A.sub, l2, lane_mul32 b hb, lane_sub32' b]
    exact isNaN_mul_nonzero _ (num_sub hx (by decide +kernel)) (by decide +kernel) (by decide +kernel)
  | midi2ratio =>
    refine congrArg Except.ok ?_
    unfold Functor.midi2ratio
    rw [A.mul, A.lit, M.powBase _ _ (.inl (by rw [← A.lit, l2]))]
    rw [← A.lit, ← A.mul, l2, lane_mul32 b hb]
    exact isNaN_mul_fin _ hx (by decide +kernel)
  | oct2freq =>
    refine congrArg Except.ok ?_
    unfold Functor.oct2freq
    rw [A.mul, A.sub, A.lit, M.powBase _ _ (.inl (by rw [← A.lit, l2]))]
    rw [← A.lit, ← A.sub, l2, lane_sub32' b]
    exact num_sub hx (by decide +kernel)
  | db2amp =>
    refine congrArg Except.ok ?_
    unfold Functor.db2amp
    rw [A.mul, A.lit, M.powBase _ _ (.inr (by rw [← A.lit, l2]))]
    rw [← A.lit, ← A.mul, l2, lane_mul32 b hb]
    exact isNaN_mul_fin _ hx (by decide +kernel)
  | freq2midi =>
    refine congrArg Except.ok ?_
    unfold Functor.freq2midi Functor.absLog2
    rw [A.mul, A.add, A.lit, ab, M.log2]
  | ratio2midi =>
    refine congrArg Except.ok ?_
    unfold Functor.ratio2midi
    rw [A.mul, A.lit, M.log2]
  | freq2oct =>
    refine congrArg Except.ok ?_
    unfold Functor.freq2oct Functor.absLog2
    rw [A.mul, A.add, A.lit, ab, M.log2]
  | amp2db =>
    refine congrArg Except.ok ?_
    unfold Functor.amp2db
    rw [A.mul, A.lit, ab, M.log10]

/-- One element of a binary function of `float`. -/
theorem C91_binary (b b' : Build32) (hb : b.simdMath = true) (hb' : b'.simdMath = true) (P P' : Platform 32)
    (op : BinOp) (x y : BitVec 32) (hx : IsFin binary32 x) (hy : IsFin binary32 y) :
    op.f (b.lane P) x y = op.f (b'.lane P') x y := by
  have nx : Num binary32 x := binary32.isFinite_not_nan hx
  have ny : Num binary32 y := binary32.isFinite_not_nan hy
  have A := x86_alike hb hb' P P'
  have rl : ∀ r : Rel, r.op.f (b.lane P) x y = r.op.f (b'.lane P') x y := fun r =>
    (rel_lane32 b P r x y (.inr ⟨nx, ny⟩)).trans (rel_lane32 b' P' r x y (.inr ⟨nx, ny⟩)).symm
  have T := b.templates hb P
  have T' := b'.templates hb' P'
  cases op with
  | plus => exact congrFun (congrFun A.add x) y
  | sum => exact congrFun (congrFun A.add x) y
  | minus => exact congrFun (congrFun A.sub x) y
  | times => exact congrFun (congrFun A.mul x) y
  | over => exact congrFun (congrFun A.div x) y
  | min => exact congrFun (congrFun A.min_ x) y
  | max => exact congrFun (congrFun A.max_ x) y
  | less => exact rl .less
  | lessEqual => exact rl .lessEqual
  | greater => exact rl .greater
  | greaterEqual => exact rl .greaterEqual
  | equal => exact rl .equal
  | notequal => exact rl .notEqual
  | clip2 =>
    change Functor.clip2 _ x y = Functor.clip2 _ x y
    unfold Functor.clip2
    rw [A.max_, A.min_, A.sub, A.zero]
  | pow =>
    change (b.lane P).pow x y = (b'.lane P').pow x y
    rw [T.pow, T'.pow]
    exact T.ieee.vecPow_alike T'.ieee x (isNaN_mul_fin _ hy (vecLog_fin T.ieee T.x86 x))
  | spow =>
    change (b.lane P).signedPow x y = (b'.lane P').signedPow x y
    rw [T.signedPow, T'.signedPow]
    exact T.ieee.vecSignedPow_alike T'.ieee x fun x => isNaN_mul_fin _ hy (vecLog_fin T.ieee T.x86 x)

/-- One element of a ternary function of `float`. -/
theorem C91_ternary_partial (b b' : Build32) (hb : b.simdMath = true) (hb' : b'.simdMath = true) (P P' : Platform 32)
    (op : TerOp) (hr : TerAlike b b' op) (x y z : BitVec 32) :
    op.f (b.lane P) x y z = op.f (b'.lane P') x y z := by
  have A := x86_alike hb hb' P P'
  cases op with
  | clip =>
    change Functor.clip _ x y z = Functor.clip _ x y z
    unfold Functor.clip
    rw [A.max_, A.min_]
  | sum =>
    change Functor.sum3 _ x y z = Functor.sum3 _ x y z
    unfold Functor.sum3
    rw [A.add]
  | ampmod =>
    change Functor.ampmod _ x y z = Functor.ampmod _ x y z
    unfold Functor.ampmod
    rw [A.add, A.mul, lane_one32 b P, lane_one32 b' P']
  | muladd =>
    change (b.lane P).madd x y z = (b'.lane P').madd x y z
    have e : ∀ (b : Build32) (P : Platform 32), b.simdMath = true → (b.lane P).madd x y z =
        if fused b then binary32.fma x y z else binary32.add (binary32.mul x y) z := by
      intro b P hb
      cases b with
      | sse s f => exact lane_madd_sse s f P x y z
      | avx f => exact lane_madd_avx f P x y z
      | _ => exact absurd hb (by decide)
    rw [e b P hb, e b' P' hb', show fused b = fused b' from hr]

/-- One element of a function of four `float`s. -/
theorem C91_quad (b b' : Build32) (hb : b.simdMath = true) (hb' : b'.simdMath = true) (P P' : Platform 32)
    (op : QuadOp) (x y z u : BitVec 32) : op.f (b.lane P) x y z u = op.f (b'.lane P') x y z u := by
  have A := x86_alike hb hb' P P'
  cases op with
  | mix =>
    change Functor.mix2 _ x y z u = Functor.mix2 _ x y z u
    unfold Functor.mix2
    rw [A.add, A.mul]
  | sum =>
    change Functor.sum4 _ x y z u = Functor.sum4 _ x y z u
    unfold Functor.sum4
    rw [A.add]

/-- The listed arguments give a result, not undefined behaviour. -/
theorem unAlike_ok (b b' : Build32) (hb : b.simdMath = true) (P : Platform 32) (op : UnOp) (x : BitVec 32)
    (hx : IsFin binary32 x) (hr : UnAlike b b' op (binary32.toReal x)) : ∃ r, op.f (b.lane P) x = .ok r := by
  obtain ⟨-, -, -, g, av⟩ := x86_exactSqrt hb
  cases op with
  | trunc =>
    have hr : (b.roundsAll = true ∧ b'.roundsAll = true) ∨ (|binary32.toReal x| < 2 ^ 63 ∧ 1 ≤ |binary32.toReal x|) := hr
    obtain ⟨r, e, -⟩ := C57_simd_partial b av P x hx (hr.imp (fun h => ⟨h.1, g⟩) And.left)
    exact ⟨r, e⟩
  | _ => exact ⟨_, rfl⟩

/-! ## Whole calls -/

/-- `f_vec_simd(out, in, n)`: both builds leave the same memory. -/
theorem C91_unary_calls_partial (b b' : Build32) (hb : b.simdMath = true) (hb' : b'.simdMath = true) (P P' : Platform 32)
    (hP : SameFactors P P') (op : UnOp) {m : Mem (BitVec 32)} {out inp : Nat} {n : BitVec 32} {x : Nat → BitVec 32}
    (hn : 0 < n.toNat) (hmul : b.target.perLine ∣ n.toNat) (hmul' : b'.target.perLine ∣ n.toNat)
    (hoal : b.target.align ∣ out) (hoal' : b'.target.align ∣ out) (hial : b.target.align ∣ inp)
    (hial' : b'.target.align ∣ inp) (hout : Allocated m out n.toNat) (hin : Holds m inp n.toNat x)
    (hs : SafePlacement out inp n.toNat)
    (hx : ∀ i, i < n.toNat → IsFin binary32 (x i) ∧ UnAlike b b' op (binary32.toReal (x i))) :
    ∃ y : Nat → BitVec 32, op.vecSimd (b.vec P) out inp n m = .ok ((), overwrite m out n.toNat y) ∧
      op.vecSimd (b'.vec P') out inp n m = .ok ((), overwrite m out n.toNat y) := by
  classical
  have h := fun i (hi : i < n.toNat) => unAlike_ok b b' hb P op (x i) (hx i hi).1 (hx i hi).2
  choose y h1 using h
  refine ⟨fun i => if h : i < n.toNat then y i h else 0, ?_, ?_⟩
  · refine C01_unary_simd b.target (b.env P) op hn hmul hoal hial hout hin hs fun i h => ?_
    rw [dif_pos h]; exact h1 i h
  · refine C01_unary_simd b'.target (b'.env P') op hn hmul' hoal' hial' hout hin hs fun i h => ?_
    rw [dif_pos h]
    exact (C91_unary_partial b b' hb hb' P P' hP op (x i) (hx i h).1 (hx i h).2).symm.trans (h1 i h)

/-- `f_vec_simd` with two arguments that supply the same numbers to both builds. -/
theorem C91_binary_calls (bd bd' : Build32) (hb : bd.simdMath = true) (hb' : bd'.simdMath = true) (P P' : Platform 32)
    (op : BinOp) {m : Mem (BitVec 32)} {out : Nat} {a b : SArg (BitVec 32)} {n : BitVec 32} {x y : Nat → BitVec 32}
    (hn : 0 < n.toNat) (hmul : bd.target.perLine ∣ n.toNat) (hmul' : bd'.target.perLine ∣ n.toNat)
    (hoal : bd.target.align ∣ out) (hoal' : bd'.target.align ∣ out) (hout : Allocated m out n.toNat)
    (ha : SimdSupplies (bd.vec P) bd.target.align m out n.toNat a x)
    (ha' : SimdSupplies (bd'.vec P') bd'.target.align m out n.toNat a x)
    (hb1 : SimdSupplies (bd.vec P) bd.target.align m out n.toNat b y)
    (hb1' : SimdSupplies (bd'.vec P') bd'.target.align m out n.toNat b y)
    (hx : ∀ i, i < n.toNat → IsFin binary32 (x i) ∧ IsFin binary32 (y i)) :
    op.vecSimd (bd.vec P) out a b n m = op.vecSimd (bd'.vec P') out a b n m := by
  refine (C02_binary_simd bd.target (bd.env P) op hn hmul hoal hout ha hb1).trans
    (Eq.trans ?_ (C02_binary_simd bd'.target (bd'.env P') op hn hmul' hoal' hout ha' hb1').symm)
  refine congrArg (fun z => Except.ok ((), z)) (overwrite_congr fun i hi => ?_)
  exact C91_binary bd bd' hb hb' P P' op (x i) (y i) (hx i hi).1 (hx i hi).2

/-- With three arguments; any patterns. -/
theorem C91_ternary_calls_partial (bd bd' : Build32) (hb : bd.simdMath = true) (hb' : bd'.simdMath = true) (P P' : Platform 32)
    (op : TerOp) (hr : TerAlike bd bd' op) {m : Mem (BitVec 32)} {out : Nat} {a b c : SArg (BitVec 32)} {n : BitVec 32}
    {x y z : Nat → BitVec 32}
    (hn : 0 < n.toNat) (hmul : bd.target.perLine ∣ n.toNat) (hmul' : bd'.target.perLine ∣ n.toNat)
    (hoal : bd.target.align ∣ out) (hoal' : bd'.target.align ∣ out) (hout : Allocated m out n.toNat)
    (ha : SimdSupplies (bd.vec P) bd.target.align m out n.toNat a x)
    (ha' : SimdSupplies (bd'.vec P') bd'.target.align m out n.toNat a x)
    (hb1 : SimdSupplies (bd.vec P) bd.target.align m out n.toNat b y)
    (hb1' : SimdSupplies (bd'.vec P') bd'.target.align m out n.toNat b y)
    (hc : SimdSupplies (bd.vec P) bd.target.align m out n.toNat c z)
    (hc' : SimdSupplies (bd'.vec P') bd'.target.align m out n.toNat c z) :
    op.vecSimd (bd.vec P) out a b c n m = op.vecSimd (bd'.vec P') out a b c n m := by
  refine (C03_ternary_simd bd.target (bd.env P) op hn hmul hoal hout ha hb1 hc).trans
    (Eq.trans ?_ (C03_ternary_simd bd'.target (bd'.env P') op hn hmul' hoal' hout ha' hb1' hc').symm)
  refine congrArg (fun z => Except.ok ((), z)) (overwrite_congr fun i _ => ?_)
  exact C91_ternary_partial bd bd' hb hb' P P' op hr (x i) (y i) (z i)

/-- With four arguments; any patterns. -/
theorem C91_quad_calls (bd bd' : Build32) (hb : bd.simdMath = true) (hb' : bd'.simdMath = true) (P P' : Platform 32)
    (op : QuadOp) {m : Mem (BitVec 32)} {out : Nat} {a b c d : SArg (BitVec 32)} {n : BitVec 32}
    {x y z u : Nat → BitVec 32}
    (hn : 0 < n.toNat) (hmul : bd.target.perLine ∣ n.toNat) (hmul' : bd'.target.perLine ∣ n.toNat)
    (hoal : bd.target.align ∣ out) (hoal' : bd'.target.align ∣ out) (hout : Allocated m out n.toNat)
    (ha : SimdSupplies (bd.vec P) bd.target.align m out n.toNat a x)
    (ha' : SimdSupplies (bd'.vec P') bd'.target.align m out n.toNat a x)
    (hb1 : SimdSupplies (bd.vec P) bd.target.align m out n.toNat b y)
    (hb1' : SimdSupplies (bd'.vec P') bd'.target.align m out n.toNat b y)
    (hc : SimdSupplies (bd.vec P) bd.target.align m out n.toNat c z)
    (hc' : SimdSupplies (bd'.vec P') bd'.target.align m out n.toNat c z)
    (hd : SimdSupplies (bd.vec P) bd.target.align m out n.toNat d u)
    (hd' : SimdSupplies (bd'.vec P') bd'.target.align m out n.toNat d u) :
    op.vecSimd (bd.vec P) out a b c d n m = op.vecSimd (bd'.vec P') out a b c d n m := by
  refine (C04_quad_simd bd.target (bd.env P) op hn hmul hoal hout ha hb1 hc hd).trans
    (Eq.trans ?_ (C04_quad_simd bd'.target (bd'.env P') op hn hmul' hoal' hout ha' hb1' hc' hd').symm)
  refine congrArg (fun z => Except.ok ((), z)) (overwrite_congr fun i _ => ?_)
  exact C91_quad bd bd' hb hb' P P' op (x i) (y i) (z i) (u i)

/-! ## Any two builds

Builds with NEON, Altivec or no vector unit, and `double`: where both agree with the scalar functions (C78) they agree
with each other, up to the sign of zeros. -/

theorem same_trans {w : Nat} {F : Fmt w} {a b c : BitVec w} (h : Same F a c) (h' : Same F b c) : Same F a b := by
  rcases h with rfl | ⟨h1, h2⟩ <;> rcases h' with rfl | ⟨h3, h4⟩
  · exact .inl rfl
  · exact .inr ⟨h4, h3⟩
  · exact .inr ⟨h1, h2⟩
  · exact .inr ⟨h1, h3⟩

/-- The same C library and the same compiler mode. -/
theorem C91_any_unary (b b' : Build32) (P P' : Platform 32) (hM : P.M = P'.M) (hc : P.c99 = P'.c99) (op : UnOp)
    (x : BitVec 32) (hx : IsFin binary32 x) (hr : UnSame b P.c99 op (binary32.toReal x))
    (hr' : UnSame b' P.c99 op (binary32.toReal x)) :
    ∃ r r', op.f (b.lane P) x = .ok r ∧ op.f (b'.lane P') x = .ok r' ∧ Same binary32 r r' := by
  obtain ⟨r, s, e1, e2, h⟩ := C78_unary_float b P op x hx hr
  obtain ⟨r', s', e1', e2', h'⟩ := C78_unary_float b' P' op x hx (hc ▸ hr')
  have : Build32.scalar P = Build32.scalar P' := by unfold Build32.scalar; rw [hM, hc]
  rw [this] at e2
  have := Except.ok.inj (e2.symm.trans e2')
  subst this
  exact ⟨r, r', e1, e1', same_trans h h'⟩

theorem C91_any_binary (b b' : Build32) (P P' : Platform 32) (hM : P.M = P'.M) (hc : P.c99 = P'.c99) (op : BinOp)
    (x y : BitVec 32) (hx : IsFin binary32 x) (hy : IsFin binary32 y) (hr : BinSame b op) (hr' : BinSame b' op) :
    Same binary32 (op.f (b.lane P) x y) (op.f (b'.lane P') x y) := by
  have : Build32.scalar P = Build32.scalar P' := by unfold Build32.scalar; rw [hM, hc]
  exact same_trans (C78_binary_float b P op x y hx hy hr) (this ▸ C78_binary_float b' P' op x y hx hy hr')

theorem C91_any_ternary (b b' : Build32) (P P' : Platform 32) (hM : P.M = P'.M) (hc : P.c99 = P'.c99) (op : TerOp)
    (x y z : BitVec 32) (hx : IsFin binary32 x) (hy : IsFin binary32 y) (hz : IsFin binary32 z)
    (hr : TerSame b op) (hr' : TerSame b' op) : Same binary32 (op.f (b.lane P) x y z) (op.f (b'.lane P') x y z) := by
  have : Build32.scalar P = Build32.scalar P' := by unfold Build32.scalar; rw [hM, hc]
  exact same_trans (C78_ternary_float b P op x y z hx hy hz hr) (this ▸ C78_ternary_float b' P' op x y z hx hy hz hr')

theorem C91_any_quad (b b' : Build32) (P P' : Platform 32) (hM : P.M = P'.M) (hc : P.c99 = P'.c99) (op : QuadOp)
    (x y z u : BitVec 32) (hr : QuadSame b op) (hr' : QuadSame b' op) :
    op.f (b.lane P) x y z u = op.f (b'.lane P') x y z u := by
  have : Build32.scalar P = Build32.scalar P' := by unfold Build32.scalar; rw [hM, hc]
  rw [C78_quad_float b P op x y z u hr, C78_quad_float b' P' op x y z u hr', this]

/-- `double`, every pair of builds with the same C library. -/
theorem C91_double_partial (b b' : Build64) (P P' : Platform 64) (hM : P.M = P'.M) :
    (∀ (op : UnOp) (x : BitVec 64), IsFin binary64 x → UnSame64 op (binary64.toReal x) →
      ∃ r r', op.f (b.lane P) x = .ok r ∧ op.f (b'.lane P') x = .ok r' ∧ Same binary64 r r') ∧
    (∀ (op : BinOp) (x y : BitVec 64), IsFin binary64 x → IsFin binary64 y →
      Same binary64 (op.f (b.lane P) x y) (op.f (b'.lane P') x y)) ∧
    (∀ (op : TerOp) (x y z : BitVec 64), IsFin binary64 x → IsFin binary64 y → IsFin binary64 z →
      TerSame64 b op → TerSame64 b' op → Same binary64 (op.f (b.lane P) x y z) (op.f (b'.lane P') x y z)) ∧
    (∀ (op : QuadOp) (x y z u : BitVec 64), op.f (b.lane P) x y z u = op.f (b'.lane P') x y z u) := by
  have e : Build64.scalar P = Build64.scalar P' := by unfold Build64.scalar; rw [hM]
  refine ⟨fun op x hx hr => ?_, fun op x y hx hy => ?_, fun op x y z hx hy hz hr hr' => ?_, fun op x y z u => ?_⟩
  · obtain ⟨r, s, e1, e2, h⟩ := C78_unary_double b P op x hx hr
    obtain ⟨r', s', e1', e2', h'⟩ := C78_unary_double b' P' op x hx hr
    rw [e] at e2
    have := Except.ok.inj (e2.symm.trans e2')
    subst this
    exact ⟨r, r', e1, e1', same_trans h h'⟩
  · exact same_trans (C78_binary_double b P op x y hx hy) (e ▸ C78_binary_double b' P' op x y hx hy)
  · exact same_trans (C78_ternary_double b P op x y z hx hy hz hr) (e ▸ C78_ternary_double b' P' op x y z hx hy hz hr')
  · rw [C78_quad_double b P op x y z u, C78_quad_double b' P' op x y z u, e]

/-- `ceil` and `trunc` of every number in range: the same number, but the sign of a zero may differ. -/
theorem C91_zero_signs (b b' : Build32) (hb : b.simdMath = true) (hb' : b'.simdMath = true) (P P' : Platform 32)
    (x : BitVec 32) (hx : IsFin binary32 x) :
    (|binary32.toReal x| < 2 ^ 23 → Same binary32 ((b.lane P).ceil x) ((b'.lane P').ceil x)) ∧
    (|binary32.toReal x| < 2 ^ 63 → ∃ r r', (b.lane P).trunc x = .ok r ∧ (b'.lane P').trunc x = .ok r' ∧
      Same binary32 r r') := by
  constructor
  · intro h
    obtain ⟨f, v, -⟩ := C41_ceil_partial b P x hx (.inr h)
    obtain ⟨f', v', -⟩ := C41_ceil_partial b' P' x hx (.inr h)
    exact same_of_real binary32 f f' (v.trans v'.symm)
  · intro h
    obtain ⟨r, e, f, v⟩ := C57_simd_partial b (x86_exactSqrt hb).2.2.2.2 P x hx (.inr h)
    obtain ⟨r', e', f', v'⟩ := C57_simd_partial b' (x86_exactSqrt hb').2.2.2.2 P' x hx (.inr h)
    exact ⟨r, r', e, e', same_of_real binary32 f f' (v.trans v'.symm)⟩

/-! ## Where builds differ -/

/-- `muladd` with and without FMA: (1 + 2^-12)^2 - 1 - 2^-11 is 2^-24 or 0. -/
theorem C91_negation_muladd (P P' : Platform 32) :
    TerOp.muladd.f ((Build32.avx true).lane P) 0x3f800800#32 0x3f800800#32 0xbf801000#32 = 0x33800000#32 ∧
    TerOp.muladd.f ((Build32.avx false).lane P') 0x3f800800#32 0x3f800800#32 0xbf801000#32 = 0#32 := by
  constructor
  · exact (lane_madd_avx true P _ _ _).trans (by decide +kernel)
  · exact (lane_madd_avx false P' _ _ _).trans (by decide +kernel)

/-- `ceil` of -0.5 is -0 with a rounding instruction and +0 without. -/
theorem C91_negation_ceil (P P' : Platform 32) :
    UnOp.ceil.f ((Build32.avx true).lane P) 0xbf000000#32 = .ok 0x80000000#32 ∧
    UnOp.ceil.f ((Build32.sse false ⟨true, false, false⟩).lane P') 0xbf000000#32 = .ok 0#32 := by
  constructor
  · exact congrArg Except.ok (show binary32.roundInt .up 0xbf000000#32 = 0x80000000#32 by decide +kernel)
  · refine congrArg Except.ok ?_
    change Sse.ceil ⟨true, false, false⟩ (P'.x86 binary32) _ = _
    unfold Sse.ceil
    rw [if_neg (by decide), show vecCeil (Sse.ops ⟨true, false, false⟩ (P'.x86 binary32)) 0xbf000000#32 =
      vecCeil (Sse.ops ⟨true, false, false⟩ (platform0.x86 binary32)) 0xbf000000#32 from rfl]
    decide +kernel

/-- `round` of the `double` 0.5 is 0 with SSE4.1 and 1 without. -/
theorem C91_negation_round_double (P P' : Platform 64) :
    UnOp.round.f ((Build64.sse2 true false).lane P) 0x3fe0000000000000#64 = .ok 0#64 ∧
    UnOp.round.f ((Build64.sse2 false false).lane P') 0x3fe0000000000000#64 = .ok 0x3ff0000000000000#64 := by
  constructor
  · exact congrArg Except.ok (show binary64.roundInt .nearest 0x3fe0000000000000#64 = 0#64 by decide +kernel)
  · exact congrArg Except.ok (show binary64.roundInt .away 0x3fe0000000000000#64 = 0x3ff0000000000000#64 by decide +kernel)

/-! ## Examples -/

example : (Build32.sse false ⟨true, false, false⟩).simdMath = true ∧ (Build32.avx true).simdMath = true ∧
    SameFactors platform0 { platform0 with junk := fun _ => 7#32, ndebug := !platform0.ndebug } ∧
    IsFin binary32 0x3fc00000#32 ∧ UnAlike (.sse false ⟨true, false, false⟩) (.avx true) .sin (binary32.toReal 0x3fc00000#32) ∧
    (Build32.sse false ⟨true, false, false⟩).target.perLine ∣ (32#32).toNat ∧ (Build32.avx true).target.perLine ∣ (32#32).toNat :=
  ⟨rfl, rfl, ⟨rfl, rfl⟩, by decide, trivial, by decide, by decide⟩

end Nova
