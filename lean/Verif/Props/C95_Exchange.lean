import Verif.Lemmas.Exchange
import Verif.Props.C01_Elementwise
import Verif.Props.C33_Bits
import Verif.Examples

/-!
# C95 Exchanging arguments

Sums, products, minima, maxima and comparisons do not depend on the order in which the arguments are written (with the mirrored
comparison), differences change their sign, and complementary comparisons partition all pairs of numbers.
-/

namespace Nova
open FP Spec

variable {w : Nat} {F : Fmt w}

theorem Spec.Rel.Holds.swap {x y : BitVec w} {r r' : Rel} (h : mirror r.op = some r'.op) : r.Holds F x y ↔ r'.Holds F y x := by
  cases r <;> cases r' <;> first | (exact absurd h (by decide)) | skip
  · exact ⟨fun ⟨a, b, c⟩ => ⟨b, a, c⟩, fun ⟨a, b, c⟩ => ⟨b, a, c⟩⟩
  · exact ⟨fun ⟨a, b, c⟩ => ⟨b, a, c⟩, fun ⟨a, b, c⟩ => ⟨b, a, c⟩⟩
  · exact ⟨fun ⟨a, b, c⟩ => ⟨b, a, c⟩, fun ⟨a, b, c⟩ => ⟨b, a, c⟩⟩
  · exact ⟨fun ⟨a, b, c⟩ => ⟨b, a, c⟩, fun ⟨a, b, c⟩ => ⟨b, a, c⟩⟩
  · exact ⟨fun ⟨a, b, c⟩ => ⟨b, a, c.symm⟩, fun ⟨a, b, c⟩ => ⟨b, a, c.symm⟩⟩
  · exact not_congr ⟨fun ⟨a, b, c⟩ => ⟨b, a, c.symm⟩, fun ⟨a, b, c⟩ => ⟨b, a, c.symm⟩⟩

/-- The comparisons of a class on numbers. -/
def RelOk (F : Fmt w) (A : Arith (BitVec w)) (one zero : BitVec w) : Prop :=
  ∀ (r : Rel) (x y : BitVec w), Num F x → Num F y →
    (r.Holds F x y → r.op.f A x y = one) ∧ (¬ r.Holds F x y → r.op.f A x y = zero)

theorem rel_mirror {A : Arith (BitVec w)} {one zero : BitVec w} (R : RelOk F A one zero) {r r' : Rel}
    (h : mirror r.op = some r'.op) {x y : BitVec w} (hx : Num F x) (hy : Num F y) : r.op.f A x y = r'.op.f A y x := by
  by_cases hh : r.Holds F x y
  · rw [(R r x y hx hy).1 hh, (R r' y x hy hx).1 ((Rel.Holds.swap h).mp hh)]
  · rw [(R r x y hx hy).2 hh, (R r' y x hy hx).2 fun q => hh ((Rel.Holds.swap h).mpr q)]

theorem mirror_binary {A : Arith (BitVec w)} {one zero : BitVec w} (O : OrderOps F A) (X : ExchangeOps F A)
    (R : RelOk F A one zero) {op op' : BinOp} (h : mirror op = some op') {x y : BitVec w} (hx : Num F x) (hy : Num F y) :
    Same F (op.f A x y) (op'.f A y x) := by
  have sums : A.add x y = A.add y x := by rw [O.add]; exact add_comm_num hx hy
  cases op <;> simp only [mirror, Option.some.injEq, reduceCtorEq] at h <;> subst h
  · exact .inl sums
  · exact .inl (X.mul hx hy)
  · exact same_of_value F (O.min.num hx hy) (O.min.num hy hx) (by rw [BinOp.f, O.min.val x y hx hy, O.min.val y x hy hx, min_comm])
  · exact same_of_value F (O.max.num hx hy) (O.max.num hy hx) (by rw [BinOp.f, O.max.val x y hx hy, O.max.val y x hy hx, max_comm])
  · exact .inl (rel_mirror R (r := .less) (r' := .greater) rfl hx hy)
  · exact .inl (rel_mirror R (r := .lessEqual) (r' := .greaterEqual) rfl hx hy)
  · exact .inl (rel_mirror R (r := .greater) (r' := .less) rfl hx hy)
  · exact .inl (rel_mirror R (r := .greaterEqual) (r' := .lessEqual) rfl hx hy)
  · exact .inl (rel_mirror R (r := .equal) (r' := .equal) rfl hx hy)
  · exact .inl (rel_mirror R (r := .notEqual) (r' := .notEqual) rfl hx hy)
  · exact .inl sums

/-- Only minimum and maximum may return zeros of different signs. -/
theorem mirror_bits {A : Arith (BitVec w)} {one zero : BitVec w} (O : OrderOps F A) (X : ExchangeOps F A)
    (R : RelOk F A one zero) {op op' : BinOp} (h : mirror op = some op') (h1 : op ≠ .min) (h2 : op ≠ .max) {x y : BitVec w}
    (hx : Num F x) (hy : Num F y) : op.f A x y = op'.f A y x := by
  have sums : A.add x y = A.add y x := by rw [O.add]; exact add_comm_num hx hy
  cases op <;> simp only [mirror, Option.some.injEq, reduceCtorEq] at h <;> subst h
  · exact sums
  · exact X.mul hx hy
  · exact absurd rfl h1
  · exact absurd rfl h2
  · exact rel_mirror R (r := .less) (r' := .greater) rfl hx hy
  · exact rel_mirror R (r := .lessEqual) (r' := .greaterEqual) rfl hx hy
  · exact rel_mirror R (r := .greater) (r' := .less) rfl hx hy
  · exact rel_mirror R (r := .greaterEqual) (r' := .lessEqual) rfl hx hy
  · exact rel_mirror R (r := .equal) (r' := .equal) rfl hx hy
  · exact rel_mirror R (r := .notEqual) (r' := .notEqual) rfl hx hy
  · exact sums

theorem rel32 (b : Build32) (P : Platform 32) : RelOk binary32 (b.lane P) 0x3f800000#32 0x00000000#32 :=
  fun r x y hx hy => C35_relational_avx_float_partial b P r x y hx hy

theorem rel64 (b : Build64) (P : Platform 64) : RelOk binary64 (b.lane P) 0x3ff0000000000000#64 0x0000000000000000#64 :=
  fun r x y hx hy => C35_relational_avx_double_partial b P r x y hx hy

/-- One element of a function of two `float`s: exchanging the arguments gives the same number. -/
theorem C95_mirror_float (b : Build32) (P : Platform 32) {op op' : BinOp} (h : mirror op = some op') (x y : BitVec 32)
    (hx : Num binary32 x) (hy : Num binary32 y) :
    Same binary32 (op.f (b.lane P) x y) (op'.f (b.lane P) y x) ∧
    (op ≠ .min → op ≠ .max → op.f (b.lane P) x y = op'.f (b.lane P) y x) :=
  ⟨mirror_binary (lane_orderOps32 b P) (exchange32 b P) (rel32 b P) h hx hy,
    fun h1 h2 => mirror_bits (lane_orderOps32 b P) (exchange32 b P) (rel32 b P) h h1 h2 hx hy⟩

theorem C95_mirror_double (b : Build64) (P : Platform 64) {op op' : BinOp} (h : mirror op = some op') (x y : BitVec 64)
    (hx : Num binary64 x) (hy : Num binary64 y) :
    Same binary64 (op.f (b.lane P) x y) (op'.f (b.lane P) y x) ∧
    (op ≠ .min → op ≠ .max → op.f (b.lane P) x y = op'.f (b.lane P) y x) :=
  ⟨mirror_binary (lane_orderOps64 b P) (exchange64 b P) (rel64 b P) h hx hy,
    fun h1 h2 => mirror_bits (lane_orderOps64 b P) (exchange64 b P) (rel64 b P) h h1 h2 hx hy⟩

theorem sub_swap {x y : BitVec w} (hx : Num F x) (hy : Num F y) : Opposite F (F.sub x y) (F.sub y x) := by
  have nx : Num F (F.negate x) := by unfold Num; rw [F.isNaN_negate]; exact hx
  rw [Opposite.sub_def x y hx hy, Opposite.sub_def y x hy hx, add_comm_num hy nx]
  have := Opposite.add_neg (F := F) x (F.negate y)
  rw [F.negate_negate] at this
  exact this

/-- `a - b` is the negative of `b - a`. -/
theorem C95_minus (b : Build32) (P : Platform 32) (b' : Build64) (P' : Platform 64) :
    (∀ x y, Num binary32 x → Num binary32 y →
      Opposite binary32 (BinOp.minus.f (b.lane P) x y) (BinOp.minus.f (b.lane P) y x)) ∧
    (∀ x y, Num binary64 x → Num binary64 y →
      Opposite binary64 (BinOp.minus.f (b'.lane P') x y) (BinOp.minus.f (b'.lane P') y x)) := by
  refine ⟨fun x y hx hy => ?_, fun x y hx hy => ?_⟩
  · change Opposite binary32 ((b.lane P).sub x y) ((b.lane P).sub y x)
    rw [(lane_orderOps32 b P).sub]; exact sub_swap hx hy
  · change Opposite binary64 ((b'.lane P').sub x y) ((b'.lane P').sub y x)
    rw [(lane_orderOps64 b' P').sub]; exact sub_swap hx hy

theorem opposite_holds {x y : BitVec w} (hx : Num F x) (hy : Num F y) (r : Rel) : (opposite r).Holds F x y ↔ ¬ r.Holds F x y := by
  cases r
  · exact ⟨fun ⟨_, _, c⟩ ⟨_, _, d⟩ => absurd d (not_lt.mpr c), fun h => ⟨hx, hy, not_lt.mp fun c => h ⟨hx, hy, c⟩⟩⟩
  · exact ⟨fun ⟨_, _, c⟩ ⟨_, _, d⟩ => absurd d (not_le.mpr c), fun h => ⟨hx, hy, not_le.mp fun c => h ⟨hx, hy, c⟩⟩⟩
  · exact ⟨fun ⟨_, _, c⟩ ⟨_, _, d⟩ => absurd d (not_lt.mpr c), fun h => ⟨hx, hy, not_lt.mp fun c => h ⟨hx, hy, c⟩⟩⟩
  · exact ⟨fun ⟨_, _, c⟩ ⟨_, _, d⟩ => absurd d (not_le.mpr c), fun h => ⟨hx, hy, not_le.mp fun c => h ⟨hx, hy, c⟩⟩⟩
  · exact Iff.rfl
  · exact not_not.symm

/-- Of a comparison and its opposite, exactly one returns 1.0 and the other one 0.0. -/
theorem C95_opposite_float (b : Build32) (P : Platform 32) (r : Rel) (x y : BitVec 32) (hx : Num binary32 x)
    (hy : Num binary32 y) :
    (r.op.f (b.lane P) x y = 0x3f800000#32 ∧ (opposite r).op.f (b.lane P) x y = 0x00000000#32) ∨
    (r.op.f (b.lane P) x y = 0x00000000#32 ∧ (opposite r).op.f (b.lane P) x y = 0x3f800000#32) := by
  by_cases h : r.Holds binary32 x y
  · exact .inl ⟨(rel32 b P r x y hx hy).1 h, (rel32 b P _ x y hx hy).2 fun q => (opposite_holds hx hy r).mp q h⟩
  · exact .inr ⟨(rel32 b P r x y hx hy).2 h, (rel32 b P _ x y hx hy).1 ((opposite_holds hx hy r).mpr h)⟩

theorem C95_opposite_double (b : Build64) (P : Platform 64) (r : Rel) (x y : BitVec 64) (hx : Num binary64 x)
    (hy : Num binary64 y) :
    (r.op.f (b.lane P) x y = 0x3ff0000000000000#64 ∧ (opposite r).op.f (b.lane P) x y = 0x0000000000000000#64) ∨
    (r.op.f (b.lane P) x y = 0x0000000000000000#64 ∧ (opposite r).op.f (b.lane P) x y = 0x3ff0000000000000#64) := by
  by_cases h : r.Holds binary64 x y
  · exact .inl ⟨(rel64 b P r x y hx hy).1 h, (rel64 b P _ x y hx hy).2 fun q => (opposite_holds hx hy r).mp q h⟩
  · exact .inr ⟨(rel64 b P r x y hx hy).2 h, (rel64 b P _ x y hx hy).1 ((opposite_holds hx hy r).mpr h)⟩

/-- The AVX comparisons with a NaN break the rule: `a > b` returns 1.0 while `b < a` returns 0.0. -/
theorem C95_negation_avx_nan (fma : Bool) (P : Platform 32) :
    BinOp.greater.f ((Build32.avx fma).lane P) 0x7fc00000#32 0x3f800000#32 = 0x3f800000#32 ∧
    BinOp.less.f ((Build32.avx fma).lane P) 0x3f800000#32 0x7fc00000#32 = 0x00000000#32 := by
  have hn : ¬ Num binary32 0x7fc00000#32 := by unfold Num; decide
  refine ⟨(C35_avx_greater_nan_float fma P .greater rfl _ _ (.inl hn)).1, ?_⟩
  exact (C35_relational_float (.avx fma) P .less _ _ rfl).2 fun h => hn h.2.1

/-! ## Three and four arguments -/

theorem ternary_exchange {A : Arith (BitVec w)} (O : OrderOps F A) (X : ExchangeOps F A) {op : TerOp} {x y z : BitVec w}
    {p : BitVec w × BitVec w × BitVec w} (h : TerExchange op x y z = some p) (hx : Num F x) (hy : Num F y) (hz : Num F z) :
    op.f A x y z = op.f A p.1 p.2.1 p.2.2 := by
  cases op
  · exact absurd h (by simp [TerExchange])
  · obtain rfl : _ = p := Option.some.inj h
    exact X.madd hx hy z
  · obtain rfl : _ = p := Option.some.inj h
    exact congrArg (fun q => A.mul x (A.add A.one q)) (X.mul hy hz)
  · obtain rfl : _ = p := Option.some.inj h
    exact congrArg (A.add · z) (by rw [O.add]; exact add_comm_num hx hy)

theorem C95_ternary_float (b : Build32) (P : Platform 32) {op : TerOp} {x y z : BitVec 32} {p : BitVec 32 × BitVec 32 × BitVec 32}
    (h : TerExchange op x y z = some p) (hx : Num binary32 x) (hy : Num binary32 y) (hz : Num binary32 z) :
    op.f (b.lane P) x y z = op.f (b.lane P) p.1 p.2.1 p.2.2 :=
  ternary_exchange (lane_orderOps32 b P) (exchange32 b P) h hx hy hz

theorem C95_ternary_double (b : Build64) (P : Platform 64) {op : TerOp} {x y z : BitVec 64}
    {p : BitVec 64 × BitVec 64 × BitVec 64}
    (h : TerExchange op x y z = some p) (hx : Num binary64 x) (hy : Num binary64 y) (hz : Num binary64 z) :
    op.f (b.lane P) x y z = op.f (b.lane P) p.1 p.2.1 p.2.2 :=
  ternary_exchange (lane_orderOps64 b P) (exchange64 b P) h hx hy hz

theorem add_fin_num {x y : BitVec w} (hx : IsFin F x) (hy : IsFin F y) : Num F (F.add x y) := by
  unfold Num Fmt.add
  rw [F.isFinite_not_nan hx, F.isFinite_not_nan hy, F.isFinite_not_inf hx, F.isFinite_not_inf hy]
  simp only [Bool.or_self, Bool.false_eq_true, if_false]
  split
  · exact F.isNaN_pack_zero _
  · exact isNaN_packRnd F _ _ _

/-- Exchanging the two channels of `mix`, or the two halves of a sum of four; finite numbers. -/
theorem quad_exchange {A : Arith (BitVec w)} (O : OrderOps F A) (op : QuadOp) {x y z u : BitVec w} (hx : IsFin F x)
    (hy : IsFin F y) (hz : IsFin F z) (hu : IsFin F u) : op.f A x y z u = op.f A z u x y := by
  have n : ∀ {x}, IsFin F x → Num F x := fun h => F.isFinite_not_nan h
  cases op
  · change A.add (A.mul x y) (A.mul z u) = A.add (A.mul z u) (A.mul x y)
    rw [O.add]
    exact add_comm_num (O.mul_ok x y (n hx) (n hy) (.inl ⟨hx, hy⟩)) (O.mul_ok z u (n hz) (n hu) (.inl ⟨hz, hu⟩))
  · change A.add (A.add x y) (A.add z u) = A.add (A.add z u) (A.add x y)
    rw [O.add]
    exact add_comm_num (add_fin_num hx hy) (add_fin_num hz hu)

theorem C95_quad_float (b : Build32) (P : Platform 32) (op : QuadOp) (x y z u : BitVec 32) (hx : IsFin binary32 x)
    (hy : IsFin binary32 y) (hz : IsFin binary32 z) (hu : IsFin binary32 u) :
    op.f (b.lane P) x y z u = op.f (b.lane P) z u x y :=
  quad_exchange (lane_orderOps32 b P) op hx hy hz hu

theorem C95_quad_double (b : Build64) (P : Platform 64) (op : QuadOp) (x y z u : BitVec 64) (hx : IsFin binary64 x)
    (hy : IsFin binary64 y) (hz : IsFin binary64 z) (hu : IsFin binary64 u) :
    op.f (b.lane P) x y z u = op.f (b.lane P) z u x y :=
  quad_exchange (lane_orderOps64 b P) op hx hy hz hu

/-! ## Whole calls -/

/-- `f_vec_simd` with exchanged arguments leaves the same memory. -/
theorem C95_binary_calls_float (bd : Build32) (P : Platform 32) {op op' : BinOp} (h : mirror op = some op') (h1 : op ≠ .min)
    (h2 : op ≠ .max) {m : Mem (BitVec 32)} {out : Nat} {a b : SArg (BitVec 32)} {n : BitVec 32} {x y : Nat → BitVec 32}
    (hn : 0 < n.toNat) (hmul : bd.target.perLine ∣ n.toNat) (hoal : bd.target.align ∣ out) (hout : Allocated m out n.toNat)
    (ha : SimdSupplies (bd.vec P) bd.target.align m out n.toNat a x)
    (hb : SimdSupplies (bd.vec P) bd.target.align m out n.toNat b y)
    (hx : ∀ i, i < n.toNat → Num binary32 (x i) ∧ Num binary32 (y i)) :
    op.vecSimd (bd.vec P) out a b n m = op'.vecSimd (bd.vec P) out b a n m := by
  refine (C02_binary_simd bd.target (bd.env P) op hn hmul hoal hout ha hb).trans
    (Eq.trans ?_ (C02_binary_simd bd.target (bd.env P) op' hn hmul hoal hout hb ha).symm)
  exact congrArg (fun z => Except.ok ((), z))
    (overwrite_congr fun i hi => (C95_mirror_float bd P h (x i) (y i) (hx i hi).1 (hx i hi).2).2 h1 h2)

theorem C95_binary_calls_double (bd : Build64) (P : Platform 64) {op op' : BinOp} (h : mirror op = some op') (h1 : op ≠ .min)
    (h2 : op ≠ .max) {m : Mem (BitVec 64)} {out : Nat} {a b : SArg (BitVec 64)} {n : BitVec 32} {x y : Nat → BitVec 64}
    (hn : 0 < n.toNat) (hmul : bd.target.perLine ∣ n.toNat) (hoal : bd.target.align ∣ out) (hout : Allocated m out n.toNat)
    (ha : SimdSupplies (bd.vec P) bd.target.align m out n.toNat a x)
    (hb : SimdSupplies (bd.vec P) bd.target.align m out n.toNat b y)
    (hx : ∀ i, i < n.toNat → Num binary64 (x i) ∧ Num binary64 (y i)) :
    op.vecSimd (bd.vec P) out a b n m = op'.vecSimd (bd.vec P) out b a n m := by
  refine (C02_binary_simd bd.target (bd.env P) op hn hmul hoal hout ha hb).trans
    (Eq.trans ?_ (C02_binary_simd bd.target (bd.env P) op' hn hmul hoal hout hb ha).symm)
  exact congrArg (fun z => Except.ok ((), z))
    (overwrite_congr fun i hi => (C95_mirror_double bd P h (x i) (y i) (hx i hi).1 (hx i hi).2).2 h1 h2)

/-- Exchanging the two channels of a mix. -/
theorem C95_quad_calls_float (bd : Build32) (P : Platform 32) (op : QuadOp) {m : Mem (BitVec 32)} {out : Nat}
    {a b c d : SArg (BitVec 32)} {n : BitVec 32} {x y z u : Nat → BitVec 32}
    (hn : 0 < n.toNat) (hmul : bd.target.perLine ∣ n.toNat) (hoal : bd.target.align ∣ out) (hout : Allocated m out n.toNat)
    (ha : SimdSupplies (bd.vec P) bd.target.align m out n.toNat a x)
    (hb : SimdSupplies (bd.vec P) bd.target.align m out n.toNat b y)
    (hc : SimdSupplies (bd.vec P) bd.target.align m out n.toNat c z)
    (hd : SimdSupplies (bd.vec P) bd.target.align m out n.toNat d u)
    (hx : ∀ i, i < n.toNat → (IsFin binary32 (x i) ∧ IsFin binary32 (y i)) ∧ IsFin binary32 (z i) ∧ IsFin binary32 (u i)) :
    op.vecSimd (bd.vec P) out a b c d n m = op.vecSimd (bd.vec P) out c d a b n m := by
  refine (C04_quad_simd bd.target (bd.env P) op hn hmul hoal hout ha hb hc hd).trans
    (Eq.trans ?_ (C04_quad_simd bd.target (bd.env P) op hn hmul hoal hout hc hd ha hb).symm)
  exact congrArg (fun z => Except.ok ((), z))
    (overwrite_congr fun i hi => C95_quad_float bd P op _ _ _ _ (hx i hi).1.1 (hx i hi).1.2 (hx i hi).2.1 (hx i hi).2.2)

theorem C95_quad_calls_double (bd : Build64) (P : Platform 64) (op : QuadOp) {m : Mem (BitVec 64)} {out : Nat}
    {a b c d : SArg (BitVec 64)} {n : BitVec 32} {x y z u : Nat → BitVec 64}
    (hn : 0 < n.toNat) (hmul : bd.target.perLine ∣ n.toNat) (hoal : bd.target.align ∣ out) (hout : Allocated m out n.toNat)
    (ha : SimdSupplies (bd.vec P) bd.target.align m out n.toNat a x)
    (hb : SimdSupplies (bd.vec P) bd.target.align m out n.toNat b y)
    (hc : SimdSupplies (bd.vec P) bd.target.align m out n.toNat c z)
    (hd : SimdSupplies (bd.vec P) bd.target.align m out n.toNat d u)
    (hx : ∀ i, i < n.toNat → (IsFin binary64 (x i) ∧ IsFin binary64 (y i)) ∧ IsFin binary64 (z i) ∧ IsFin binary64 (u i)) :
    op.vecSimd (bd.vec P) out a b c d n m = op.vecSimd (bd.vec P) out c d a b n m := by
  refine (C04_quad_simd bd.target (bd.env P) op hn hmul hoal hout ha hb hc hd).trans
    (Eq.trans ?_ (C04_quad_simd bd.target (bd.env P) op hn hmul hoal hout hc hd ha hb).symm)
  exact congrArg (fun z => Except.ok ((), z))
    (overwrite_congr fun i hi => C95_quad_double bd P op _ _ _ _ (hx i hi).1.1 (hx i hi).1.2 (hx i hi).2.1 (hx i hi).2.2)

/-- Minimum and maximum with exchanged arguments: the same numbers, up to the sign of zeros, and nothing else written. -/
theorem C95_minmax_calls_float (bd : Build32) (P : Platform 32) {op : BinOp} (h : op = .min ∨ op = .max)
    {m : Mem (BitVec 32)} {out : Nat} {a b : SArg (BitVec 32)} {n : BitVec 32} {x y : Nat → BitVec 32}
    (hn : 0 < n.toNat) (hmul : bd.target.perLine ∣ n.toNat) (hoal : bd.target.align ∣ out) (hout : Allocated m out n.toNat)
    (ha : SimdSupplies (bd.vec P) bd.target.align m out n.toNat a x)
    (hb : SimdSupplies (bd.vec P) bd.target.align m out n.toNat b y)
    (hx : ∀ i, i < n.toNat → Num binary32 (x i) ∧ Num binary32 (y i)) :
    ∃ r r' : Nat → BitVec 32, op.vecSimd (bd.vec P) out a b n m = .ok ((), overwrite m out n.toNat r) ∧
      op.vecSimd (bd.vec P) out b a n m = .ok ((), overwrite m out n.toNat r') ∧
      ∀ i, i < n.toNat → Same binary32 (r i) (r' i) :=
  ⟨_, _, C02_binary_simd bd.target (bd.env P) op hn hmul hoal hout ha hb,
    C02_binary_simd bd.target (bd.env P) op hn hmul hoal hout hb ha, fun i hi =>
      (C95_mirror_float bd P (by rcases h with h | h <;> rw [h] <;> rfl) (x i) (y i) (hx i hi).1 (hx i hi).2).1⟩

theorem C95_minmax_calls_double (bd : Build64) (P : Platform 64) {op : BinOp} (h : op = .min ∨ op = .max)
    {m : Mem (BitVec 64)} {out : Nat} {a b : SArg (BitVec 64)} {n : BitVec 32} {x y : Nat → BitVec 64}
    (hn : 0 < n.toNat) (hmul : bd.target.perLine ∣ n.toNat) (hoal : bd.target.align ∣ out) (hout : Allocated m out n.toNat)
    (ha : SimdSupplies (bd.vec P) bd.target.align m out n.toNat a x)
    (hb : SimdSupplies (bd.vec P) bd.target.align m out n.toNat b y)
    (hx : ∀ i, i < n.toNat → Num binary64 (x i) ∧ Num binary64 (y i)) :
    ∃ r r' : Nat → BitVec 64, op.vecSimd (bd.vec P) out a b n m = .ok ((), overwrite m out n.toNat r) ∧
      op.vecSimd (bd.vec P) out b a n m = .ok ((), overwrite m out n.toNat r') ∧
      ∀ i, i < n.toNat → Same binary64 (r i) (r' i) :=
  ⟨_, _, C02_binary_simd bd.target (bd.env P) op hn hmul hoal hout ha hb,
    C02_binary_simd bd.target (bd.env P) op hn hmul hoal hout hb ha, fun i hi =>
      (C95_mirror_double bd P (by rcases h with h | h <;> rw [h] <;> rfl) (x i) (y i) (hx i hi).1 (hx i hi).2).1⟩

/-- Exchanging the factors of `muladd` and the first summands of `sum`. -/
theorem C95_ternary_calls_float (bd : Build32) (P : Platform 32) {op : TerOp} (h : op = .muladd ∨ op = .sum)
    {m : Mem (BitVec 32)} {out : Nat} {a b c : SArg (BitVec 32)} {n : BitVec 32} {x y z : Nat → BitVec 32}
    (hn : 0 < n.toNat) (hmul : bd.target.perLine ∣ n.toNat) (hoal : bd.target.align ∣ out) (hout : Allocated m out n.toNat)
    (ha : SimdSupplies (bd.vec P) bd.target.align m out n.toNat a x)
    (hb : SimdSupplies (bd.vec P) bd.target.align m out n.toNat b y)
    (hc : SimdSupplies (bd.vec P) bd.target.align m out n.toNat c z)
    (hx : ∀ i, i < n.toNat → Num binary32 (x i) ∧ Num binary32 (y i) ∧ Num binary32 (z i)) :
    op.vecSimd (bd.vec P) out a b c n m = op.vecSimd (bd.vec P) out b a c n m := by
  refine (C03_ternary_simd bd.target (bd.env P) op hn hmul hoal hout ha hb hc).trans
    (Eq.trans ?_ (C03_ternary_simd bd.target (bd.env P) op hn hmul hoal hout hb ha hc).symm)
  exact congrArg (fun z => Except.ok ((), z)) (overwrite_congr fun i hi =>
    C95_ternary_float bd P (p := (y i, x i, z i)) (by rcases h with h | h <;> rw [h] <;> rfl) (hx i hi).1 (hx i hi).2.1 (hx i hi).2.2)

theorem C95_ternary_calls_double (bd : Build64) (P : Platform 64) {op : TerOp} (h : op = .muladd ∨ op = .sum)
    {m : Mem (BitVec 64)} {out : Nat} {a b c : SArg (BitVec 64)} {n : BitVec 32} {x y z : Nat → BitVec 64}
    (hn : 0 < n.toNat) (hmul : bd.target.perLine ∣ n.toNat) (hoal : bd.target.align ∣ out) (hout : Allocated m out n.toNat)
    (ha : SimdSupplies (bd.vec P) bd.target.align m out n.toNat a x)
    (hb : SimdSupplies (bd.vec P) bd.target.align m out n.toNat b y)
    (hc : SimdSupplies (bd.vec P) bd.target.align m out n.toNat c z)
    (hx : ∀ i, i < n.toNat → Num binary64 (x i) ∧ Num binary64 (y i) ∧ Num binary64 (z i)) :
    op.vecSimd (bd.vec P) out a b c n m = op.vecSimd (bd.vec P) out b a c n m := by
  refine (C03_ternary_simd bd.target (bd.env P) op hn hmul hoal hout ha hb hc).trans
    (Eq.trans ?_ (C03_ternary_simd bd.target (bd.env P) op hn hmul hoal hout hb ha hc).symm)
  exact congrArg (fun z => Except.ok ((), z)) (overwrite_congr fun i hi =>
    C95_ternary_double bd P (p := (y i, x i, z i)) (by rcases h with h | h <;> rw [h] <;> rfl) (hx i hi).1 (hx i hi).2.1 (hx i hi).2.2)

/-- `f_vec(out, a, b, n)`, the scalar loops. -/
theorem C95_scalar_calls_float (P : Platform 32) {op op' : BinOp} (h : mirror op = some op') (h1 : op ≠ .min)
    (h2 : op ≠ .max) {m : Mem (BitVec 32)} {out : Nat} {a b : SArg (BitVec 32)} {n : BitVec 32} {x y : Nat → BitVec 32}
    (hn : 0 < n.toNat) (hout : Allocated m out n.toNat)
    (ha : ScalarSupplies (Build32.generic.lane P) m out n.toNat a x)
    (hb : ScalarSupplies (Build32.generic.lane P) m out n.toNat b y)
    (hx : ∀ i, i < n.toNat → Num binary32 (x i) ∧ Num binary32 (y i)) :
    op.vec (Build32.generic.lane P) out a b n m = op'.vec (Build32.generic.lane P) out b a n m := by
  rw [C02_binary_scalar _ op hn hout ha hb, C02_binary_scalar _ op' hn hout hb ha]
  exact congrArg (fun z => Except.ok ((), z))
    (overwrite_congr fun i hi => (C95_mirror_float .generic P h (x i) (y i) (hx i hi).1 (hx i hi).2).2 h1 h2)

theorem C95_scalar_calls_double (P : Platform 64) {op op' : BinOp} (h : mirror op = some op') (h1 : op ≠ .min)
    (h2 : op ≠ .max) {m : Mem (BitVec 64)} {out : Nat} {a b : SArg (BitVec 64)} {n : BitVec 32} {x y : Nat → BitVec 64}
    (hn : 0 < n.toNat) (hout : Allocated m out n.toNat)
    (ha : ScalarSupplies (Build64.generic.lane P) m out n.toNat a x)
    (hb : ScalarSupplies (Build64.generic.lane P) m out n.toNat b y)
    (hx : ∀ i, i < n.toNat → Num binary64 (x i) ∧ Num binary64 (y i)) :
    op.vec (Build64.generic.lane P) out a b n m = op'.vec (Build64.generic.lane P) out b a n m := by
  rw [C02_binary_scalar _ op hn hout ha hb, C02_binary_scalar _ op' hn hout hb ha]
  exact congrArg (fun z => Except.ok ((), z))
    (overwrite_congr fun i hi => (C95_mirror_double .generic P h (x i) (y i) (hx i hi).1 (hx i hi).2).2 h1 h2)

/-- The exception for minimum and maximum is real: on SSE `min(+0, -0)` is `-0` and `min(-0, +0)` is `+0`. -/
theorem C95_negation_min_zero (s : Bool) (f : Sse.Flags) (P : Platform 32) :
    BinOp.min.f ((Build32.sse s f).lane P) 0x00000000#32 0x80000000#32 = 0x80000000#32 ∧
    BinOp.min.f ((Build32.sse s f).lane P) 0x80000000#32 0x00000000#32 = 0x00000000#32 := by
  exact (by decide +kernel : binary32.minps 0x00000000#32 0x80000000#32 = 0x80000000#32 ∧
    binary32.minps 0x80000000#32 0x00000000#32 = 0x00000000#32)

/-- A buffer compared with a threshold and the threshold with the buffer, in place, on AVX. -/
example (P : Platform 32) :
    BinOp.less.vecSimd ((Build32.avx true).vec P) 0 (.ptr 0) (.scalar 0x3f800000#32) 16#32
        (fun i => if i < 16 then some 0x40000000#32 else none) =
      BinOp.greater.vecSimd ((Build32.avx true).vec P) 0 (.scalar 0x3f800000#32) (.ptr 0) 16#32
        (fun i => if i < 16 then some 0x40000000#32 else none) :=
  C95_binary_calls_float (.avx true) P (op := .less) rfl (by decide) (by decide) (n := 16#32) (x := fun _ => 0x40000000#32)
    (y := fun _ => 0x3f800000#32) (by decide) (by decide) (by decide) (by unfold Allocated; decide)
    ⟨by decide, by unfold Holds; decide, .inl le_rfl⟩ (fun _ _ => rfl)
    fun i _ => ⟨by unfold Num; decide, by unfold Num; decide⟩

end Nova
