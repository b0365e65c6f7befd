import Verif.Lemmas.Reference
import Verif.Props.C01_Elementwise
import Verif.Props.C85_NaN

/-!
# C106: reference points are exact

At the arguments listed in `SpecReference` (0 dB is a gain of one, midi note 69 is 440 Hz, the sine of silence is silent …) every
build returns the exact value: `C106_unary_float`, `C106_unary_double`, `C106_binary_float`, `C106_binary_double`, and whole calls
`C106_unary_call_float` ….  It fails for powers of zero: `C106_negation_pow`, `C106_negation_spow`.
-/

namespace Nova
open FP VecMath Spec

theorem refLits32 : RefLits binary32 litD32 where
  two := by have := exactly_units (F := binary32) (x := litD32 2) 2 (by decide +kernel) (by decide +kernel); exact_mod_cast this
  ten := by have := exactly_units (F := binary32) (x := litD32 10) 10 (by decide +kernel) (by decide +kernel); exact_mod_cast this
  twelve := by have := exactly_units (F := binary32) (x := litD32 12) 12 (by decide +kernel) (by decide +kernel); exact_mod_cast this
  twenty := by have := exactly_units (F := binary32) (x := litD32 20) 20 (by decide +kernel) (by decide +kernel); exact_mod_cast this
  a := by have := exactly_units (F := binary32) (x := litD32 440) 440 (by decide +kernel) (by decide +kernel); exact_mod_cast this
  base := by have := exactly_units (F := binary32) (x := litD32 69) 69 (by decide +kernel) (by decide +kernel); exact_mod_cast this
  oct := by
    have := exactly_units4 (F := binary32) (x := litD32 4.75) 19 (by decide +kernel) (by decide +kernel)
    exact ⟨this.1, this.2.trans (by norm_num)⟩
  twelfth := by decide +kernel
  twentieth := by decide +kernel

theorem refLits64 : RefLits binary64 binary64.ofRat where
  two := by have := exactly_units (F := binary64) (x := binary64.ofRat 2) 2 (by decide +kernel) (by decide +kernel); exact_mod_cast this
  ten := by have := exactly_units (F := binary64) (x := binary64.ofRat 10) 10 (by decide +kernel) (by decide +kernel); exact_mod_cast this
  twelve := by have := exactly_units (F := binary64) (x := binary64.ofRat 12) 12 (by decide +kernel) (by decide +kernel); exact_mod_cast this
  twenty := by have := exactly_units (F := binary64) (x := binary64.ofRat 20) 20 (by decide +kernel) (by decide +kernel); exact_mod_cast this
  a := by have := exactly_units (F := binary64) (x := binary64.ofRat 440) 440 (by decide +kernel) (by decide +kernel); exact_mod_cast this
  base := by have := exactly_units (F := binary64) (x := binary64.ofRat 69) 69 (by decide +kernel) (by decide +kernel); exact_mod_cast this
  oct := by
    have := exactly_units4 (F := binary64) (x := binary64.ofRat 4.75) 19 (by decide +kernel) (by decide +kernel)
    exact ⟨this.1, this.2.trans (by norm_num)⟩
  twelfth := by decide +kernel
  twentieth := by decide +kernel

theorem silence_exactly64 : Exactly binary64 0#64 0 := by
  have := exactly_units (F := binary64) (x := 0#64) 0 (by decide +kernel) (by decide +kernel)
  exact_mod_cast this

theorem lane_reference32 (b : Build32) (P : Platform 32) (hM : P.M.Reference binary32) (h2 : IsFin binary32 P.r2)
    (h10 : IsFin binary32 P.r10) : RefMath (!ownMath b) binary32 (b.lane P) := by
  by_cases hm : ownMath b = true
  · rw [hm]; exact own_reference b hm P h2 h10
  · have hm' : ownMath b = false := by simpa using hm
    have T := b.library hm' P
    rw [hm']
    refine library_reference hM T.sin T.cos T.tan T.asin T.acos T.atan T.tanh T.log T.log2 T.log10 T.exp T.pow fun x y => ?_
    cases b with
    | sse s f =>
      have hf : f.sse2 = false := by simpa [ownMath] using hm'
      simp only [Build32.lane, Sse.arith, hf]
      rfl
    | avx f => exact absurd rfl hm
    | _ => rfl

theorem lane_reference64 (b : Build64) (P : Platform 64) (hM : P.M.Reference binary64) : RefMath true binary64 (b.lane P) := by
  refine library_reference hM ?_ ?_ ?_ ?_ ?_ ?_ ?_ ?_ ?_ ?_ ?_ ?_ fun x y => ?_ <;> (cases b <;> rfl)

/-- Scalar and SIMD versions of the functions of one `float`. -/
theorem C106_unary_float (b : Build32) (P : Platform 32) (hM : P.M.Reference binary32) (h2 : IsFin binary32 P.r2)
    (h10 : IsFin binary32 P.r10) (op : UnOp) {x : BitVec 32} {a v : ℝ} (hx : Exactly binary32 x a) (h : UnReference op a v) :
    (∃ y, op.f (b.lane P) x = .ok y ∧ Exactly binary32 y v) ∧ ∃ y, op.f (Build32.scalar P) x = .ok y ∧ Exactly binary32 y v := by
  have key : ∀ b : Build32, ∃ y, op.f (b.lane P) x = .ok y ∧ Exactly binary32 y v := fun b =>
    unary_reference (lane_orderOps32 b P) (lane_abs32 b P) (lane_reference32 b P hM h2 h10) (by rw [lane_lit32]; exact refLits32)
      zero_rep32 op hx h
  exact ⟨key b, key .generic⟩

/-- Scalar and SIMD versions of the functions of one `double`. -/
theorem C106_unary_double (b : Build64) (P : Platform 64) (hM : P.M.Reference binary64) (op : UnOp) {x : BitVec 64} {a v : ℝ}
    (hx : Exactly binary64 x a) (h : UnReference op a v) :
    (∃ y, op.f (b.lane P) x = .ok y ∧ Exactly binary64 y v) ∧ ∃ y, op.f (Build64.scalar P) x = .ok y ∧ Exactly binary64 y v := by
  have key : ∀ b : Build64, ∃ y, op.f (b.lane P) x = .ok y ∧ Exactly binary64 y v := fun b => by
    have hl : (b.lane P).lit = binary64.ofRat := by cases b <;> rfl
    exact unary_reference (lane_orderOps64 b P) (abs_lane64 b P) (lane_reference64 b P hM) (hl ▸ refLits64)
      silence_exactly64.representable op hx h
  exact ⟨key b, key .generic⟩

/-- SIMD versions of the functions of two `float`s: own powers of zero are excluded. -/
theorem C106_binary_float_partial (b : Build32) (P : Platform 32) (hM : P.M.Reference binary32) (h2 : IsFin binary32 P.r2)
    (h10 : IsFin binary32 P.r10) (op : BinOp) {x y : BitVec 32} {a c v : ℝ} (hx : Exactly binary32 x a)
    (hy : Exactly binary32 y c) (h : BinReference (!ownMath b) op a c v) : Exactly binary32 (op.f (b.lane P) x y) v :=
  binary_reference (lane_reference32 b P hM h2 h10) op hx hy h

/-- Scalar versions of the functions of two `float`s. -/
theorem C106_binary_scalar_float (P : Platform 32) (hM : P.M.Reference binary32) (h2 : IsFin binary32 P.r2)
    (h10 : IsFin binary32 P.r10) (op : BinOp) {x y : BitVec 32} {a c v : ℝ} (hx : Exactly binary32 x a)
    (hy : Exactly binary32 y c) (h : BinReference true op a c v) : Exactly binary32 (op.f (Build32.scalar P) x y) v :=
  binary_reference (lane_reference32 .generic P hM h2 h10) op hx hy h

/-- Scalar and SIMD versions of the functions of two `double`s. -/
theorem C106_binary_double (b : Build64) (P : Platform 64) (hM : P.M.Reference binary64) (op : BinOp) {x y : BitVec 64}
    {a c v : ℝ} (hx : Exactly binary64 x a) (hy : Exactly binary64 y c) (h : BinReference true op a c v) :
    Exactly binary64 (op.f (b.lane P) x y) v ∧ Exactly binary64 (op.f (Build64.scalar P) x y) v :=
  ⟨binary_reference (lane_reference64 b P hM) op hx hy h, binary_reference (lane_reference64 .generic P hM) op hx hy h⟩

/-! ## Whole calls -/

/-- `f_vec_simd(out, in, n)` of a `float` buffer: exact wherever the sample is a reference point. -/
theorem C106_unary_call_float (b : Build32) (P : Platform 32) (hM : P.M.Reference binary32) (h2 : IsFin binary32 P.r2)
    (h10 : IsFin binary32 P.r10) (op : UnOp) {m : Mem (BitVec 32)} {out inp : Nat} {n : BitVec 32} {x y : Nat → BitVec 32}
    (hn : 0 < n.toNat) (hmul : b.target.perLine ∣ n.toNat) (hoal : b.target.align ∣ out) (hial : b.target.align ∣ inp)
    (hout : Allocated m out n.toNat) (hin : Holds m inp n.toNat x) (hs : SafePlacement out inp n.toNat)
    (hy : ∀ i < n.toNat, op.f (b.lane P) (x i) = .ok (y i)) :
    op.vecSimd (b.vec P) out inp n m = .ok ((), overwrite m out n.toNat y) ∧
      ∀ i < n.toNat, ∀ a v, Exactly binary32 (x i) a → UnReference op a v → Exactly binary32 (y i) v := by
  refine ⟨C01_unary_simd b.target (b.env P) op hn hmul hoal hial hout hin hs hy, fun i hi a v hx h => ?_⟩
  obtain ⟨r, hr, e⟩ := (C106_unary_float b P hM h2 h10 op hx h).1
  rw [hy i hi] at hr
  cases hr
  exact e

/-- The same of `double`s. -/
theorem C106_unary_call_double (b : Build64) (P : Platform 64) (hM : P.M.Reference binary64) (op : UnOp)
    {m : Mem (BitVec 64)} {out inp : Nat} {n : BitVec 32} {x y : Nat → BitVec 64}
    (hn : 0 < n.toNat) (hmul : b.target.perLine ∣ n.toNat) (hoal : b.target.align ∣ out) (hial : b.target.align ∣ inp)
    (hout : Allocated m out n.toNat) (hin : Holds m inp n.toNat x) (hs : SafePlacement out inp n.toNat)
    (hy : ∀ i < n.toNat, op.f (b.lane P) (x i) = .ok (y i)) :
    op.vecSimd (b.vec P) out inp n m = .ok ((), overwrite m out n.toNat y) ∧
      ∀ i < n.toNat, ∀ a v, Exactly binary64 (x i) a → UnReference op a v → Exactly binary64 (y i) v := by
  refine ⟨C01_unary_simd b.target (b.env P) op hn hmul hoal hial hout hin hs hy, fun i hi a v hx h => ?_⟩
  obtain ⟨r, hr, e⟩ := (C106_unary_double b P hM op hx h).1
  rw [hy i hi] at hr
  cases hr
  exact e

/-- `f_vec_simd(out, a, b, n)` of `float`s. -/
theorem C106_binary_call_float_partial (b : Build32) (P : Platform 32) (hM : P.M.Reference binary32) (h2 : IsFin binary32 P.r2)
    (h10 : IsFin binary32 P.r10) (op : BinOp) {m : Mem (BitVec 32)} {out : Nat} {a c : SArg (BitVec 32)} {n : BitVec 32}
    {x y : Nat → BitVec 32} (hn : 0 < n.toNat) (hmul : b.target.perLine ∣ n.toNat) (hoal : b.target.align ∣ out)
    (hout : Allocated m out n.toNat) (ha : SimdSupplies (b.vec P) b.target.align m out n.toNat a x)
    (hc : SimdSupplies (b.vec P) b.target.align m out n.toNat c y) :
    ∃ z, op.vecSimd (b.vec P) out a c n m = .ok ((), overwrite m out n.toNat z) ∧
      ∀ i < n.toNat, ∀ u t v, Exactly binary32 (x i) u → Exactly binary32 (y i) t → BinReference (!ownMath b) op u t v →
        Exactly binary32 (z i) v :=
  ⟨_, C02_binary_simd b.target (b.env P) op hn hmul hoal hout ha hc, fun _ _ _ _ _ hx hy h =>
    C106_binary_float_partial b P hM h2 h10 op hx hy h⟩

/-- The same of `double`s. -/
theorem C106_binary_call_double (b : Build64) (P : Platform 64) (hM : P.M.Reference binary64) (op : BinOp)
    {m : Mem (BitVec 64)} {out : Nat} {a c : SArg (BitVec 64)} {n : BitVec 32}
    {x y : Nat → BitVec 64} (hn : 0 < n.toNat) (hmul : b.target.perLine ∣ n.toNat) (hoal : b.target.align ∣ out)
    (hout : Allocated m out n.toNat) (ha : SimdSupplies (b.vec P) b.target.align m out n.toNat a x)
    (hc : SimdSupplies (b.vec P) b.target.align m out n.toNat c y) :
    ∃ z, op.vecSimd (b.vec P) out a c n m = .ok ((), overwrite m out n.toNat z) ∧
      ∀ i < n.toNat, ∀ u t v, Exactly binary64 (x i) u → Exactly binary64 (y i) t → BinReference true op u t v →
        Exactly binary64 (z i) v :=
  ⟨_, C02_binary_simd b.target (b.env P) op hn hmul hoal hout ha hc, fun _ _ _ _ _ hx hy h =>
    (C106_binary_double b P hM op hx hy h).1⟩

/-! ## Powers of zero -/

/-- `pow(0, 0)` of the C library is one, the own vector version returns zero. -/
theorem C106_negation_pow (b : Build32) (hb : ownMath b = true) (P : Platform 32) (hM : P.M.Reference binary32) :
    (b.lane P).pow 0#32 0#32 = 0#32 ∧ Exactly binary32 ((Build32.scalar P).pow 0#32 0#32) 1 := by
  have z : Exactly binary32 0#32 0 := by
    have := exactly_units (F := binary32) (x := 0#32) 0 (by decide +kernel) (by decide +kernel)
    exact_mod_cast this
  refine ⟨?_, hM.pow_zero _ _ z⟩
  have T := b.templates hb P
  rw [T.pow]
  unfold vecPow
  dsimp only
  rw [T.ieee.eq, T.ieee.sel, T.ieee.zero, if_pos (by decide)]

/-- The scalar `spow(0, 0)` is minus one: zero counts as negative. -/
theorem C106_negation_spow (P : Platform 32) (hM : P.M.Reference binary32) :
    Exactly binary32 ((Build32.scalar P).signedPow 0#32 0#32) (-1) := by
  have z : Exactly binary32 0#32 0 := by
    have := exactly_units (F := binary32) (x := 0#32) 0 (by decide +kernel) (by decide +kernel)
    exact_mod_cast this
  change Exactly binary32 (Scalar.signedPow binary32 P.M.pow 0#32 0#32) (-1)
  unfold Scalar.signedPow
  rw [if_neg (by decide)]
  exact (hM.pow_zero _ _ z).negate

/-! ## The hypotheses can be met -/

theorem unity_exactly32 : Exactly binary32 0x3f800000#32 1 := by
  have := exactly_units (F := binary32) (x := 0x3f800000#32) 1 (by decide +kernel) (by decide +kernel)
  exact_mod_cast this

theorem silence_exactly32 : Exactly binary32 0#32 0 := by
  have := exactly_units (F := binary32) (x := 0#32) 0 (by decide +kernel) (by decide +kernel)
  exact_mod_cast this

/-- A C library that is exact at the reference points (and nowhere else right). -/
example : (⟨fun _ => 0#32, fun _ => 0x3f800000#32, fun _ => 0#32, fun _ => 0#32, fun _ => 0#32, fun _ => 0#32, fun _ => 0#32,
    fun _ => 0#32, fun _ => 0#32, fun _ => 0#32, fun _ => 0x3f800000#32, fun _ _ => 0x3f800000#32⟩ : Libm 32).Reference binary32 := by
  constructor <;> intros <;> first | exact silence_exactly32 | exact unity_exactly32

example : Exactly binary32 (litD32 69) 69 ∧ UnReference .midi2freq 69 440 ∧ UnReference .amp2db (-1) 0 ∧
    UnReference .oct2freq 4.75 440 ∧ BinReference false .pow 10 0 1 ∧ BinReference false .spow (-1) 3 (-1) := by
  refine ⟨refLits32.base, ⟨rfl, rfl⟩, ⟨by norm_num, rfl⟩, ⟨rfl, rfl⟩, ⟨.inl ⟨rfl, fun h => absurd h (by norm_num)⟩, rfl⟩,
    ⟨.inr (by norm_num), ?_⟩⟩
  unfold sgn
  norm_num

end Nova
