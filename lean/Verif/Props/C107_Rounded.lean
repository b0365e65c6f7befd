import Verif.Lemmas.Rounded

/-!
# C107 Elementary arithmetic is correctly rounded

A sum, difference, product, quotient, square, reciprocal or square root that is finite is the number of the format nearest to
the exact result, and of two numbers equally near the one with an even last bit (`SpecRounded`).  Classes that divide or take
square roots by estimates (NEON, AltiVec; reciprocals of `float` of all classes) are excluded.
-/

namespace Nova
open FP Spec VecMath

/-! ## One element -/

/-- One element of a unary function of `float`. -/
theorem C107_unary_float (b : Build32) (P : Platform 32) (op : UnOp) {x : BitVec 32} {v : ℝ} (hx : IsFin binary32 x)
    (h : UnRounded op (binary32.toReal x) v) (hs : op = .signedSqrt → b ≠ .neon) (hr : op = .reciprocal → b = .generic) :
    ∃ r, op.f (b.lane P) x = .ok r ∧ (IsFin binary32 r → CorrectlyRounded binary32 v r) := by
  cases op with
  | square => rw [h]; exact ⟨_, rfl, (lane_scaleOps32 b P).square_rounded hx⟩
  | reciprocal => rw [h, hr rfl]; exact ⟨_, rfl, reciprocal_rounded one_fin32 one_real32 hx⟩
  | signedSqrt =>
    have hb := hs rfl
    have he : b.exactSqrt = true := by cases b <;> first | rfl | exact absurd rfl hb
    refine ⟨_, rfl, fun _ => ?_⟩
    rw [h, signedSqrt_lane32 b he P (binary32.isFinite_not_nan hx)]
    exact root_rounded Fmt.wide32 (by decide) hx
  | _ => exact h.elim

/-- One element of a unary function of `double`: every build. -/
theorem C107_unary_double (b : Build64) (P : Platform 64) (op : UnOp) {x : BitVec 64} {v : ℝ} (hx : IsFin binary64 x)
    (h : UnRounded op (binary64.toReal x) v) :
    ∃ r, op.f (b.lane P) x = .ok r ∧ (IsFin binary64 r → CorrectlyRounded binary64 v r) := by
  cases op with
  | square => rw [h]; exact ⟨_, rfl, (lane_scaleOps64 b P).square_rounded hx⟩
  | reciprocal =>
    have e : (b.lane P).reciprocal x = binary64.div (binary64.ofInt 1) x := by
      rw [(lane_math64 b P).reciprocal]; exact scalar_reciprocal binary64 _ _ _ x
    refine ⟨_, rfl, ?_⟩
    rw [h, e]
    exact reciprocal_rounded one_fin64 one_real64 hx
  | signedSqrt =>
    refine ⟨_, rfl, fun _ => ?_⟩
    rw [h, signedSqrt_lane64 b P (binary64.isFinite_not_nan hx)]
    exact root_rounded Fmt.wide64 (by decide) hx
  | _ => exact h.elim

/-- One element of a binary function of `float`. -/
theorem C107_binary_float (b : Build32) (P : Platform 32) (op : BinOp) {x y : BitVec 32} {v : ℝ} (hx : IsFin binary32 x)
    (hy : IsFin binary32 y) (h : BinRounded op (binary32.toReal x) (binary32.toReal y) v) (ho : op = .over → divides b = true)
    (f : IsFin binary32 (op.f (b.lane P) x y)) : CorrectlyRounded binary32 v (op.f (b.lane P) x y) := by
  refine (lane_scaleOps32 b P).binary_rounded op (fun e => ?_) hx hy h f
  have hd := ho e
  cases b <;> first | rfl | exact absurd hd (by decide)

theorem C107_binary_double (b : Build64) (P : Platform 64) (op : BinOp) {x y : BitVec 64} {v : ℝ} (hx : IsFin binary64 x)
    (hy : IsFin binary64 y) (h : BinRounded op (binary64.toReal x) (binary64.toReal y) v)
    (f : IsFin binary64 (op.f (b.lane P) x y)) : CorrectlyRounded binary64 v (op.f (b.lane P) x y) :=
  (lane_scaleOps64 b P).binary_rounded op (fun _ => (lane_math64 b P).div) hx hy h f

/-- Fused classes round `x * y + z` once. -/
theorem C107_muladd_float (b : Build32) (hb : roundsOnce b = true) (P : Platform 32) {x y z : BitVec 32} (hx : IsFin binary32 x)
    (hy : IsFin binary32 y) (hz : IsFin binary32 z) (f : IsFin binary32 (TerOp.muladd.f (b.lane P) x y z)) :
    CorrectlyRounded binary32 (binary32.toReal x * binary32.toReal y + binary32.toReal z) (TerOp.muladd.f (b.lane P) x y z) := by
  have e : TerOp.muladd.f (b.lane P) x y z = binary32.fma x y z := by
    cases b with
    | sse s g => obtain ⟨s2, s41, fm⟩ := g; obtain rfl : fm = true := hb; rfl
    | avx g => obtain rfl : g = true := hb; rfl
    | altivec => rfl
    | _ => exact absurd hb (by decide)
  rw [e] at f ⊢
  exact (Fmt.fma_rounds hx hy hz).correctly f

theorem C107_muladd_double (b : Build64) (hb : roundsOnce64 b = true) (P : Platform 64) {x y z : BitVec 64} (hx : IsFin binary64 x)
    (hy : IsFin binary64 y) (hz : IsFin binary64 z) (f : IsFin binary64 (TerOp.muladd.f (b.lane P) x y z)) :
    CorrectlyRounded binary64 (binary64.toReal x * binary64.toReal y + binary64.toReal z) (TerOp.muladd.f (b.lane P) x y z) := by
  have e : TerOp.muladd.f (b.lane P) x y z = binary64.fma x y z := by
    cases b with
    | sse2 s g => obtain rfl : g = true := hb; rfl
    | avx g => obtain rfl : g = true := hb; rfl
    | generic => exact absurd hb (by decide)
  rw [e] at f ⊢
  exact (Fmt.fma_rounds hx hy hz).correctly f

/-- Classes that are not fused round twice, and the result need not be the nearest number: (1 + 2^-12)^2 - (1 + 2^-11) is 2^-24,
but the result is 0. -/
theorem C107_muladd_twice (P : Platform 32) :
    IsFin binary32 (TerOp.muladd.f (Build32.generic.lane P) 0x3f800800#32 0x3f800800#32 0xbf801000#32) ∧
    ¬ CorrectlyRounded binary32 (binary32.toReal 0x3f800800#32 * binary32.toReal 0x3f800800#32 + binary32.toReal 0xbf801000#32)
      (TerOp.muladd.f (Build32.generic.lane P) 0x3f800800#32 0x3f800800#32 0xbf801000#32) := by
  have e : TerOp.muladd.f (Build32.generic.lane P) 0x3f800800#32 0x3f800800#32 0xbf801000#32 = 0#32 := by
    have e : ∀ x y z : BitVec 32, TerOp.muladd.f (Build32.generic.lane P) x y z = binary32.add (binary32.mul x y) z := fun _ _ _ => rfl
    rw [e]; decide +kernel
  rw [e]
  refine ⟨by decide, fun h => ?_⟩
  obtain ⟨-, va⟩ := val32 (x := 0x3f800800#32) (4097 / 4096) (by decide +kernel)
  obtain ⟨-, vc⟩ := val32 (x := 0xbf801000#32) (-(2049 / 2048)) (by decide +kernel)
  obtain ⟨-, v0⟩ := val32 (x := 0#32) 0 (by decide +kernel)
  obtain ⟨fr, vr⟩ := val32 (x := 0x33800000#32) (1 / 16777216) (by decide +kernel)
  have := (h.2 _ fr).1
  rw [va, vc, v0, vr] at this
  norm_num at this

/-! ## Whole calls -/

/-- `f_vec_simd(out, in, n)` for `float`. -/
theorem C107_unary_calls_float (b : Build32) (P : Platform 32) (op : UnOp) (hs' : op = .signedSqrt → b ≠ .neon)
    (hr : op = .reciprocal → b = .generic) {m : Mem (BitVec 32)} {out inp : Nat} {n : BitVec 32} {x : Nat → BitVec 32} {v : Nat → ℝ}
    (hn : 0 < n.toNat) (hmul : b.target.perLine ∣ n.toNat) (hoal : b.target.align ∣ out) (hial : b.target.align ∣ inp)
    (hout : Allocated m out n.toNat) (hin : Holds m inp n.toNat x) (hs : SafePlacement out inp n.toNat)
    (hx : ∀ i, i < n.toNat → IsFin binary32 (x i) ∧ UnRounded op (binary32.toReal (x i)) (v i)) :
    ∃ y : Nat → BitVec 32, op.vecSimd (b.vec P) out inp n m = .ok ((), overwrite m out n.toNat y) ∧
      ∀ i, i < n.toNat → IsFin binary32 (y i) → CorrectlyRounded binary32 (v i) (y i) := by
  classical
  have h := fun i hi => C107_unary_float b P op (hx i hi).1 (hx i hi).2 hs' hr
  choose y h1 h2 using h
  refine ⟨fun i => if h : i < n.toNat then y i h else 0, ?_, ?_⟩
  · refine C01_unary_simd b.target (b.env P) op hn hmul hoal hial hout hin hs fun i h => ?_
    rw [dif_pos h]; exact h1 i h
  · intro i h; simp only [dif_pos h]; exact h2 i h

/-- `f_vec_simd(out, in, n)` for `double`. -/
theorem C107_unary_calls_double (b : Build64) (P : Platform 64) (op : UnOp)
    {m : Mem (BitVec 64)} {out inp : Nat} {n : BitVec 32} {x : Nat → BitVec 64} {v : Nat → ℝ}
    (hn : 0 < n.toNat) (hmul : b.target.perLine ∣ n.toNat) (hoal : b.target.align ∣ out) (hial : b.target.align ∣ inp)
    (hout : Allocated m out n.toNat) (hin : Holds m inp n.toNat x) (hs : SafePlacement out inp n.toNat)
    (hx : ∀ i, i < n.toNat → IsFin binary64 (x i) ∧ UnRounded op (binary64.toReal (x i)) (v i)) :
    ∃ y : Nat → BitVec 64, op.vecSimd (b.vec P) out inp n m = .ok ((), overwrite m out n.toNat y) ∧
      ∀ i, i < n.toNat → IsFin binary64 (y i) → CorrectlyRounded binary64 (v i) (y i) := by
  classical
  have h := fun i hi => C107_unary_double b P op (hx i hi).1 (hx i hi).2
  choose y h1 h2 using h
  refine ⟨fun i => if h : i < n.toNat then y i h else 0, ?_, ?_⟩
  · refine C01_unary_simd b.target (b.env P) op hn hmul hoal hial hout hin hs fun i h => ?_
    rw [dif_pos h]; exact h1 i h
  · intro i h; simp only [dif_pos h]; exact h2 i h

/-- `f_vec(out, in, n)` for `float`, on every platform. -/
theorem C107_unary_scalar_float (P : Platform 32) (op : UnOp)
    {m : Mem (BitVec 32)} {out inp : Nat} {n : BitVec 32} {x : Nat → BitVec 32} {v : Nat → ℝ} (hn : 0 < n.toNat)
    (hout : Allocated m out n.toNat) (hin : Holds m inp n.toNat x) (hs : SafePlacement out inp n.toNat)
    (hx : ∀ i, i < n.toNat → IsFin binary32 (x i) ∧ UnRounded op (binary32.toReal (x i)) (v i)) :
    ∃ y : Nat → BitVec 32, op.vec (Build32.scalar P) out inp n m = .ok ((), overwrite m out n.toNat y) ∧
      ∀ i, i < n.toNat → IsFin binary32 (y i) → CorrectlyRounded binary32 (v i) (y i) := by
  classical
  have h := fun i hi => C107_unary_float .generic P op (hx i hi).1 (hx i hi).2 (fun _ => by decide) (fun _ => rfl)
  choose y h1 h2 using h
  refine ⟨fun i => if h : i < n.toNat then y i h else 0, ?_, ?_⟩
  · refine C01_unary_scalar (Build32.scalar P) op hn hout hin hs fun i h => ?_
    rw [dif_pos h]; exact h1 i h
  · intro i h; simp only [dif_pos h]; exact h2 i h

/-- `f_vec_simd` with two arguments for `float`: buffers, numbers or ramps. -/
theorem C107_binary_calls_float (bd : Build32) (P : Platform 32) (op : BinOp) (ho : op = .over → divides bd = true)
    {m : Mem (BitVec 32)} {out : Nat} {a b : SArg (BitVec 32)} {n : BitVec 32}
    {x y : Nat → BitVec 32} {v : Nat → ℝ} (hn : 0 < n.toNat) (hmul : bd.target.perLine ∣ n.toNat)
    (hoal : bd.target.align ∣ out) (hout : Allocated m out n.toNat)
    (ha : SimdSupplies (bd.vec P) bd.target.align m out n.toNat a x)
    (hb : SimdSupplies (bd.vec P) bd.target.align m out n.toNat b y)
    (hx : ∀ i, i < n.toNat → IsFin binary32 (x i) ∧ IsFin binary32 (y i) ∧
      BinRounded op (binary32.toReal (x i)) (binary32.toReal (y i)) (v i)) :
    ∃ r : Nat → BitVec 32, op.vecSimd (bd.vec P) out a b n m = .ok ((), overwrite m out n.toNat r) ∧
      ∀ i, i < n.toNat → IsFin binary32 (r i) → CorrectlyRounded binary32 (v i) (r i) :=
  ⟨_, C02_binary_simd bd.target (bd.env P) op hn hmul hoal hout ha hb,
    fun i hi => C107_binary_float bd P op (hx i hi).1 (hx i hi).2.1 (hx i hi).2.2 ho⟩

/-- `f_vec` with two arguments for `float`, on every platform. -/
theorem C107_binary_scalar_float (P : Platform 32) (op : BinOp)
    {m : Mem (BitVec 32)} {out : Nat} {a b : SArg (BitVec 32)} {n : BitVec 32}
    {x y : Nat → BitVec 32} {v : Nat → ℝ} (hn : 0 < n.toNat) (hout : Allocated m out n.toNat)
    (ha : ScalarSupplies (Build32.scalar P) m out n.toNat a x) (hb : ScalarSupplies (Build32.scalar P) m out n.toNat b y)
    (hx : ∀ i, i < n.toNat → IsFin binary32 (x i) ∧ IsFin binary32 (y i) ∧
      BinRounded op (binary32.toReal (x i)) (binary32.toReal (y i)) (v i)) :
    ∃ r : Nat → BitVec 32, op.vec (Build32.scalar P) out a b n m = .ok ((), overwrite m out n.toNat r) ∧
      ∀ i, i < n.toNat → IsFin binary32 (r i) → CorrectlyRounded binary32 (v i) (r i) :=
  ⟨_, C02_binary_scalar (Build32.scalar P) op hn hout ha hb,
    fun i hi => C107_binary_float .generic P op (hx i hi).1 (hx i hi).2.1 (hx i hi).2.2 (fun _ => rfl)⟩

/-- `f_vec_simd` with two arguments for `double`. -/
theorem C107_binary_calls_double (bd : Build64) (P : Platform 64) (op : BinOp)
    {m : Mem (BitVec 64)} {out : Nat} {a b : SArg (BitVec 64)} {n : BitVec 32}
    {x y : Nat → BitVec 64} {v : Nat → ℝ} (hn : 0 < n.toNat) (hmul : bd.target.perLine ∣ n.toNat)
    (hoal : bd.target.align ∣ out) (hout : Allocated m out n.toNat)
    (ha : SimdSupplies (bd.vec P) bd.target.align m out n.toNat a x)
    (hb : SimdSupplies (bd.vec P) bd.target.align m out n.toNat b y)
    (hx : ∀ i, i < n.toNat → IsFin binary64 (x i) ∧ IsFin binary64 (y i) ∧
      BinRounded op (binary64.toReal (x i)) (binary64.toReal (y i)) (v i)) :
    ∃ r : Nat → BitVec 64, op.vecSimd (bd.vec P) out a b n m = .ok ((), overwrite m out n.toNat r) ∧
      ∀ i, i < n.toNat → IsFin binary64 (r i) → CorrectlyRounded binary64 (v i) (r i) :=
  ⟨_, C02_binary_simd bd.target (bd.env P) op hn hmul hoal hout ha hb,
    fun i hi => C107_binary_double bd P op (hx i hi).1 (hx i hi).2.1 (hx i hi).2.2⟩

/-- `muladd_vec_simd` for `float`, of the classes that round once. -/
theorem C107_muladd_calls_float (bd : Build32) (hr : roundsOnce bd = true) (P : Platform 32)
    {m : Mem (BitVec 32)} {out : Nat} {a b c : SArg (BitVec 32)} {n : BitVec 32} {x y z : Nat → BitVec 32} (hn : 0 < n.toNat)
    (hmul : bd.target.perLine ∣ n.toNat) (hoal : bd.target.align ∣ out) (hout : Allocated m out n.toNat)
    (ha : SimdSupplies (bd.vec P) bd.target.align m out n.toNat a x)
    (hb : SimdSupplies (bd.vec P) bd.target.align m out n.toNat b y)
    (hc : SimdSupplies (bd.vec P) bd.target.align m out n.toNat c z)
    (hx : ∀ i, i < n.toNat → IsFin binary32 (x i) ∧ IsFin binary32 (y i) ∧ IsFin binary32 (z i)) :
    ∃ r : Nat → BitVec 32, TerOp.muladd.vecSimd (bd.vec P) out a b c n m = .ok ((), overwrite m out n.toNat r) ∧
      ∀ i, i < n.toNat → IsFin binary32 (r i) →
        CorrectlyRounded binary32 (binary32.toReal (x i) * binary32.toReal (y i) + binary32.toReal (z i)) (r i) :=
  ⟨_, C03_ternary_simd bd.target (bd.env P) .muladd hn hmul hoal hout ha hb hc,
    fun i hi => C107_muladd_float bd hr P (hx i hi).1 (hx i hi).2.1 (hx i hi).2.2⟩

/-! ## Cases -/

/-- (1 + 2^-12)^2 - (1 + 2^-11) is 2^-24 with AVX and fused instructions. -/
example (P : Platform 32) : CorrectlyRounded binary32
    (binary32.toReal 0x3f800800#32 * binary32.toReal 0x3f800800#32 + binary32.toReal 0xbf801000#32) 0x33800000#32 := by
  have e : TerOp.muladd.f ((Build32.avx true).lane P) 0x3f800800#32 0x3f800800#32 0xbf801000#32 = 0x33800000#32 := by
    have e : ∀ x y z : BitVec 32, TerOp.muladd.f ((Build32.avx true).lane P) x y z = binary32.fma x y z := fun _ _ _ => rfl
    rw [e]; decide +kernel
  have := C107_muladd_float (.avx true) rfl P (x := 0x3f800800#32) (y := 0x3f800800#32) (z := 0xbf801000#32) (by decide) (by decide)
    (by decide) (by rw [e]; decide)
  rwa [e] at this

/-- 1 / 3 with SSE: 0.33333334 is the nearest `float`. -/
example (P : Platform 32) : CorrectlyRounded binary32 (1 / 3) 0x3eaaaaab#32 := by
  obtain ⟨fx, vx⟩ := val32 (x := 0x3f800000#32) 1 (by decide +kernel)
  obtain ⟨fy, vy⟩ := val32 (x := 0x40400000#32) 3 (by decide +kernel)
  have e : BinOp.over.f ((Build32.sse true ⟨true, true, false⟩).lane P) 0x3f800000#32 0x40400000#32 = 0x3eaaaaab#32 := by
    have e : ∀ x y : BitVec 32, BinOp.over.f ((Build32.sse true ⟨true, true, false⟩).lane P) x y = binary32.div x y := fun _ _ => rfl
    rw [e]; decide +kernel
  have := C107_binary_float (.sse true ⟨true, true, false⟩) P .over (v := 1 / 3) fx fy (by rw [vx, vy]; simp [BinRounded]) (fun _ => rfl)
    (by rw [e]; decide)
  rwa [e] at this

/-- The square root of -2 with AVX. -/
example (P : Platform 32) : ∃ r, UnOp.signedSqrt.f ((Build32.avx true).lane P) 0xc0000000#32 = .ok r ∧
    (IsFin binary32 r → CorrectlyRounded binary32 (sgn (binary32.toReal 0xc0000000#32) * √|binary32.toReal 0xc0000000#32|) r) :=
  C107_unary_float (.avx true) P .signedSqrt (by decide) rfl (fun _ => by decide) (fun h => by cases h)

/-- A tie: 1 + 2^-24 lies between 1 and 1 + 2^-23; the even 1 is the result. -/
example (P : Platform 32) : CorrectlyRounded binary32 (1 + 1 / 16777216) 0x3f800000#32 := by
  obtain ⟨fx, vx⟩ := val32 (x := 0x3f800000#32) 1 (by decide +kernel)
  obtain ⟨fy, vy⟩ := val32 (x := 0x33800000#32) (1 / 16777216) (by decide +kernel)
  have e : BinOp.plus.f (Build32.neon.lane P) 0x3f800000#32 0x33800000#32 = 0x3f800000#32 := by
    have e : ∀ x y : BitVec 32, BinOp.plus.f (Build32.neon.lane P) x y = binary32.add x y := fun _ _ => rfl
    rw [e]; decide +kernel
  have := C107_binary_float .neon P .plus (v := 1 + 1 / 16777216) fx fy (by rw [vx, vy]; simp [BinRounded]) (fun h => by cases h)
    (by rw [e]; decide)
  rwa [e] at this

end Nova
