import Verif.Lemmas.Exactly
import Verif.Props.C90_Order

/-!
# C92 Results that need no rounding are exact

If the values a function computes on the way are numbers of the format (`SpecExact`), the result is the mathematical
value: integers up to 2^24, gains that are powers of two and signals on a common grid are processed without any error,
in every build and whether or not the build fuses multiplications and additions.
-/

namespace Nova
open FP VecMath Spec

theorem one_exactly32 : Exactly binary32 (binary32.ofInt 1) 1 := ⟨one_fin32, one_real32⟩
theorem one_exactly64 : Exactly binary64 (binary64.ofInt 1) 1 := ⟨one_fin64, one_real64⟩

theorem sgn_exactly {w : Nat} {F : Fmt w} {A : BitVec w → BitVec w} {one mone : BitVec w} {z : BitVec w → BitVec w} {x : BitVec w}
    {a v : ℝ} (hx : Exactly F x a)
    (h : (0 < F.toEReal x → A x = one) ∧ (F.toEReal x < 0 → A x = mone) ∧ (F.toEReal x = 0 → A x = z x))
    (h1 : Exactly F one 1) (h2 : Exactly F mone (-1)) (hz : F.toEReal x = 0 → Exactly F (z x) 0)
    (hv : AllExact F (UnSteps .sgn a) v) : Exactly F (A x) v := by
  obtain ⟨rfl, -⟩ := allExact_one hv
  obtain ⟨p, n, o⟩ := h
  have e := hx.value.2
  unfold sgn
  rcases lt_trichotomy a 0 with c | c | c
  · rw [if_neg (by linarith), if_neg (by linarith), n (by rw [e]; exact_mod_cast c)]; exact h2
  · rw [if_neg (by linarith), if_pos c, o (by rw [e, c]; rfl)]; exact hz (by rw [e, c]; rfl)
  · rw [if_pos c, p (by rw [e]; exact_mod_cast c)]; exact h1

/-- One element of a unary function of `float`. -/
theorem C92_unary_float_partial (b : Build32) (P : Platform 32) (op : UnOp) (x : BitVec 32) (v : ℝ) (hx : IsFin binary32 x)
    (hs : op = .signedSqrt → b.exactSqrt = true) (hr : op = .reciprocal → b = .generic)
    (h : AllExact binary32 (UnSteps op (binary32.toReal x)) v) :
    ∃ r, op.f (b.lane P) x = .ok r ∧ Exactly binary32 r v := by
  have O := lane_orderOps32 b P
  have ex : Exactly binary32 x (binary32.toReal x) := ⟨hx, rfl⟩
  have nx : Num binary32 x := binary32.isFinite_not_nan hx
  cases op with
  | abs =>
    obtain ⟨rfl, -⟩ := allExact_one h
    refine ⟨_, rfl, ?_⟩
    rw [abs_lane32]
    exact ⟨by unfold IsFin; simpa using hx, binary32.toReal_fabs x⟩
  | sgn =>
    refine ⟨_, rfl, ?_⟩
    refine sgn_exactly (A := (b.lane P).sign) (z := fun x => if b = .generic then 0#32 else x) ex
      ⟨fun h => ((C39_sign_float b P x nx).1 h).1, fun h => ((C39_sign_float b P x nx).2.1 h).1,
        fun h => ((C39_sign_float b P x nx).2.2 h).1⟩ ?_ ?_ ?_ h
    · rw [← one32]; exact one_exactly32
    · rw [show (0xbf800000#32 : BitVec 32) = binary32.negate (binary32.ofInt 1) by decide +kernel]; exact one_exactly32.negate
    · intro h0
      show Exactly _ (if _ then _ else _) _
      split
      · exact exactly_of_value (zero_num (by decide)).1 ((zero_num (by decide)).2.trans rfl)
      · exact exactly_of_value nx (h0.trans rfl)
  | square =>
    obtain ⟨rfl, r⟩ := allExact_one h
    exact ⟨_, rfl, O.square_exactly ex r⟩
  | cube =>
    obtain ⟨rfl, r, s⟩ := allExact_two h
    exact ⟨_, rfl, O.cube_exactly ex r s⟩
  | signedSqrt =>
    obtain ⟨-, n, s, f⟩ := C43_signed_sqrt_float b (hs rfl) P x nx
    exact ⟨_, rfl, signedSqrt_exactly ex n s f h⟩
  | reciprocal =>
    obtain rfl := hr rfl
    unfold UnSteps at h
    dsimp only at h
    by_cases h0 : binary32.toReal x = 0
    · rw [if_pos h0] at h; exact (allExact_nil h).elim
    · rw [if_neg h0] at h
      obtain ⟨rfl, r⟩ := allExact_one h
      exact ⟨_, rfl, one_exactly32.div ex h0 r⟩
  | softclip =>
    refine ⟨_, rfl, ?_⟩
    change Exactly binary32 ((b.lane P).softclip x) v
    rw [softclip_lane32]
    exact softclip_exactly soft32 ex h
  | _ => exact (allExact_nil h).elim

/-- The same for `double`. -/
theorem C92_unary_double (b : Build64) (P : Platform 64) (op : UnOp) (x : BitVec 64) (v : ℝ) (hx : IsFin binary64 x)
    (h : AllExact binary64 (UnSteps op (binary64.toReal x)) v) :
    ∃ r, op.f (b.lane P) x = .ok r ∧ Exactly binary64 r v := by
  have O := lane_orderOps64 b P
  have ex : Exactly binary64 x (binary64.toReal x) := ⟨hx, rfl⟩
  have nx : Num binary64 x := binary64.isFinite_not_nan hx
  cases op with
  | abs =>
    obtain ⟨rfl, -⟩ := allExact_one h
    refine ⟨_, rfl, ?_⟩
    rw [abs_lane64]
    exact ⟨by unfold IsFin; simpa using hx, binary64.toReal_fabs x⟩
  | sgn =>
    refine ⟨_, rfl, ?_⟩
    refine sgn_exactly (A := (b.lane P).sign) (z := fun x => if b = .generic then 0#64 else x) ex
      ⟨fun h => ((C39_sign_double b P x nx).1 h).1, fun h => ((C39_sign_double b P x nx).2.1 h).1,
        fun h => ((C39_sign_double b P x nx).2.2 h).1⟩ ?_ ?_ ?_ h
    · rw [← one64]; exact one_exactly64
    · rw [show (0xbff0000000000000#64 : BitVec 64) = binary64.negate (binary64.ofInt 1) by decide +kernel]
      exact one_exactly64.negate
    · intro h0
      show Exactly _ (if _ then _ else _) _
      split
      · have z := zero_num (F := binary64) (x := 0#64) (by decide +kernel)
        exact exactly_of_value z.1 (z.2.trans rfl)
      · exact exactly_of_value nx (h0.trans rfl)
  | square =>
    obtain ⟨rfl, r⟩ := allExact_one h
    exact ⟨_, rfl, O.square_exactly ex r⟩
  | cube =>
    obtain ⟨rfl, r, s⟩ := allExact_two h
    exact ⟨_, rfl, O.cube_exactly ex r s⟩
  | signedSqrt =>
    obtain ⟨-, n, s, f⟩ := C43_signed_sqrt_double b P x nx
    exact ⟨_, rfl, signedSqrt_exactly ex n s f h⟩
  | reciprocal =>
    have e : ∀ y, (b.lane P).reciprocal y = binary64.div (binary64.ofInt 1) y := fun y => by
      rw [(lane_math64 b P).reciprocal]; exact scalar_reciprocal binary64 _ _ _ y
    unfold UnSteps at h
    dsimp only at h
    by_cases h0 : binary64.toReal x = 0
    · rw [if_pos h0] at h; exact (allExact_nil h).elim
    · rw [if_neg h0] at h
      obtain ⟨rfl, r⟩ := allExact_one h
      refine ⟨_, rfl, ?_⟩
      rw [e]
      exact one_exactly64.div ex h0 r
  | softclip =>
    refine ⟨_, rfl, ?_⟩
    change Exactly binary64 ((b.lane P).softclip x) v
    rw [softclip_lane64]
    exact softclip_exactly soft64 ex h
  | _ => exact (allExact_nil h).elim

/-- One element of a binary function of `float`. -/
theorem C92_binary_float_partial (b : Build32) (P : Platform 32) (op : BinOp) (x y : BitVec 32) (v : ℝ) (hx : IsFin binary32 x)
    (hy : IsFin binary32 y) (h : AllExact binary32 (BinSteps op (binary32.toReal x) (binary32.toReal y)) v) (ho : op = .over → divides b = true) :
    Exactly binary32 (op.f (b.lane P) x y) v := by
  refine binary_exactly (lane_orderOps32 b P) op ⟨hx, rfl⟩ ⟨hy, rfl⟩ h (fun e => ?_)
  have hd := ho e
  cases b <;> first | rfl | exact absurd hd (by decide)

theorem C92_ternary_float (b : Build32) (P : Platform 32) (op : TerOp) (x y z : BitVec 32) (v : ℝ) (hx : IsFin binary32 x)
    (hy : IsFin binary32 y) (hz : IsFin binary32 z)
    (h : AllExact binary32 (TerSteps op (binary32.toReal x) (binary32.toReal y) (binary32.toReal z)) v) :
    Exactly binary32 (op.f (b.lane P) x y z) v :=
  ternary_exactly (lane_orderOps32 b P) (madd_exact32 b P) one_exactly32 op ⟨hx, rfl⟩ ⟨hy, rfl⟩ ⟨hz, rfl⟩ h

theorem C92_quad_float (b : Build32) (P : Platform 32) (op : QuadOp) (x y z u : BitVec 32) (v : ℝ) (hx : IsFin binary32 x)
    (hy : IsFin binary32 y) (hz : IsFin binary32 z) (hu : IsFin binary32 u)
    (h : AllExact binary32 (QuadSteps op (binary32.toReal x) (binary32.toReal y) (binary32.toReal z) (binary32.toReal u)) v) :
    Exactly binary32 (op.f (b.lane P) x y z u) v :=
  quad_exactly (lane_orderOps32 b P) op ⟨hx, rfl⟩ ⟨hy, rfl⟩ ⟨hz, rfl⟩ ⟨hu, rfl⟩ h

/-- One element of a binary function of `double`. -/
theorem C92_binary_double (b : Build64) (P : Platform 64) (op : BinOp) (x y : BitVec 64) (v : ℝ) (hx : IsFin binary64 x)
    (hy : IsFin binary64 y) (h : AllExact binary64 (BinSteps op (binary64.toReal x) (binary64.toReal y)) v) :
    Exactly binary64 (op.f (b.lane P) x y) v := by
  exact binary_exactly (lane_orderOps64 b P) op ⟨hx, rfl⟩ ⟨hy, rfl⟩ h (fun _ => (lane_math64 b P).div)

theorem C92_ternary_double (b : Build64) (P : Platform 64) (op : TerOp) (x y z : BitVec 64) (v : ℝ) (hx : IsFin binary64 x)
    (hy : IsFin binary64 y) (hz : IsFin binary64 z)
    (h : AllExact binary64 (TerSteps op (binary64.toReal x) (binary64.toReal y) (binary64.toReal z)) v) :
    Exactly binary64 (op.f (b.lane P) x y z) v :=
  ternary_exactly (lane_orderOps64 b P) (madd_exact64 b P) one_exactly64 op ⟨hx, rfl⟩ ⟨hy, rfl⟩ ⟨hz, rfl⟩ h

theorem C92_quad_double (b : Build64) (P : Platform 64) (op : QuadOp) (x y z u : BitVec 64) (v : ℝ) (hx : IsFin binary64 x)
    (hy : IsFin binary64 y) (hz : IsFin binary64 z) (hu : IsFin binary64 u)
    (h : AllExact binary64 (QuadSteps op (binary64.toReal x) (binary64.toReal y) (binary64.toReal z) (binary64.toReal u)) v) :
    Exactly binary64 (op.f (b.lane P) x y z u) v :=
  quad_exactly (lane_orderOps64 b P) op ⟨hx, rfl⟩ ⟨hy, rfl⟩ ⟨hz, rfl⟩ ⟨hu, rfl⟩ h

/-! ## Whole calls -/

/-- `f_vec_simd(out, in, n)` for `float` -/
theorem C92_unary_calls_float_partial (b : Build32) (P : Platform 32) (op : UnOp)
    (hs' : op = .signedSqrt → b.exactSqrt = true) (hr : op = .reciprocal → b = .generic)
    {m : Mem (BitVec 32)} {out inp : Nat} {n : BitVec 32} {x : Nat → BitVec 32} {v : Nat → ℝ} (hn : 0 < n.toNat)
    (hmul : b.target.perLine ∣ n.toNat) (hoal : b.target.align ∣ out) (hial : b.target.align ∣ inp)
    (hout : Allocated m out n.toNat) (hin : Holds m inp n.toNat x) (hs : SafePlacement out inp n.toNat)
    (hx : ∀ i, i < n.toNat → IsFin binary32 (x i) ∧ AllExact binary32 (UnSteps op (binary32.toReal (x i))) (v i)) :
    ∃ y : Nat → BitVec 32, op.vecSimd (b.vec P) out inp n m = .ok ((), overwrite m out n.toNat y) ∧
      ∀ i, i < n.toNat → Exactly binary32 (y i) (v i) := by
  classical
  have h := fun i hi => C92_unary_float_partial b P op (x i) (v i) (hx i hi).1 hs' hr (hx i hi).2
  choose y h1 h2 using h
  refine ⟨fun i => if h : i < n.toNat then y i h else 0, ?_, ?_⟩
  · refine C01_unary_simd b.target (b.env P) op hn hmul hoal hial hout hin hs fun i h => ?_
    rw [dif_pos h]; exact h1 i h
  · intro i h; simp only [dif_pos h]; exact h2 i h

/-- `f_vec(out, in, n)` for `float` -/
theorem C92_unary_scalar_float (P : Platform 32) (op : UnOp)
    {m : Mem (BitVec 32)} {out inp : Nat} {n : BitVec 32} {x : Nat → BitVec 32} {v : Nat → ℝ} (hn : 0 < n.toNat)
    (hout : Allocated m out n.toNat) (hin : Holds m inp n.toNat x) (hs : SafePlacement out inp n.toNat)
    (hx : ∀ i, i < n.toNat → IsFin binary32 (x i) ∧ AllExact binary32 (UnSteps op (binary32.toReal (x i))) (v i)) :
    ∃ y : Nat → BitVec 32, op.vec (Build32.scalar P) out inp n m = .ok ((), overwrite m out n.toNat y) ∧
      ∀ i, i < n.toNat → Exactly binary32 (y i) (v i) := by
  classical
  have h := fun i hi => C92_unary_float_partial .generic P op (x i) (v i) (hx i hi).1 (fun _ => rfl) (fun _ => rfl) (hx i hi).2
  choose y h1 h2 using h
  refine ⟨fun i => if h : i < n.toNat then y i h else 0, ?_, ?_⟩
  · refine C01_unary_scalar (Build32.scalar P) op hn hout hin hs fun i h => ?_
    rw [dif_pos h]; exact h1 i h
  · intro i h; simp only [dif_pos h]; exact h2 i h

/-- `f_vec_simd` with two arguments for `float`: buffers, numbers or ramps. -/
theorem C92_binary_calls_float_partial (bd : Build32) (P : Platform 32) (op : BinOp)
    (ho : op = .over → divides bd = true)
    {m : Mem (BitVec 32)} {out : Nat} {a b : SArg (BitVec 32)} {n : BitVec 32}
    {x y : Nat → BitVec 32} {v : Nat → ℝ} (hn : 0 < n.toNat) (hmul : bd.target.perLine ∣ n.toNat)
    (hoal : bd.target.align ∣ out) (hout : Allocated m out n.toNat)
    (ha : SimdSupplies (bd.vec P) bd.target.align m out n.toNat a x)
    (hb : SimdSupplies (bd.vec P) bd.target.align m out n.toNat b y)
    (hx : ∀ i, i < n.toNat → IsFin binary32 (x i) ∧ IsFin binary32 (y i) ∧
      AllExact binary32 (BinSteps op (binary32.toReal (x i)) (binary32.toReal (y i))) (v i)) :
    ∃ r : Nat → BitVec 32, op.vecSimd (bd.vec P) out a b n m = .ok ((), overwrite m out n.toNat r) ∧
      ∀ i, i < n.toNat → Exactly binary32 (r i) (v i) :=
  ⟨_, C02_binary_simd bd.target (bd.env P) op hn hmul hoal hout ha hb,
    fun i hi => C92_binary_float_partial bd P op (x i) (y i) (v i) (hx i hi).1 (hx i hi).2.1 (hx i hi).2.2 ho⟩

theorem C92_binary_scalar_float (P : Platform 32) (op : BinOp)
    {m : Mem (BitVec 32)} {out : Nat} {a b : SArg (BitVec 32)} {n : BitVec 32}
    {x y : Nat → BitVec 32} {v : Nat → ℝ} (hn : 0 < n.toNat) (hout : Allocated m out n.toNat)
    (ha : ScalarSupplies (Build32.scalar P) m out n.toNat a x) (hb : ScalarSupplies (Build32.scalar P) m out n.toNat b y)
    (hx : ∀ i, i < n.toNat → IsFin binary32 (x i) ∧ IsFin binary32 (y i) ∧
      AllExact binary32 (BinSteps op (binary32.toReal (x i)) (binary32.toReal (y i))) (v i)) :
    ∃ r : Nat → BitVec 32, op.vec (Build32.scalar P) out a b n m = .ok ((), overwrite m out n.toNat r) ∧
      ∀ i, i < n.toNat → Exactly binary32 (r i) (v i) :=
  ⟨_, C02_binary_scalar (Build32.scalar P) op hn hout ha hb,
    fun i hi => C92_binary_float_partial .generic P op (x i) (y i) (v i) (hx i hi).1 (hx i hi).2.1 (hx i hi).2.2 (fun _ => rfl)⟩

/-- `f_vec_simd` with three arguments for `float`: buffers, numbers or ramps. -/
theorem C92_ternary_calls_float (bd : Build32) (P : Platform 32) (op : TerOp)
    {m : Mem (BitVec 32)} {out : Nat} {a b g : SArg (BitVec 32)} {n : BitVec 32}
    {x y z : Nat → BitVec 32} {v : Nat → ℝ} (hn : 0 < n.toNat) (hmul : bd.target.perLine ∣ n.toNat)
    (hoal : bd.target.align ∣ out) (hout : Allocated m out n.toNat)
    (ha : SimdSupplies (bd.vec P) bd.target.align m out n.toNat a x)
    (hb : SimdSupplies (bd.vec P) bd.target.align m out n.toNat b y)
    (hg : SimdSupplies (bd.vec P) bd.target.align m out n.toNat g z)
    (hx : ∀ i, i < n.toNat → IsFin binary32 (x i) ∧ IsFin binary32 (y i) ∧ IsFin binary32 (z i) ∧
      AllExact binary32 (TerSteps op (binary32.toReal (x i)) (binary32.toReal (y i)) (binary32.toReal (z i))) (v i)) :
    ∃ r : Nat → BitVec 32, op.vecSimd (bd.vec P) out a b g n m = .ok ((), overwrite m out n.toNat r) ∧
      ∀ i, i < n.toNat → Exactly binary32 (r i) (v i) :=
  ⟨_, C03_ternary_simd bd.target (bd.env P) op hn hmul hoal hout ha hb hg,
    fun i hi => C92_ternary_float bd P op (x i) (y i) (z i) (v i) (hx i hi).1 (hx i hi).2.1 (hx i hi).2.2.1 (hx i hi).2.2.2⟩

theorem C92_ternary_scalar_float (P : Platform 32) (op : TerOp)
    {m : Mem (BitVec 32)} {out : Nat} {a b g : SArg (BitVec 32)} {n : BitVec 32}
    {x y z : Nat → BitVec 32} {v : Nat → ℝ} (hn : 0 < n.toNat) (hout : Allocated m out n.toNat)
    (ha : ScalarSupplies (Build32.scalar P) m out n.toNat a x) (hb : ScalarSupplies (Build32.scalar P) m out n.toNat b y) (hg : ScalarSupplies (Build32.scalar P) m out n.toNat g z)
    (hx : ∀ i, i < n.toNat → IsFin binary32 (x i) ∧ IsFin binary32 (y i) ∧ IsFin binary32 (z i) ∧
      AllExact binary32 (TerSteps op (binary32.toReal (x i)) (binary32.toReal (y i)) (binary32.toReal (z i))) (v i)) :
    ∃ r : Nat → BitVec 32, op.vec (Build32.scalar P) out a b g n m = .ok ((), overwrite m out n.toNat r) ∧
      ∀ i, i < n.toNat → Exactly binary32 (r i) (v i) :=
  ⟨_, C03_ternary_scalar (Build32.scalar P) op hn hout ha hb hg,
    fun i hi => C92_ternary_float .generic P op (x i) (y i) (z i) (v i) (hx i hi).1 (hx i hi).2.1 (hx i hi).2.2.1 (hx i hi).2.2.2⟩

/-- `f_vec_simd` with four arguments for `float`: buffers, numbers or ramps. -/
theorem C92_quad_calls_float (bd : Build32) (P : Platform 32) (op : QuadOp)
    {m : Mem (BitVec 32)} {out : Nat} {a b g q : SArg (BitVec 32)} {n : BitVec 32}
    {x y z u : Nat → BitVec 32} {v : Nat → ℝ} (hn : 0 < n.toNat) (hmul : bd.target.perLine ∣ n.toNat)
    (hoal : bd.target.align ∣ out) (hout : Allocated m out n.toNat)
    (ha : SimdSupplies (bd.vec P) bd.target.align m out n.toNat a x)
    (hb : SimdSupplies (bd.vec P) bd.target.align m out n.toNat b y)
    (hg : SimdSupplies (bd.vec P) bd.target.align m out n.toNat g z)
    (hq : SimdSupplies (bd.vec P) bd.target.align m out n.toNat q u)
    (hx : ∀ i, i < n.toNat → IsFin binary32 (x i) ∧ IsFin binary32 (y i) ∧ IsFin binary32 (z i) ∧ IsFin binary32 (u i) ∧
      AllExact binary32 (QuadSteps op (binary32.toReal (x i)) (binary32.toReal (y i)) (binary32.toReal (z i)) (binary32.toReal (u i))) (v i)) :
    ∃ r : Nat → BitVec 32, op.vecSimd (bd.vec P) out a b g q n m = .ok ((), overwrite m out n.toNat r) ∧
      ∀ i, i < n.toNat → Exactly binary32 (r i) (v i) :=
  ⟨_, C04_quad_simd bd.target (bd.env P) op hn hmul hoal hout ha hb hg hq,
    fun i hi => C92_quad_float bd P op (x i) (y i) (z i) (u i) (v i) (hx i hi).1 (hx i hi).2.1 (hx i hi).2.2.1 (hx i hi).2.2.2.1 (hx i hi).2.2.2.2⟩

theorem C92_quad_scalar_float (P : Platform 32) (op : QuadOp)
    {m : Mem (BitVec 32)} {out : Nat} {a b g q : SArg (BitVec 32)} {n : BitVec 32}
    {x y z u : Nat → BitVec 32} {v : Nat → ℝ} (hn : 0 < n.toNat) (hout : Allocated m out n.toNat)
    (ha : ScalarSupplies (Build32.scalar P) m out n.toNat a x) (hb : ScalarSupplies (Build32.scalar P) m out n.toNat b y) (hg : ScalarSupplies (Build32.scalar P) m out n.toNat g z) (hq : ScalarSupplies (Build32.scalar P) m out n.toNat q u)
    (hx : ∀ i, i < n.toNat → IsFin binary32 (x i) ∧ IsFin binary32 (y i) ∧ IsFin binary32 (z i) ∧ IsFin binary32 (u i) ∧
      AllExact binary32 (QuadSteps op (binary32.toReal (x i)) (binary32.toReal (y i)) (binary32.toReal (z i)) (binary32.toReal (u i))) (v i)) :
    ∃ r : Nat → BitVec 32, op.vec (Build32.scalar P) out a b g q n m = .ok ((), overwrite m out n.toNat r) ∧
      ∀ i, i < n.toNat → Exactly binary32 (r i) (v i) :=
  ⟨_, C04_quad_scalar (Build32.scalar P) op hn hout ha hb hg hq,
    fun i hi => C92_quad_float .generic P op (x i) (y i) (z i) (u i) (v i) (hx i hi).1 (hx i hi).2.1 (hx i hi).2.2.1 (hx i hi).2.2.2.1 (hx i hi).2.2.2.2⟩

/-- `f_vec_simd(out, in, n)` for `double` -/
theorem C92_unary_calls_double (b : Build64) (P : Platform 64) (op : UnOp)
    {m : Mem (BitVec 64)} {out inp : Nat} {n : BitVec 32} {x : Nat → BitVec 64} {v : Nat → ℝ} (hn : 0 < n.toNat)
    (hmul : b.target.perLine ∣ n.toNat) (hoal : b.target.align ∣ out) (hial : b.target.align ∣ inp)
    (hout : Allocated m out n.toNat) (hin : Holds m inp n.toNat x) (hs : SafePlacement out inp n.toNat)
    (hx : ∀ i, i < n.toNat → IsFin binary64 (x i) ∧ AllExact binary64 (UnSteps op (binary64.toReal (x i))) (v i)) :
    ∃ y : Nat → BitVec 64, op.vecSimd (b.vec P) out inp n m = .ok ((), overwrite m out n.toNat y) ∧
      ∀ i, i < n.toNat → Exactly binary64 (y i) (v i) := by
  classical
  have h := fun i hi => C92_unary_double b P op (x i) (v i) (hx i hi).1 (hx i hi).2
  choose y h1 h2 using h
  refine ⟨fun i => if h : i < n.toNat then y i h else 0, ?_, ?_⟩
  · refine C01_unary_simd b.target (b.env P) op hn hmul hoal hial hout hin hs fun i h => ?_
    rw [dif_pos h]; exact h1 i h
  · intro i h; simp only [dif_pos h]; exact h2 i h

/-- `f_vec(out, in, n)` for `double` -/
theorem C92_unary_scalar_double (P : Platform 64) (op : UnOp)
    {m : Mem (BitVec 64)} {out inp : Nat} {n : BitVec 32} {x : Nat → BitVec 64} {v : Nat → ℝ} (hn : 0 < n.toNat)
    (hout : Allocated m out n.toNat) (hin : Holds m inp n.toNat x) (hs : SafePlacement out inp n.toNat)
    (hx : ∀ i, i < n.toNat → IsFin binary64 (x i) ∧ AllExact binary64 (UnSteps op (binary64.toReal (x i))) (v i)) :
    ∃ y : Nat → BitVec 64, op.vec (Build64.scalar P) out inp n m = .ok ((), overwrite m out n.toNat y) ∧
      ∀ i, i < n.toNat → Exactly binary64 (y i) (v i) := by
  classical
  have h := fun i hi => C92_unary_double .generic P op (x i) (v i) (hx i hi).1 (hx i hi).2
  choose y h1 h2 using h
  refine ⟨fun i => if h : i < n.toNat then y i h else 0, ?_, ?_⟩
  · refine C01_unary_scalar (Build64.scalar P) op hn hout hin hs fun i h => ?_
    rw [dif_pos h]; exact h1 i h
  · intro i h; simp only [dif_pos h]; exact h2 i h

/-- `f_vec_simd` with two arguments for `double`: buffers, numbers or ramps. -/
theorem C92_binary_calls_double (bd : Build64) (P : Platform 64) (op : BinOp)
    {m : Mem (BitVec 64)} {out : Nat} {a b : SArg (BitVec 64)} {n : BitVec 32}
    {x y : Nat → BitVec 64} {v : Nat → ℝ} (hn : 0 < n.toNat) (hmul : bd.target.perLine ∣ n.toNat)
    (hoal : bd.target.align ∣ out) (hout : Allocated m out n.toNat)
    (ha : SimdSupplies (bd.vec P) bd.target.align m out n.toNat a x)
    (hb : SimdSupplies (bd.vec P) bd.target.align m out n.toNat b y)
    (hx : ∀ i, i < n.toNat → IsFin binary64 (x i) ∧ IsFin binary64 (y i) ∧
      AllExact binary64 (BinSteps op (binary64.toReal (x i)) (binary64.toReal (y i))) (v i)) :
    ∃ r : Nat → BitVec 64, op.vecSimd (bd.vec P) out a b n m = .ok ((), overwrite m out n.toNat r) ∧
      ∀ i, i < n.toNat → Exactly binary64 (r i) (v i) :=
  ⟨_, C02_binary_simd bd.target (bd.env P) op hn hmul hoal hout ha hb,
    fun i hi => C92_binary_double bd P op (x i) (y i) (v i) (hx i hi).1 (hx i hi).2.1 (hx i hi).2.2⟩

theorem C92_binary_scalar_double (P : Platform 64) (op : BinOp)
    {m : Mem (BitVec 64)} {out : Nat} {a b : SArg (BitVec 64)} {n : BitVec 32}
    {x y : Nat → BitVec 64} {v : Nat → ℝ} (hn : 0 < n.toNat) (hout : Allocated m out n.toNat)
    (ha : ScalarSupplies (Build64.scalar P) m out n.toNat a x) (hb : ScalarSupplies (Build64.scalar P) m out n.toNat b y)
    (hx : ∀ i, i < n.toNat → IsFin binary64 (x i) ∧ IsFin binary64 (y i) ∧
      AllExact binary64 (BinSteps op (binary64.toReal (x i)) (binary64.toReal (y i))) (v i)) :
    ∃ r : Nat → BitVec 64, op.vec (Build64.scalar P) out a b n m = .ok ((), overwrite m out n.toNat r) ∧
      ∀ i, i < n.toNat → Exactly binary64 (r i) (v i) :=
  ⟨_, C02_binary_scalar (Build64.scalar P) op hn hout ha hb,
    fun i hi => C92_binary_double .generic P op (x i) (y i) (v i) (hx i hi).1 (hx i hi).2.1 (hx i hi).2.2⟩

/-- `f_vec_simd` with three arguments for `double`: buffers, numbers or ramps. -/
theorem C92_ternary_calls_double (bd : Build64) (P : Platform 64) (op : TerOp)
    {m : Mem (BitVec 64)} {out : Nat} {a b g : SArg (BitVec 64)} {n : BitVec 32}
    {x y z : Nat → BitVec 64} {v : Nat → ℝ} (hn : 0 < n.toNat) (hmul : bd.target.perLine ∣ n.toNat)
    (hoal : bd.target.align ∣ out) (hout : Allocated m out n.toNat)
    (ha : SimdSupplies (bd.vec P) bd.target.align m out n.toNat a x)
    (hb : SimdSupplies (bd.vec P) bd.target.align m out n.toNat b y)
    (hg : SimdSupplies (bd.vec P) bd.target.align m out n.toNat g z)
    (hx : ∀ i, i < n.toNat → IsFin binary64 (x i) ∧ IsFin binary64 (y i) ∧ IsFin binary64 (z i) ∧
      AllExact binary64 (TerSteps op (binary64.toReal (x i)) (binary64.toReal (y i)) (binary64.toReal (z i))) (v i)) :
    ∃ r : Nat → BitVec 64, op.vecSimd (bd.vec P) out a b g n m = .ok ((), overwrite m out n.toNat r) ∧
      ∀ i, i < n.toNat → Exactly binary64 (r i) (v i) :=
  ⟨_, C03_ternary_simd bd.target (bd.env P) op hn hmul hoal hout ha hb hg,
    fun i hi => C92_ternary_double bd P op (x i) (y i) (z i) (v i) (hx i hi).1 (hx i hi).2.1 (hx i hi).2.2.1 (hx i hi).2.2.2⟩

theorem C92_ternary_scalar_double (P : Platform 64) (op : TerOp)
    {m : Mem (BitVec 64)} {out : Nat} {a b g : SArg (BitVec 64)} {n : BitVec 32}
    {x y z : Nat → BitVec 64} {v : Nat → ℝ} (hn : 0 < n.toNat) (hout : Allocated m out n.toNat)
    (ha : ScalarSupplies (Build64.scalar P) m out n.toNat a x) (hb : ScalarSupplies (Build64.scalar P) m out n.toNat b y) (hg : ScalarSupplies (Build64.scalar P) m out n.toNat g z)
    (hx : ∀ i, i < n.toNat → IsFin binary64 (x i) ∧ IsFin binary64 (y i) ∧ IsFin binary64 (z i) ∧
      AllExact binary64 (TerSteps op (binary64.toReal (x i)) (binary64.toReal (y i)) (binary64.toReal (z i))) (v i)) :
    ∃ r : Nat → BitVec 64, op.vec (Build64.scalar P) out a b g n m = .ok ((), overwrite m out n.toNat r) ∧
      ∀ i, i < n.toNat → Exactly binary64 (r i) (v i) :=
  ⟨_, C03_ternary_scalar (Build64.scalar P) op hn hout ha hb hg,
    fun i hi => C92_ternary_double .generic P op (x i) (y i) (z i) (v i) (hx i hi).1 (hx i hi).2.1 (hx i hi).2.2.1 (hx i hi).2.2.2⟩

/-- `f_vec_simd` with four arguments for `double`: buffers, numbers or ramps. -/
theorem C92_quad_calls_double (bd : Build64) (P : Platform 64) (op : QuadOp)
    {m : Mem (BitVec 64)} {out : Nat} {a b g q : SArg (BitVec 64)} {n : BitVec 32}
    {x y z u : Nat → BitVec 64} {v : Nat → ℝ} (hn : 0 < n.toNat) (hmul : bd.target.perLine ∣ n.toNat)
    (hoal : bd.target.align ∣ out) (hout : Allocated m out n.toNat)
    (ha : SimdSupplies (bd.vec P) bd.target.align m out n.toNat a x)
    (hb : SimdSupplies (bd.vec P) bd.target.align m out n.toNat b y)
    (hg : SimdSupplies (bd.vec P) bd.target.align m out n.toNat g z)
    (hq : SimdSupplies (bd.vec P) bd.target.align m out n.toNat q u)
    (hx : ∀ i, i < n.toNat → IsFin binary64 (x i) ∧ IsFin binary64 (y i) ∧ IsFin binary64 (z i) ∧ IsFin binary64 (u i) ∧
      AllExact binary64 (QuadSteps op (binary64.toReal (x i)) (binary64.toReal (y i)) (binary64.toReal (z i)) (binary64.toReal (u i))) (v i)) :
    ∃ r : Nat → BitVec 64, op.vecSimd (bd.vec P) out a b g q n m = .ok ((), overwrite m out n.toNat r) ∧
      ∀ i, i < n.toNat → Exactly binary64 (r i) (v i) :=
  ⟨_, C04_quad_simd bd.target (bd.env P) op hn hmul hoal hout ha hb hg hq,
    fun i hi => C92_quad_double bd P op (x i) (y i) (z i) (u i) (v i) (hx i hi).1 (hx i hi).2.1 (hx i hi).2.2.1 (hx i hi).2.2.2.1 (hx i hi).2.2.2.2⟩

theorem C92_quad_scalar_double (P : Platform 64) (op : QuadOp)
    {m : Mem (BitVec 64)} {out : Nat} {a b g q : SArg (BitVec 64)} {n : BitVec 32}
    {x y z u : Nat → BitVec 64} {v : Nat → ℝ} (hn : 0 < n.toNat) (hout : Allocated m out n.toNat)
    (ha : ScalarSupplies (Build64.scalar P) m out n.toNat a x) (hb : ScalarSupplies (Build64.scalar P) m out n.toNat b y) (hg : ScalarSupplies (Build64.scalar P) m out n.toNat g z) (hq : ScalarSupplies (Build64.scalar P) m out n.toNat q u)
    (hx : ∀ i, i < n.toNat → IsFin binary64 (x i) ∧ IsFin binary64 (y i) ∧ IsFin binary64 (z i) ∧ IsFin binary64 (u i) ∧
      AllExact binary64 (QuadSteps op (binary64.toReal (x i)) (binary64.toReal (y i)) (binary64.toReal (z i)) (binary64.toReal (u i))) (v i)) :
    ∃ r : Nat → BitVec 64, op.vec (Build64.scalar P) out a b g q n m = .ok ((), overwrite m out n.toNat r) ∧
      ∀ i, i < n.toNat → Exactly binary64 (r i) (v i) :=
  ⟨_, C04_quad_scalar (Build64.scalar P) op hn hout ha hb hg hq,
    fun i hi => C92_quad_double .generic P op (x i) (y i) (z i) (u i) (v i) (hx i hi).1 (hx i hi).2.1 (hx i hi).2.2.1 (hx i hi).2.2.2.1 (hx i hi).2.2.2.2⟩

/-! ## Which values these are -/

/-- Multiples of `2^-q` up to `2^24` units: among them all integers up to 2^24. -/
theorem C92_grid_float (k : ℤ) (q : ℕ) (hq : q ≤ 149) (hk : |k| ≤ 2 ^ 24) : Representable binary32 (k / 2 ^ q) := by
  have := (C87_which_float k 0 q 0 hq (by simpa using hk) 0 le_rfl).1
  simpa using this

theorem C92_grid_double (k : ℤ) (q : ℕ) (hq : q ≤ 1074) (hk : |k| ≤ 2 ^ 53) : Representable binary64 (k / 2 ^ q) := by
  have := (C87_which_double k 0 q 0 hq (by simpa using hk) 0 le_rfl).1
  simpa using this

/-- Doubling any number of times, up to the range of the format. -/
theorem C92_louder {w : Nat} (F : Fmt w) (x : BitVec w) (j : ℕ) (h : |F.toReal x| * 2 ^ j < 2 ^ F.bias) :
    Representable F (F.toReal x * 2 ^ j) := by
  obtain ⟨s, m, e, h1, h2⟩ := code_decomp F.mb (F.code x)
  obtain ⟨c, hc⟩ := mag_exists (mb := F.mb) (m := m) (s + j) h1.le
  have hm : mag F.mb (F.code x) = m * 2 ^ s := by rw [e, mag_decomp F.mb h1.le h2]
  have hmj : mag F.mb c = mag F.mb (F.code x) * 2 ^ j := by rw [hc, hm, pow_add, mul_assoc]
  have hlt : c < F.infCode := by
    have hp : (0 : ℝ) < 2 ^ F.scale := by positivity
    rw [abs_real, div_mul_eq_mul_div, div_lt_iff₀ hp, ← pow_add] at h
    have h' : mag F.mb c < 2 ^ (F.bias + F.scale) := by rw [hmj]; exact_mod_cast h
    have := F.rne_lt_infCode (N := mag F.mb c) (D := 1) (by decide) (by rw [Nat.mul_one, ← pow_add]; exact h'.le)
    rwa [rne_exact (c := c) (by decide) (by rw [Nat.mul_one])] at this
  refine ⟨F.pack (F.neg x) c, F.isFinite_pack _ hlt, ?_⟩
  rw [F.toReal_pack _ hlt, hmj, F.toReal_eq x]
  push_cast
  ring

/-- Halving any number of times, as long as the result is a normal number. -/
theorem C92_quieter {w : Nat} (F : Fmt w) (x : BitVec w) (j : ℕ) (hx : IsFin F x)
    (h : 2 ^ (F.mb + j) ≤ mag F.mb (F.code x)) : Representable F (F.toReal x / 2 ^ j) := by
  obtain ⟨s, m, e, h1, h2⟩ := code_decomp F.mb (F.code x)
  have hm : mag F.mb (F.code x) = m * 2 ^ s := by rw [e, mag_decomp F.mb h1.le h2]
  have hs : j ≤ s := by
    rw [hm] at h
    have : 2 ^ (F.mb + j) < 2 ^ (F.mb + 1) * 2 ^ s := h.trans_lt (Nat.mul_lt_mul_of_pos_right h1 (Nat.two_pow_pos s))
    rw [← pow_add] at this
    have := (Nat.pow_lt_pow_iff_right (a := 2) (by decide)).mp this
    omega
  obtain ⟨c, hc⟩ := mag_exists (mb := F.mb) (m := m) (s - j) h1.le
  have hmj : mag F.mb c * 2 ^ j = mag F.mb (F.code x) := by rw [hc, hm, mul_assoc, ← pow_add, Nat.sub_add_cancel hs]
  have hlt : c < F.infCode := by
    have hle : c ≤ F.code x := mag_le_iff.mp (by
      rw [← hmj]; exact Nat.le_mul_of_pos_right _ (Nat.two_pow_pos j))
    exact hle.trans_lt (F.finite_code hx)
  refine ⟨F.pack (F.neg x) c, F.isFinite_pack _ hlt, ?_⟩
  rw [F.toReal_pack _ hlt, F.toReal_eq x, ← hmj]
  push_cast
  field_simp

/-- A gain that is a power of two changes a `float` signal without any error, in every build. -/
theorem C92_power_of_two (b : Build32) (P : Platform 32) (x g : BitVec 32) (j : ℕ) (hx : IsFin binary32 x) (hg : IsFin binary32 g)
    (h : (binary32.toReal g = 2 ^ j ∧ |binary32.toReal x| * 2 ^ j < 2 ^ 127) ∨
      (binary32.toReal g = 1 / 2 ^ j ∧ 2 ^ j / 2 ^ 126 ≤ |binary32.toReal x|)) :
    Exactly binary32 (BinOp.times.f (b.lane P) x g) (binary32.toReal x * binary32.toReal g) := by
  refine C92_binary_float_partial b P .times x g _ hx hg ⟨?_, rfl⟩ (fun h => by cases h)
  intro s hs
  obtain rfl : s = binary32.toReal x * binary32.toReal g := by simpa [BinSteps] using hs
  rcases h with ⟨e, h⟩ | ⟨e, h⟩
  · rw [e]; exact C92_louder binary32 x j h
  · rw [e, mul_one_div]
    refine C92_quieter binary32 x j hx ?_
    rw [abs_real, show binary32.scale = 23 + 126 by decide, pow_add, ← div_div, div_le_div_iff_of_pos_right (by positivity),
      le_div_iff₀ (by positivity)] at h
    rw [show binary32.mb = 23 from rfl, Nat.add_comm, pow_add]
    exact_mod_cast h

/-- The same for `double`. -/
theorem C92_power_of_two_double (b : Build64) (P : Platform 64) (x g : BitVec 64) (j : ℕ) (hx : IsFin binary64 x)
    (hg : IsFin binary64 g)
    (h : (binary64.toReal g = 2 ^ j ∧ |binary64.toReal x| * 2 ^ j < 2 ^ 1023) ∨
      (binary64.toReal g = 1 / 2 ^ j ∧ 2 ^ (52 + j) / 2 ^ 1074 ≤ |binary64.toReal x|)) :
    Exactly binary64 (BinOp.times.f (b.lane P) x g) (binary64.toReal x * binary64.toReal g) := by
  refine C92_binary_double b P .times x g _ hx hg ⟨?_, rfl⟩
  intro s hs
  obtain rfl : s = binary64.toReal x * binary64.toReal g := by simpa [BinSteps] using hs
  rcases h with ⟨e, h⟩ | ⟨e, h⟩
  · rw [e]; exact C92_louder binary64 x j h
  · rw [e, mul_one_div]
    refine C92_quieter binary64 x j hx ?_
    rw [abs_real, show binary64.scale = 1074 by decide, div_le_div_iff_of_pos_right (by positivity)] at h
    rw [show binary64.mb = 52 from rfl]
    exact_mod_cast h

/-! ## Examples -/

/-- `3 * 5 + 7 = 22`, fused or not. -/
example (b : Build32) (P : Platform 32) :
    AllExact binary32 (TerSteps .muladd (binary32.toReal 0x40400000#32) (binary32.toReal 0x40A00000#32) (binary32.toReal 0x40E00000#32)) 22 ∧
    Exactly binary32 (TerOp.muladd.f (b.lane P) 0x40400000#32 0x40A00000#32 0x40E00000#32) 22 := by
  have e3 := (val32 (x := 0x40400000#32) 3 (by decide +kernel)).2
  have e5 := (val32 (x := 0x40A00000#32) 5 (by decide +kernel)).2
  have e7 := (val32 (x := 0x40E00000#32) 7 (by decide +kernel)).2
  have h : AllExact binary32 (TerSteps .muladd (binary32.toReal 0x40400000#32) (binary32.toReal 0x40A00000#32) (binary32.toReal 0x40E00000#32)) 22 := by
    rw [e3, e5, e7]
    refine ⟨fun s hs => ?_, by simp [TerSteps]; norm_num⟩
    have : s = 15 ∨ s = 22 := by
      simp [TerSteps] at hs
      rcases hs with rfl | rfl <;> norm_num
    rcases this with rfl | rfl
    · have := C92_grid_float 15 0 (by norm_num) (by norm_num); simpa using this
    · have := C92_grid_float 22 0 (by norm_num) (by norm_num); simpa using this
  exact ⟨h, C92_ternary_float b P .muladd _ _ _ _ (by decide +kernel) (by decide +kernel) (by decide +kernel) h⟩

/-- The signed root of -9/4 is -3/2. -/
example (P : Platform 32) : (Build32.avx true |>.lane P).signedSqrt 0xC0100000#32 = 0xBFC00000#32 :=
  (by decide +kernel : (Build32.avx true |>.lane platform0).signedSqrt 0xC0100000#32 = 0xBFC00000#32)

end Nova
