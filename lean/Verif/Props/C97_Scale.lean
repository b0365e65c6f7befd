import Verif.Lemmas.Scale
import Verif.Props.C92_Exact
import Verif.Props.C79_Sums

/-!
# C97 Changing levels by powers of two

Arguments that are scaled by powers of two give results that are scaled by a power of two, exactly (`SpecScale`): 6 dB steps
change nothing but exponents, as long as no product or quotient is smaller than the smallest normal number and no result
overflows.
-/

namespace Nova
open FP Spec VecMath

/-! ## One element -/

section generic
variable {w : Nat} {F : Fmt w}

theorem sgn_scaled {s : BitVec w → BitVec w} {one mone : BitVec w} {j : ℤ} {x x' : BitVec w} (hx : ScaledBy F j x x')
    (h : ∀ y, Num F y → (0 < F.toEReal y → s y = one) ∧ (F.toEReal y < 0 → s y = mone) ∧ (F.toEReal y = 0 → F.toEReal (s y) = 0 ∧ Num F (s y)))
    (h1 : IsFin F one) (h2 : IsFin F mone) : ScaledBy F 0 (s x) (s x') := by
  have e := F.toEReal_of_finite hx.1
  have e' := F.toEReal_of_finite hx.2.1
  have p : (0 : ℝ) < 2 ^ j := by positivity
  have fz : ∀ {y : BitVec w}, F.toEReal y = 0 → Num F y → IsFin F y ∧ F.toReal y = 0 := by
    intro y h n
    rcases Fmt.num_cases n with ⟨-, -, v⟩ | ⟨-, -, v⟩ | ⟨f, -, v⟩
    · rw [h] at v; exact absurd v (by decide)
    · rw [h] at v; exact absurd v (by decide)
    · rw [h] at v; exact ⟨f, by exact_mod_cast v.symm⟩
  rcases lt_trichotomy (F.toReal x) 0 with c | c | c
  · have c' : F.toReal x' < 0 := by rw [hx.2.2]; exact mul_neg_of_neg_of_pos c p
    rw [(h x hx.fin.1).2.1 (by rw [e]; exact_mod_cast c), (h x' hx.fin.2).2.1 (by rw [e']; exact_mod_cast c')]
    exact .zero_same h2
  · have c' : F.toReal x' = 0 := by rw [hx.2.2, c, zero_mul]
    obtain ⟨a, n⟩ := (h x hx.fin.1).2.2 (by rw [e, c]; rfl)
    obtain ⟨a', n'⟩ := (h x' hx.fin.2).2.2 (by rw [e', c']; rfl)
    exact ⟨(fz a n).1, (fz a' n').1, by rw [(fz a n).2, (fz a' n').2]; simp⟩
  · have c' : 0 < F.toReal x' := by rw [hx.2.2]; exact mul_pos c p
    rw [(h x hx.fin.1).1 (by rw [e]; exact_mod_cast c), (h x' hx.fin.2).1 (by rw [e']; exact_mod_cast c')]
    exact .zero_same h1

theorem abs_scaled {j : ℤ} {x x' : BitVec w} (hx : ScaledBy F j x x') : ScaledBy F j (F.fabs x) (F.fabs x') :=
  ⟨by simpa using hx.1, by simpa using hx.2.1, by
    rw [F.toReal_fabs, F.toReal_fabs, hx.2.2, abs_mul, abs_of_pos (show (0 : ℝ) < 2 ^ j by positivity)]⟩

theorem reciprocal_scaled (h1 : IsFin F (F.ofInt 1)) (hv : F.toReal (F.ofInt 1) = 1) {j : ℤ} {x x' : BitVec w} (hx : ScaledBy F j x x')
    (c : UnAbove F .reciprocal x) (c' : UnAbove F .reciprocal x')
    (f : IsFin F (F.div (F.ofInt 1) x)) (f' : IsFin F (F.div (F.ofInt 1) x')) :
    ScaledBy F (-j) (F.div (F.ofInt 1) x) (F.div (F.ofInt 1) x') := by
  have := scaled_div (.zero_same h1) hx (by rw [hv]; exact c) (by rw [hv]; exact c') f f'
  rwa [_root_.zero_sub] at this

end generic

/-- One element of a unary function of `float`. -/
theorem C97_unary_float (b : Build32) (P : Platform 32) (op : UnOp) {j d : ℤ} {x x' : BitVec 32} (h : UnScale op j d)
    (hx : ScaledBy binary32 j x x') (c : UnAbove binary32 op x) (c' : UnAbove binary32 op x')
    (hr : op = .reciprocal → b = .generic) :
    ∃ r s, op.f (b.lane P) x = .ok r ∧ op.f (b.lane P) x' = .ok s ∧
      (IsFin binary32 r → IsFin binary32 s → ScaledBy binary32 d r s) := by
  cases op with
  | abs =>
    obtain rfl : d = j := h
    refine ⟨_, _, rfl, rfl, fun _ _ => ?_⟩
    rw [abs_lane32, abs_lane32]
    exact abs_scaled hx
  | square => obtain rfl : d = 2 * j := h; exact ⟨_, _, rfl, rfl, (lane_scaleOps32 b P).square_scaled hx c c'⟩
  | cube => obtain rfl : d = 3 * j := h; exact ⟨_, _, rfl, rfl, (lane_scaleOps32 b P).cube_scaled hx c c'⟩
  | reciprocal =>
    obtain rfl : d = -j := h
    rw [hr rfl]
    exact ⟨_, _, rfl, rfl, reciprocal_scaled one_fin32 one_real32 hx c c'⟩
  | sgn =>
    obtain rfl : d = 0 := h
    refine ⟨_, _, rfl, rfl, fun _ _ => sgn_scaled (s := (b.lane P).sign) (one := 0x3f800000#32) (mone := 0xbf800000#32) hx
      (fun y hy => ⟨fun h => ((C39_sign_float b P y hy).1 h).1, fun h => ((C39_sign_float b P y hy).2.1 h).1, fun h => ?_⟩)
      (by decide) (by decide)⟩
    rw [((C39_sign_float b P y hy).2.2 h).1]
    split
    · exact (zero_num (by decide)).symm
    · exact ⟨h, hy⟩
  | _ => exact h.elim

theorem C97_unary_double (b : Build64) (P : Platform 64) (op : UnOp) {j d : ℤ} {x x' : BitVec 64} (h : UnScale op j d)
    (hx : ScaledBy binary64 j x x') (c : UnAbove binary64 op x) (c' : UnAbove binary64 op x') :
    ∃ r s, op.f (b.lane P) x = .ok r ∧ op.f (b.lane P) x' = .ok s ∧
      (IsFin binary64 r → IsFin binary64 s → ScaledBy binary64 d r s) := by
  cases op with
  | abs =>
    obtain rfl : d = j := h
    refine ⟨_, _, rfl, rfl, fun _ _ => ?_⟩
    rw [abs_lane64, abs_lane64]
    exact abs_scaled hx
  | square => obtain rfl : d = 2 * j := h; exact ⟨_, _, rfl, rfl, (lane_scaleOps64 b P).square_scaled hx c c'⟩
  | cube => obtain rfl : d = 3 * j := h; exact ⟨_, _, rfl, rfl, (lane_scaleOps64 b P).cube_scaled hx c c'⟩
  | reciprocal =>
    obtain rfl : d = -j := h
    have e : ∀ y, (b.lane P).reciprocal y = binary64.div (binary64.ofInt 1) y := fun y => by
      rw [(lane_math64 b P).reciprocal]; exact scalar_reciprocal binary64 _ _ _ y
    refine ⟨_, _, rfl, rfl, ?_⟩
    rw [e, e]
    exact reciprocal_scaled one_fin64 one_real64 hx c c'
  | sgn =>
    obtain rfl : d = 0 := h
    refine ⟨_, _, rfl, rfl, fun _ _ => sgn_scaled (s := (b.lane P).sign) (one := 0x3ff0000000000000#64)
      (mone := 0xbff0000000000000#64) hx
      (fun y hy => ⟨fun h => ((C39_sign_double b P y hy).1 h).1, fun h => ((C39_sign_double b P y hy).2.1 h).1, fun h => ?_⟩)
      (by decide) (by decide)⟩
    rw [((C39_sign_double b P y hy).2.2 h).1]
    split
    · exact (zero_num (by decide)).symm
    · exact ⟨h, hy⟩
  | _ => exact h.elim

/-- One element of a binary function of `float`. -/
theorem C97_binary_float (b : Build32) (P : Platform 32) (op : BinOp) {j k d : ℤ} {x x' y y' : BitVec 32} (h : BinScale op j k d)
    (hx : ScaledBy binary32 j x x') (hy : ScaledBy binary32 k y y') (c : BinAbove binary32 op x y) (c' : BinAbove binary32 op x' y')
    (ho : op = .over → divides b = true)
    (f : IsFin binary32 (op.f (b.lane P) x y)) (f' : IsFin binary32 (op.f (b.lane P) x' y')) :
    ScaledBy binary32 d (op.f (b.lane P) x y) (op.f (b.lane P) x' y') := by
  refine (lane_scaleOps32 b P).binary op (fun e => ?_) (rel32 b P) (by decide) (by decide) h hx hy c c' f f'
  have hd := ho e
  cases b <;> first | rfl | exact absurd hd (by decide)

theorem C97_binary_double (b : Build64) (P : Platform 64) (op : BinOp) {j k d : ℤ} {x x' y y' : BitVec 64} (h : BinScale op j k d)
    (hx : ScaledBy binary64 j x x') (hy : ScaledBy binary64 k y y') (c : BinAbove binary64 op x y) (c' : BinAbove binary64 op x' y')
    (f : IsFin binary64 (op.f (b.lane P) x y)) (f' : IsFin binary64 (op.f (b.lane P) x' y')) :
    ScaledBy binary64 d (op.f (b.lane P) x y) (op.f (b.lane P) x' y') :=
  (lane_scaleOps64 b P).binary op (fun _ => (lane_math64 b P).div) (rel64 b P) (by decide) (by decide) h hx hy c c' f f'

/-- One element of a ternary function of `float`, fused or not. -/
theorem C97_ternary_float (b : Build32) (P : Platform 32) (op : TerOp) {i j k d : ℤ} {x x' y y' z z' : BitVec 32}
    (h : TerScale op i j k d) (hx : ScaledBy binary32 i x x') (hy : ScaledBy binary32 j y y') (hz : ScaledBy binary32 k z z')
    (c : TerAbove binary32 op x y z) (c' : TerAbove binary32 op x' y' z')
    (f : IsFin binary32 (op.f (b.lane P) x y z)) (f' : IsFin binary32 (op.f (b.lane P) x' y' z')) :
    ScaledBy binary32 d (op.f (b.lane P) x y z) (op.f (b.lane P) x' y' z') :=
  (lane_scaleOps32 b P).ternary one_fin32 op h hx hy hz c c' f f'

theorem C97_ternary_double (b : Build64) (P : Platform 64) (op : TerOp) {i j k d : ℤ} {x x' y y' z z' : BitVec 64}
    (h : TerScale op i j k d) (hx : ScaledBy binary64 i x x') (hy : ScaledBy binary64 j y y') (hz : ScaledBy binary64 k z z')
    (c : TerAbove binary64 op x y z) (c' : TerAbove binary64 op x' y' z')
    (f : IsFin binary64 (op.f (b.lane P) x y z)) (f' : IsFin binary64 (op.f (b.lane P) x' y' z')) :
    ScaledBy binary64 d (op.f (b.lane P) x y z) (op.f (b.lane P) x' y' z') :=
  (lane_scaleOps64 b P).ternary one_fin64 op h hx hy hz c c' f f'

/-- `mix` and the sum of four. -/
theorem C97_quad_float (b : Build32) (P : Platform 32) (op : QuadOp) {i j k l d : ℤ} {x x' y y' z z' u u' : BitVec 32}
    (h : QuadScale op i j k l d) (hx : ScaledBy binary32 i x x') (hy : ScaledBy binary32 j y y') (hz : ScaledBy binary32 k z z')
    (hu : ScaledBy binary32 l u u') (c : QuadAbove binary32 op x y z u) (c' : QuadAbove binary32 op x' y' z' u')
    (f : IsFin binary32 (op.f (b.lane P) x y z u)) (f' : IsFin binary32 (op.f (b.lane P) x' y' z' u')) :
    ScaledBy binary32 d (op.f (b.lane P) x y z u) (op.f (b.lane P) x' y' z' u') :=
  (lane_scaleOps32 b P).quad op h hx hy hz hu c c' f f'

theorem C97_quad_double (b : Build64) (P : Platform 64) (op : QuadOp) {i j k l d : ℤ} {x x' y y' z z' u u' : BitVec 64}
    (h : QuadScale op i j k l d) (hx : ScaledBy binary64 i x x') (hy : ScaledBy binary64 j y y') (hz : ScaledBy binary64 k z z')
    (hu : ScaledBy binary64 l u u') (c : QuadAbove binary64 op x y z u) (c' : QuadAbove binary64 op x' y' z' u')
    (f : IsFin binary64 (op.f (b.lane P) x y z u)) (f' : IsFin binary64 (op.f (b.lane P) x' y' z' u')) :
    ScaledBy binary64 d (op.f (b.lane P) x y z u) (op.f (b.lane P) x' y' z' u') :=
  (lane_scaleOps64 b P).quad op h hx hy hz hu c c' f f'

/-! ## Whole calls -/

/-- `f_vec_simd(out, in, n)` for `float`: wherever both results are finite, one is the other one scaled. -/
theorem C97_unary_calls_float (b : Build32) (P : Platform 32) (op : UnOp)
    {m m' : Mem (BitVec 32)} {out inp : Nat} {n : BitVec 32} {x x' : Nat → BitVec 32} {j d : ℤ} (h : UnScale op j d) (hn : 0 < n.toNat)
    (hmul : b.target.perLine ∣ n.toNat) (hoal : b.target.align ∣ out) (hial : b.target.align ∣ inp)
    (hout : Allocated m out n.toNat) (hout' : Allocated m' out n.toNat) (hin : Holds m inp n.toNat x)
    (hin' : Holds m' inp n.toNat x') (hs : SafePlacement out inp n.toNat) (hr : op = .reciprocal → b = .generic)
    (hx : ∀ i, i < n.toNat → ScaledBy binary32 j (x i) (x' i) ∧ UnAbove binary32 op (x i) ∧ UnAbove binary32 op (x' i)) :
    ∃ y z : Nat → BitVec 32, op.vecSimd (b.vec P) out inp n m = .ok ((), overwrite m out n.toNat y) ∧
      op.vecSimd (b.vec P) out inp n m' = .ok ((), overwrite m' out n.toNat z) ∧
      ∀ i, i < n.toNat → IsFin binary32 (y i) → IsFin binary32 (z i) → ScaledBy binary32 d (y i) (z i) :=
  ordered_unary b.target (b.env P) op hn hmul hoal hial hout hout' hin hin' hs fun i hi =>
    C97_unary_float b P op h (hx i hi).1 (hx i hi).2.1 (hx i hi).2.2 hr

/-- `f_vec(out, in, n)` for `float`. -/
theorem C97_unary_scalar_float (P : Platform 32) (op : UnOp)
    {m m' : Mem (BitVec 32)} {out inp : Nat} {n : BitVec 32} {x x' : Nat → BitVec 32} {j d : ℤ} (h : UnScale op j d) (hn : 0 < n.toNat)
    (hout : Allocated m out n.toNat) (hout' : Allocated m' out n.toNat) (hin : Holds m inp n.toNat x)
    (hin' : Holds m' inp n.toNat x') (hs : SafePlacement out inp n.toNat)
    (hx : ∀ i, i < n.toNat → ScaledBy binary32 j (x i) (x' i) ∧ UnAbove binary32 op (x i) ∧ UnAbove binary32 op (x' i)) :
    ∃ y z : Nat → BitVec 32, op.vec (Build32.scalar P) out inp n m = .ok ((), overwrite m out n.toNat y) ∧
      op.vec (Build32.scalar P) out inp n m' = .ok ((), overwrite m' out n.toNat z) ∧
      ∀ i, i < n.toNat → IsFin binary32 (y i) → IsFin binary32 (z i) → ScaledBy binary32 d (y i) (z i) :=
  ordered_unary_scalar (Build32.scalar P) op hn hout hout' hin hin' hs fun i hi =>
    C97_unary_float .generic P op h (hx i hi).1 (hx i hi).2.1 (hx i hi).2.2 fun _ => rfl

theorem C97_unary_calls_double (b : Build64) (P : Platform 64) (op : UnOp)
    {m m' : Mem (BitVec 64)} {out inp : Nat} {n : BitVec 32} {x x' : Nat → BitVec 64} {j d : ℤ} (h : UnScale op j d) (hn : 0 < n.toNat)
    (hmul : b.target.perLine ∣ n.toNat) (hoal : b.target.align ∣ out) (hial : b.target.align ∣ inp)
    (hout : Allocated m out n.toNat) (hout' : Allocated m' out n.toNat) (hin : Holds m inp n.toNat x)
    (hin' : Holds m' inp n.toNat x') (hs : SafePlacement out inp n.toNat)
    (hx : ∀ i, i < n.toNat → ScaledBy binary64 j (x i) (x' i) ∧ UnAbove binary64 op (x i) ∧ UnAbove binary64 op (x' i)) :
    ∃ y z : Nat → BitVec 64, op.vecSimd (b.vec P) out inp n m = .ok ((), overwrite m out n.toNat y) ∧
      op.vecSimd (b.vec P) out inp n m' = .ok ((), overwrite m' out n.toNat z) ∧
      ∀ i, i < n.toNat → IsFin binary64 (y i) → IsFin binary64 (z i) → ScaledBy binary64 d (y i) (z i) :=
  ordered_unary b.target (b.env P) op hn hmul hoal hial hout hout' hin hin' hs fun i hi =>
    C97_unary_double b P op h (hx i hi).1 (hx i hi).2.1 (hx i hi).2.2

/-- `f_vec_simd` with two arguments for `float`: buffers, numbers or ramps. -/
theorem C97_binary_calls_float (bd : Build32) (P : Platform 32) (op : BinOp) {m m' : Mem (BitVec 32)} {out : Nat}
    {a b a' b' : SArg (BitVec 32)} {n : BitVec 32} {x y x' y' : Nat → BitVec 32} {j k d : ℤ} (h : BinScale op j k d)
    (hn : 0 < n.toNat) (hmul : bd.target.perLine ∣ n.toNat) (hoal : bd.target.align ∣ out)
    (hout : Allocated m out n.toNat) (hout' : Allocated m' out n.toNat)
    (ha : SimdSupplies (bd.vec P) bd.target.align m out n.toNat a x)
    (hb : SimdSupplies (bd.vec P) bd.target.align m out n.toNat b y)
    (ha' : SimdSupplies (bd.vec P) bd.target.align m' out n.toNat a' x')
    (hb' : SimdSupplies (bd.vec P) bd.target.align m' out n.toNat b' y')
    (hx : ∀ t, t < n.toNat → ScaledBy binary32 j (x t) (x' t)) (hy : ∀ t, t < n.toNat → ScaledBy binary32 k (y t) (y' t))
    (hc : ∀ t, t < n.toNat → BinAbove binary32 op (x t) (y t) ∧ BinAbove binary32 op (x' t) (y' t))
    (ho : op = .over → divides bd = true) :
    ∃ r s : Nat → BitVec 32, op.vecSimd (bd.vec P) out a b n m = .ok ((), overwrite m out n.toNat r) ∧
      op.vecSimd (bd.vec P) out a' b' n m' = .ok ((), overwrite m' out n.toNat s) ∧
      ∀ t, t < n.toNat → IsFin binary32 (r t) → IsFin binary32 (s t) → ScaledBy binary32 d (r t) (s t) :=
  ⟨_, _, C02_binary_simd bd.target (bd.env P) op hn hmul hoal hout ha hb,
    C02_binary_simd bd.target (bd.env P) op hn hmul hoal hout' ha' hb',
    fun t ht => C97_binary_float bd P op h (hx t ht) (hy t ht) (hc t ht).1 (hc t ht).2 ho⟩

theorem C97_binary_calls_double (bd : Build64) (P : Platform 64) (op : BinOp) {m m' : Mem (BitVec 64)} {out : Nat}
    {a b a' b' : SArg (BitVec 64)} {n : BitVec 32} {x y x' y' : Nat → BitVec 64} {j k d : ℤ} (h : BinScale op j k d)
    (hn : 0 < n.toNat) (hmul : bd.target.perLine ∣ n.toNat) (hoal : bd.target.align ∣ out)
    (hout : Allocated m out n.toNat) (hout' : Allocated m' out n.toNat)
    (ha : SimdSupplies (bd.vec P) bd.target.align m out n.toNat a x)
    (hb : SimdSupplies (bd.vec P) bd.target.align m out n.toNat b y)
    (ha' : SimdSupplies (bd.vec P) bd.target.align m' out n.toNat a' x')
    (hb' : SimdSupplies (bd.vec P) bd.target.align m' out n.toNat b' y')
    (hx : ∀ t, t < n.toNat → ScaledBy binary64 j (x t) (x' t)) (hy : ∀ t, t < n.toNat → ScaledBy binary64 k (y t) (y' t))
    (hc : ∀ t, t < n.toNat → BinAbove binary64 op (x t) (y t) ∧ BinAbove binary64 op (x' t) (y' t)) :
    ∃ r s : Nat → BitVec 64, op.vecSimd (bd.vec P) out a b n m = .ok ((), overwrite m out n.toNat r) ∧
      op.vecSimd (bd.vec P) out a' b' n m' = .ok ((), overwrite m' out n.toNat s) ∧
      ∀ t, t < n.toNat → IsFin binary64 (r t) → IsFin binary64 (s t) → ScaledBy binary64 d (r t) (s t) :=
  ⟨_, _, C02_binary_simd bd.target (bd.env P) op hn hmul hoal hout ha hb,
    C02_binary_simd bd.target (bd.env P) op hn hmul hoal hout' ha' hb',
    fun t ht => C97_binary_double bd P op h (hx t ht) (hy t ht) (hc t ht).1 (hc t ht).2⟩

/-- `f_vec(out, a, b, n)`, the scalar loop. -/
theorem C97_binary_scalar_float (P : Platform 32) (op : BinOp) {m m' : Mem (BitVec 32)} {out : Nat}
    {a b a' b' : SArg (BitVec 32)} {n : BitVec 32} {x y x' y' : Nat → BitVec 32} {j k d : ℤ} (h : BinScale op j k d)
    (hn : 0 < n.toNat) (hout : Allocated m out n.toNat) (hout' : Allocated m' out n.toNat)
    (ha : ScalarSupplies (Build32.scalar P) m out n.toNat a x) (hb : ScalarSupplies (Build32.scalar P) m out n.toNat b y)
    (ha' : ScalarSupplies (Build32.scalar P) m' out n.toNat a' x') (hb' : ScalarSupplies (Build32.scalar P) m' out n.toNat b' y')
    (hx : ∀ t, t < n.toNat → ScaledBy binary32 j (x t) (x' t)) (hy : ∀ t, t < n.toNat → ScaledBy binary32 k (y t) (y' t))
    (hc : ∀ t, t < n.toNat → BinAbove binary32 op (x t) (y t) ∧ BinAbove binary32 op (x' t) (y' t)) :
    ∃ r s : Nat → BitVec 32, op.vec (Build32.scalar P) out a b n m = .ok ((), overwrite m out n.toNat r) ∧
      op.vec (Build32.scalar P) out a' b' n m' = .ok ((), overwrite m' out n.toNat s) ∧
      ∀ t, t < n.toNat → IsFin binary32 (r t) → IsFin binary32 (s t) → ScaledBy binary32 d (r t) (s t) :=
  ⟨_, _, C02_binary_scalar _ op hn hout ha hb, C02_binary_scalar _ op hn hout' ha' hb',
    fun t ht => C97_binary_float .generic P op h (hx t ht) (hy t ht) (hc t ht).1 (hc t ht).2 fun _ => rfl⟩

/-- `f_vec_simd` with three arguments for `float`. -/
theorem C97_ternary_calls_float (bd : Build32) (P : Platform 32) (op : TerOp) {m m' : Mem (BitVec 32)} {out : Nat}
    {a b g a' b' g' : SArg (BitVec 32)} {n : BitVec 32} {x y z x' y' z' : Nat → BitVec 32} {i j k d : ℤ} (h : TerScale op i j k d)
    (hn : 0 < n.toNat) (hmul : bd.target.perLine ∣ n.toNat) (hoal : bd.target.align ∣ out)
    (hout : Allocated m out n.toNat) (hout' : Allocated m' out n.toNat)
    (ha : SimdSupplies (bd.vec P) bd.target.align m out n.toNat a x)
    (hb : SimdSupplies (bd.vec P) bd.target.align m out n.toNat b y)
    (hg : SimdSupplies (bd.vec P) bd.target.align m out n.toNat g z)
    (ha' : SimdSupplies (bd.vec P) bd.target.align m' out n.toNat a' x')
    (hb' : SimdSupplies (bd.vec P) bd.target.align m' out n.toNat b' y')
    (hg' : SimdSupplies (bd.vec P) bd.target.align m' out n.toNat g' z')
    (hx : ∀ t, t < n.toNat → ScaledBy binary32 i (x t) (x' t)) (hy : ∀ t, t < n.toNat → ScaledBy binary32 j (y t) (y' t))
    (hz : ∀ t, t < n.toNat → ScaledBy binary32 k (z t) (z' t))
    (hc : ∀ t, t < n.toNat → TerAbove binary32 op (x t) (y t) (z t) ∧ TerAbove binary32 op (x' t) (y' t) (z' t)) :
    ∃ r s : Nat → BitVec 32, op.vecSimd (bd.vec P) out a b g n m = .ok ((), overwrite m out n.toNat r) ∧
      op.vecSimd (bd.vec P) out a' b' g' n m' = .ok ((), overwrite m' out n.toNat s) ∧
      ∀ t, t < n.toNat → IsFin binary32 (r t) → IsFin binary32 (s t) → ScaledBy binary32 d (r t) (s t) :=
  ⟨_, _, C03_ternary_simd bd.target (bd.env P) op hn hmul hoal hout ha hb hg,
    C03_ternary_simd bd.target (bd.env P) op hn hmul hoal hout' ha' hb' hg',
    fun t ht => C97_ternary_float bd P op h (hx t ht) (hy t ht) (hz t ht) (hc t ht).1 (hc t ht).2⟩

/-- `mix_vec_simd` and `sum_vec_simd` with four arguments for `float`. -/
theorem C97_quad_calls_float (bd : Build32) (P : Platform 32) (op : QuadOp) {m m' : Mem (BitVec 32)} {out : Nat}
    {a b g q a' b' g' q' : SArg (BitVec 32)} {n : BitVec 32} {x y z u x' y' z' u' : Nat → BitVec 32} {i j k l d : ℤ}
    (h : QuadScale op i j k l d)
    (hn : 0 < n.toNat) (hmul : bd.target.perLine ∣ n.toNat) (hoal : bd.target.align ∣ out)
    (hout : Allocated m out n.toNat) (hout' : Allocated m' out n.toNat)
    (ha : SimdSupplies (bd.vec P) bd.target.align m out n.toNat a x)
    (hb : SimdSupplies (bd.vec P) bd.target.align m out n.toNat b y)
    (hg : SimdSupplies (bd.vec P) bd.target.align m out n.toNat g z)
    (hq : SimdSupplies (bd.vec P) bd.target.align m out n.toNat q u)
    (ha' : SimdSupplies (bd.vec P) bd.target.align m' out n.toNat a' x')
    (hb' : SimdSupplies (bd.vec P) bd.target.align m' out n.toNat b' y')
    (hg' : SimdSupplies (bd.vec P) bd.target.align m' out n.toNat g' z')
    (hq' : SimdSupplies (bd.vec P) bd.target.align m' out n.toNat q' u')
    (hx : ∀ t, t < n.toNat → ScaledBy binary32 i (x t) (x' t)) (hy : ∀ t, t < n.toNat → ScaledBy binary32 j (y t) (y' t))
    (hz : ∀ t, t < n.toNat → ScaledBy binary32 k (z t) (z' t)) (hu : ∀ t, t < n.toNat → ScaledBy binary32 l (u t) (u' t))
    (hc : ∀ t, t < n.toNat → QuadAbove binary32 op (x t) (y t) (z t) (u t) ∧ QuadAbove binary32 op (x' t) (y' t) (z' t) (u' t)) :
    ∃ r s : Nat → BitVec 32, op.vecSimd (bd.vec P) out a b g q n m = .ok ((), overwrite m out n.toNat r) ∧
      op.vecSimd (bd.vec P) out a' b' g' q' n m' = .ok ((), overwrite m' out n.toNat s) ∧
      ∀ t, t < n.toNat → IsFin binary32 (r t) → IsFin binary32 (s t) → ScaledBy binary32 d (r t) (s t) :=
  ⟨_, _, C04_quad_simd bd.target (bd.env P) op hn hmul hoal hout ha hb hg hq,
    C04_quad_simd bd.target (bd.env P) op hn hmul hoal hout' ha' hb' hg' hq',
    fun t ht => C97_quad_float bd P op h (hx t ht) (hy t ht) (hz t ht) (hu t ht) (hc t ht).1 (hc t ht).2⟩

/-! ## Sums of buffers -/

section sums
variable {w : Nat} {F : Fmt w}

/-- A finite value is the scaled one if that is finite. -/
def ScaledIf (F : Fmt w) (k : ℤ) (x y : BitVec w) : Prop := IsFin F x → IsFin F y → ScaledBy F k x y

theorem ScaledIf.add {k : ℤ} {x x' y y' : BitVec w} (hx : ScaledIf F k x x') (hy : ScaledIf F k y y') :
    ScaledIf F k (F.add x y) (F.add x' y') := fun f f' =>
  scaled_add (hx (add_fin_args f).1 (add_fin_args f').1) (hy (add_fin_args f).2 (add_fin_args f').2) f f'

theorem ScaledIf.zero (k : ℤ) : ScaledIf F k F.posZero F.posZero := fun f f' => ⟨f, f', by rw [posZero_real]; simp⟩

theorem ScaledIf.fold {k : ℤ} {g : BitVec w → BitVec w → BitVec w} (hg : ∀ a b, g a b = F.add a b) {z z' : BitVec w}
    {x x' : Nat → BitVec w} (h0 : ScaledIf F k z z') {n : Nat} (hx : ∀ i, i < n → ScaledIf F k (x i) (x' i)) :
    ScaledIf F k (foldSeq g z x n) (foldSeq g z' x' n) := by
  induction n with
  | zero => exact h0
  | succ n ih =>
    rw [foldSeq, foldSeq, hg, hg]
    exact (ih fun i hi => hx i (by omega)).add (hx n (by omega))

theorem ScaledIf.hsum {k : ℤ} {t : Target} {E : Env (BitVec w)} (hE : Adds F E) {v v' : (t.vec E).V}
    (hv : ∀ l, ScaledIf F k (v l) (v' l)) : ScaledIf F k ((t.vec E).horizontalSum v) ((t.vec E).horizontalSum v') := by
  have base : ∀ {s : Nat} (v v' : Vec (BitVec w) s), (∀ l, ScaledIf F k (v l) (v' l)) →
      ScaledIf F k (Base.horizontalSum E.S v) (Base.horizontalSum E.S v') := by
    intro s v v' hv
    have e : ∀ v : Vec (BitVec w) s, Base.horizontalSum E.S v =
        foldSeq E.S.add E.S.zero (fun i => if h : i < s then v ⟨i, h⟩ else 0) s := fun v => by
      rw [foldSeq_eq_foldl]
      unfold Base.horizontalSum Base.toList
      congr 2
      funext l
      rw [dif_pos l.isLt]
    rw [e, e]
    refine ScaledIf.fold hE.S ?_ fun i hi => ?_
    · rw [hE.zS]; exact .zero k
    · simp only [dif_pos hi]; exact hv _
  have four : ∀ (v v' : Vec (BitVec w) 4), (∀ l, ScaledIf F k (v l) (v' l)) → ∀ i j p q : Fin 4,
      ScaledIf F k (F.add (F.add (v i) (v j)) (F.add (v p) (v q))) (F.add (F.add (v' i) (v' j)) (F.add (v' p) (v' q))) :=
    fun v v' h i j p q => ((h i).add (h j)).add ((h p).add (h q))
  cases t with
  | genericFloat => exact base v v' hv
  | genericDouble => exact base v v' hv
  | avxFloat => exact base v v' hv
  | avxDouble => exact base v v' hv
  | altivec => exact base v v' hv
  | sse s3 s41 =>
    change Fin 4 → BitVec w at v v'
    cases s3
    · show ScaledIf F k (E.L.add (E.L.add (v 2) (v 0)) (E.L.add (v 3) (v 1))) (E.L.add (E.L.add (v' 2) (v' 0)) (E.L.add (v' 3) (v' 1)))
      simp only [hE.L]
      exact four v v' hv 2 0 3 1
    · show ScaledIf F k (E.L.add (E.L.add (v 0) (v 1)) (E.L.add (v 2) (v 3))) (E.L.add (E.L.add (v' 0) (v' 1)) (E.L.add (v' 2) (v' 3)))
      simp only [hE.L]
      exact four v v' hv 0 1 2 3
  | neon =>
    change Fin 4 → BitVec w at v v'
    show ScaledIf F k (E.S.add (E.L.add (v 0) (v 1)) (E.L.add (v 2) (v 3))) (E.S.add (E.L.add (v' 0) (v' 1)) (E.L.add (v' 2) (v' 3)))
    simp only [hE.L, hE.S]
    exact four v v' hv 0 1 2 3
  | sse2 =>
    change Fin 2 → BitVec w at v v'
    replace hv : ∀ l : Fin 2, ScaledIf F k (v l) (v' l) := hv
    show ScaledIf F k (E.L.add (v 0) (v 1)) (E.L.add (v' 0) (v' 1))
    simp only [hE.L]
    exact (hv 0).add (hv 1)

/-- The sum of a scaled buffer. -/
theorem sum_scaled_scalar {E : Env (BitVec w)} (hE : Adds F E) {k : ℤ} {m m' : Mem (BitVec w)} {inp inp' : Nat} {n : BitVec 32}
    {x x' : Nat → BitVec w} (hn : 0 < n.toNat) (hi : Holds m inp n.toNat x) (hi' : Holds m' inp' n.toNat x')
    (hx : ∀ i, i < n.toNat → ScaledBy F k (x i) (x' i)) :
    ∃ r s, horizontalSumVec E inp n m = .ok (r, m) ∧ horizontalSumVec E inp' n m' = .ok (s, m') ∧
      (IsFin F r → IsFin F s → ScaledBy F k r s) := by
  refine ⟨_, _, foldVec_ok hn hi, foldVec_ok hn hi', ?_⟩
  exact ScaledIf.fold hE.S (by rw [hE.zS]; exact .zero k) fun i h _ _ => hx i h

theorem sum_scaled_simd {E : Env (BitVec w)} (hE : Adds F E) (t : Target) {k : ℤ} {m m' : Mem (BitVec w)} {inp inp' : Nat}
    {n : BitVec 32} {x x' : Nat → BitVec w} (h : SimdInput t m inp n x) (h' : SimdInput t m' inp' n x')
    (hx : ∀ i, i < n.toNat → ScaledBy F k (x i) (x' i)) :
    ∃ r s, horizontalSumVecSimd E (t.vec E) inp n m = .ok (r, m) ∧ horizontalSumVecSimd E (t.vec E) inp' n m' = .ok (s, m') ∧
      (IsFin F r → IsFin F s → ScaledBy F k r s) := by
  have hdm := h.div_mul E
  have call : ∀ {m : Mem (BitVec w)} {inp : Nat} {x : Nat → BitVec w}, SimdInput t m inp n x →
      horizontalSumVecSimd E (t.vec E) inp n m = .ok ((t.vec E).horizontalSum (foldSeq (VecImpl.zip (t.vec E).lane.add)
        ((t.vec E).setVec E.S.zero) (fun j l => x (j * (t.vec E).size + l)) (n.toNat / (t.vec E).size)), m) := by
    intro m inp x h
    unfold horizontalSumVecSimd
    rw [Exec.bind_ok (h.fold E _ _)]
    rfl
  refine ⟨_, _, call h, call h', ?_⟩
  refine ScaledIf.hsum hE fun l => ?_
  have e := fun x : Nat → BitVec w => foldSeq_lane (t.vec E).lane.add ((t.vec E).setVec E.S.zero)
      (fun j (l : Fin (t.vec E).size) => x (j * (t.vec E).size + l)) (n.toNat / (t.vec E).size) l
  rw [show foldSeq (VecImpl.zip (t.vec E).lane.add) ((t.vec E).setVec E.S.zero)
      (fun j l => x (j * (t.vec E).size + l)) (n.toNat / (t.vec E).size) l = _ from e x,
    show foldSeq (VecImpl.zip (t.vec E).lane.add) ((t.vec E).setVec E.S.zero)
      (fun j l => x' (j * (t.vec E).size + l)) (n.toNat / (t.vec E).size) l = _ from e x']
  refine ScaledIf.fold (by rw [t.lane_eq]; exact hE.L) ?_ fun j hj _ _ => hx _ ?_
  · rw [(t.lawful E).setVec, hE.zS]; exact .zero k
  · have h1 : (j + 1) * (t.vec E).size ≤ n.toNat := by
      rw [← hdm]; exact Nat.mul_le_mul_right _ hj
    rw [Nat.succ_mul] at h1
    have := l.isLt
    omega

end sums

/-- `horizontal_sum_vec` and `horizontal_sum_vec_simd` of `float` buffers at different levels. -/
theorem C97_sum_float (b : Build32) (P : Platform 32) {k : ℤ} {m m' : Mem (BitVec 32)} {inp inp' : Nat}
    {n : BitVec 32} {x x' : Nat → BitVec 32} (hx : ∀ i, i < n.toNat → ScaledBy binary32 k (x i) (x' i)) :
    (0 < n.toNat → Holds m inp n.toNat x → Holds m' inp' n.toNat x' →
      ∃ r s, horizontalSumVec (b.env P) inp n m = .ok (r, m) ∧ horizontalSumVec (b.env P) inp' n m' = .ok (s, m') ∧
        (IsFin binary32 r → IsFin binary32 s → ScaledBy binary32 k r s)) ∧
    (SimdInput b.target m inp n x → SimdInput b.target m' inp' n x' →
      ∃ r s, horizontalSumVecSimd (b.env P) (b.vec P) inp n m = .ok (r, m) ∧
        horizontalSumVecSimd (b.env P) (b.vec P) inp' n m' = .ok (s, m') ∧
        (IsFin binary32 r → IsFin binary32 s → ScaledBy binary32 k r s)) :=
  ⟨fun hn h h' => sum_scaled_scalar (b.adds P) hn h h' hx, fun h h' => sum_scaled_simd (b.adds P) b.target h h' hx⟩

theorem C97_sum_double (b : Build64) (P : Platform 64) {k : ℤ} {m m' : Mem (BitVec 64)} {inp inp' : Nat}
    {n : BitVec 32} {x x' : Nat → BitVec 64} (hx : ∀ i, i < n.toNat → ScaledBy binary64 k (x i) (x' i)) :
    (0 < n.toNat → Holds m inp n.toNat x → Holds m' inp' n.toNat x' →
      ∃ r s, horizontalSumVec (b.env P) inp n m = .ok (r, m) ∧ horizontalSumVec (b.env P) inp' n m' = .ok (s, m') ∧
        (IsFin binary64 r → IsFin binary64 s → ScaledBy binary64 k r s)) ∧
    (SimdInput b.target m inp n x → SimdInput b.target m' inp' n x' →
      ∃ r s, horizontalSumVecSimd (b.env P) (b.vec P) inp n m = .ok (r, m) ∧
        horizontalSumVecSimd (b.env P) (b.vec P) inp' n m' = .ok (s, m') ∧
        (IsFin binary64 r → IsFin binary64 s → ScaledBy binary64 k r s)) :=
  ⟨fun hn h h' => sum_scaled_scalar (b.adds P) hn h h' hx, fun h h' => sum_scaled_simd (b.adds P) b.target h h' hx⟩

/-- `pan2_vec_simd` of a signal at another level, with the same gains. -/
theorem C97_pan2_float (b : Build32) (P : Platform 32) {k : ℤ} {m m' : Mem (BitVec 32)} {out0 out1 inp : Nat} {f0 f1 : BitVec 32}
    {n : BitVec 32} {x x' : Nat → BitVec 32} (hn : 0 < n.toNat) (hmul : b.target.perLine ∣ n.toNat)
    (a0 : b.target.align ∣ out0) (a1 : b.target.align ∣ out1) (ai : b.target.align ∣ inp)
    (hdis : Disjoint2 out0 out1 n.toNat) (hin : Holds m inp n.toNat x) (hin' : Holds m' inp n.toNat x')
    (h0 : Allocated m out0 n.toNat) (h1 : Allocated m out1 n.toNat) (h0' : Allocated m' out0 n.toNat) (h1' : Allocated m' out1 n.toNat)
    (s0 : SafePlacement out0 inp n.toNat) (s1 : SafePlacement out1 inp n.toNat) (hf : IsFin binary32 f0 ∧ IsFin binary32 f1)
    (hx : ∀ i, i < n.toNat → ScaledBy binary32 k (x i) (x' i) ∧
      BinAbove binary32 .times (x i) f0 ∧ BinAbove binary32 .times (x i) f1 ∧
      BinAbove binary32 .times (x' i) f0 ∧ BinAbove binary32 .times (x' i) f1) :
    ∃ r s r' s' : Nat → BitVec 32,
      pan2VecSimd (b.vec P) out0 out1 inp f0 f1 n m = .ok ((), overwrite (overwrite m out0 n.toNat r) out1 n.toNat s) ∧
      pan2VecSimd (b.vec P) out0 out1 inp f0 f1 n m' = .ok ((), overwrite (overwrite m' out0 n.toNat r') out1 n.toNat s') ∧
      ∀ i, i < n.toNat → (IsFin binary32 (r i) → IsFin binary32 (r' i) → ScaledBy binary32 k (r i) (r' i)) ∧
        (IsFin binary32 (s i) → IsFin binary32 (s' i) → ScaledBy binary32 k (s i) (s' i)) := by
  refine ⟨_, _, _, _, C21_pan2_simd b.target (b.env P) hn hmul a0 a1 ai hdis hin h0 h1 s0 s1, C21_pan2_simd b.target (b.env P) hn hmul a0 a1 ai hdis hin' h0' h1' s0 s1,
    fun i hi => ?_⟩
  obtain ⟨h, c0, c1, c0', c1'⟩ := hx i hi
  constructor
  · intro f f'
    have := (lane_scaleOps32 b P).mul_scaled h (.zero_same hf.1) c0 c0' f f'
    rwa [_root_.add_zero] at this
  · intro f f'
    have := (lane_scaleOps32 b P).mul_scaled h (.zero_same hf.2) c1 c1' f f'
    rwa [_root_.add_zero] at this

/-! ## Tiny products -/

/-- The condition is needed: the square of `1.5 * 2^-74` is `2.25 * 2^-148`, which is rounded to `2^-147`; with an argument
twice as large the square is `9 * 2^-148`, exactly, and not four times as large. -/
theorem C97_negation_tiny (b : Build32) (P : Platform 32) :
    ScaledBy binary32 1 0x1AC00000#32 0x1B400000#32 ∧
    ∃ r s, UnOp.square.f (b.lane P) 0x1AC00000#32 = .ok r ∧ UnOp.square.f (b.lane P) 0x1B400000#32 = .ok s ∧
      IsFin binary32 r ∧ IsFin binary32 s ∧ ¬ ScaledBy binary32 2 r s := by
  obtain ⟨fx, vx⟩ := val32 (x := 0x1AC00000#32) (3 / 2 ^ 75) (by decide +kernel)
  obtain ⟨fy, vy⟩ := val32 (x := 0x1B400000#32) (3 / 2 ^ 74) (by decide +kernel)
  obtain ⟨fr, vr⟩ := val32 (x := 0x00000004#32) (4 / 2 ^ 149) (by decide +kernel)
  obtain ⟨fs, vs⟩ := val32 (x := 0x00000012#32) (18 / 2 ^ 149) (by decide +kernel)
  refine ⟨⟨fx, fy, by rw [vx, vy]; norm_num⟩, 0x00000004#32, 0x00000012#32, ?_, ?_, fr, fs, fun h => ?_⟩
  · refine congrArg Except.ok ?_
    rw [(lane_orderOps32 b P).square]
    by_cases hb : multiplies b = true
    · rw [lane_mul32' b hb]; decide +kernel
    · cases b <;> first | exact absurd rfl hb | skip
      rw [altivec_mul]; decide +kernel
  · refine congrArg Except.ok ?_
    rw [(lane_orderOps32 b P).square]
    by_cases hb : multiplies b = true
    · rw [lane_mul32' b hb]; decide +kernel
    · cases b <;> first | exact absurd rfl hb | skip
      rw [altivec_mul]; decide +kernel
  · have := h.2.2
    rw [vr, vs] at this
    norm_num at this

/-- A buffer with a gain of 1.5, in place on AVX, and the same 6 dB louder. -/
example (P : Platform 32) :
    ∃ r s : Nat → BitVec 32, BinOp.times.vecSimd ((Build32.avx true).vec P) 0 (.ptr 0) (.scalar 0x3fc00000#32) 16#32
        (fun i => if i < 16 then some 0x3f800000#32 else none) = .ok ((), overwrite (fun i => if i < 16 then some 0x3f800000#32 else none) 0 16 r) ∧
      BinOp.times.vecSimd ((Build32.avx true).vec P) 0 (.ptr 0) (.scalar 0x3fc00000#32) 16#32
        (fun i => if i < 16 then some 0x40000000#32 else none) = .ok ((), overwrite (fun i => if i < 16 then some 0x40000000#32 else none) 0 16 s) ∧
      ∀ t, t < 16 → IsFin binary32 (r t) → IsFin binary32 (s t) → ScaledBy binary32 1 (r t) (s t) := by
  obtain ⟨fx, vx⟩ := val32 (x := 0x3f800000#32) 1 (by decide +kernel)
  obtain ⟨fy, vy⟩ := val32 (x := 0x40000000#32) 2 (by decide +kernel)
  obtain ⟨fg, vg⟩ := val32 (x := 0x3fc00000#32) (3 / 2) (by decide +kernel)
  have tiny : smallestNormal binary32 ≤ 1 := by
    unfold smallestNormal
    rw [show binary32.mb = 23 from rfl, show binary32.scale = 149 by decide]
    norm_num
  refine C97_binary_calls_float (.avx true) P .times (n := 16#32) (j := 1) (k := 0) (d := 1) (x := fun _ => 0x3f800000#32)
    (x' := fun _ => 0x40000000#32) (y := fun _ => 0x3fc00000#32) (y' := fun _ => 0x3fc00000#32) (by rfl)
    (by decide) (by decide) (by decide) (by unfold Allocated; decide) (by unfold Allocated; decide)
    ⟨by decide, by unfold Holds; decide, .inl le_rfl⟩ (fun _ _ => rfl)
    ⟨by decide, by unfold Holds; decide, .inl le_rfl⟩ (fun _ _ => rfl)
    (fun _ _ => ⟨fx, fy, by rw [vx, vy]; norm_num⟩) (fun _ _ => .zero_same fg)
    (fun _ _ => ⟨.inr (tiny.trans ?_), .inr (tiny.trans ?_)⟩) (fun h => by cases h)
  · rw [vx, vg]; norm_num
  · rw [vy, vg]; norm_num

end Nova
