import Verif.Lemmas.PolarityLanes

/-!
# C88 Inverting the polarity of a signal

For the functions and arguments of the tables in `SpecPolarity`, calls on inverted signals write the inverted results:
the same magnitudes with the other sign.  Zeros and NaNs may have either sign.  The scalar functions are the lanes of
the generic build.
-/

namespace Nova
open FP VecMath Spec

section generic
variable {w : Nat} {F : Fmt w}

theorem fin_negate {x : BitVec w} (hx : IsFin F x) : IsFin F (F.negate x) := by
  unfold IsFin; rw [F.isFinite_negate]; exact hx

theorem sgn_odd {A : BitVec w → BitVec w} {one mone : BitVec w} {z : BitVec w → BitVec w} {x : BitVec w} (hx : Num F x)
    (h : ∀ x, Num F x → (0 < F.toEReal x → A x = one) ∧ (F.toEReal x < 0 → A x = mone) ∧ (F.toEReal x = 0 → A x = z x))
    (h1 : mone = F.negate one) (hz : ∀ x, F.code x = 0 → F.code (z x) = 0) : Opposite F (A x) (A (F.negate x)) := by
  have hn : Num F (F.negate x) := by unfold Num; rw [F.isNaN_negate]; exact hx
  obtain ⟨p, n, o⟩ := h x hx
  obtain ⟨p', n', o'⟩ := h _ hn
  rw [F.toEReal_negate] at p' n' o'
  rcases lt_trichotomy (F.toEReal x) 0 with c | c | c
  · rw [n c, p' (by rw [EReal.neg_pos]; exact c), h1]
    exact .inr (.inl (F.negate_negate one).symm)
  · have hc : F.code x = 0 := F.key_eq_zero.mp ((F.key_zero_iff hx).mpr c)
    rw [o c, o' (by rw [c]; simp)]
    exact Opposite.zero (hz x hc) (hz _ (by rw [F.code_negate]; exact hc))
  · rw [p c, n' (by rw [EReal.neg_lt_zero]; exact c), h1]
    exact Opposite.negate one

/-- Clipping is symmetric: an inverted value clipped to the inverted range. -/
theorem clip_inverted (v : EReal) {lo hi : EReal} (h : lo ≤ hi) :
    max (-hi) (min (-v) (-lo)) = -max lo (min v hi) := by
  rw [EReal.min_neg_neg, EReal.max_neg_neg, min_comm, max_comm v lo, max_min_distrib_left, max_eq_right h]

/-- Binary functions of a class with odd operations. -/
theorem binary_odd {A : Arith (BitVec w)} (O : OddOps F A) (hM : IsMax F A.max_) (hm : IsMin F A.min_)
    (hz : A.zero = F.posZero) (op : BinOp) (x y : BitVec w) {c d : Bool} (h : (c, d) ∈ BinFlips op)
    (ho : op = .over → A.div = F.div) (hc : op = .clip2 → Num F x ∧ Num F y ∧ 0 ≤ F.toEReal y) :
    Opposite F (op.f A x y) (op.f A (invert F c x) (invert F d y)) := by
  cases op with
  | plus =>
    obtain ⟨rfl, rfl⟩ : c = true ∧ d = true := by simpa [BinFlips] using h
    change Opposite F (A.add x y) (A.add _ _)
    rw [O.add]
    exact Opposite.add (Opposite.negate x) (Opposite.negate y)
  | sum =>
    obtain ⟨rfl, rfl⟩ : c = true ∧ d = true := by simpa [BinFlips] using h
    change Opposite F (A.add x y) (A.add _ _)
    rw [O.add]
    exact Opposite.add (Opposite.negate x) (Opposite.negate y)
  | minus =>
    obtain ⟨rfl, rfl⟩ : c = true ∧ d = true := by simpa [BinFlips] using h
    change Opposite F (A.sub x y) (A.sub _ _)
    rw [O.sub]
    exact Opposite.sub (Opposite.negate x) (Opposite.negate y)
  | times =>
    obtain ⟨rfl, rfl⟩ | ⟨rfl, rfl⟩ : (c = true ∧ d = false) ∨ (c = false ∧ d = true) := by simpa [BinFlips] using h
    · exact O.mul_l x y
    · exact O.mul_r x y
  | over =>
    change Opposite F (A.div x y) (A.div _ _)
    rw [ho rfl]
    obtain ⟨rfl, rfl⟩ | ⟨rfl, rfl⟩ : (c = true ∧ d = false) ∨ (c = false ∧ d = true) := by simpa [BinFlips] using h
    · exact Opposite.div_neg x y _ _ (.inl ⟨rfl, rfl⟩)
    · exact Opposite.div_neg x y _ _ (.inr ⟨rfl, rfl⟩)
  | clip2 =>
    obtain ⟨rfl, rfl⟩ : c = true ∧ d = false := by simpa [BinFlips] using h
    obtain ⟨nx, ny, hl⟩ := hc rfl
    have nx' : Num F (F.negate x) := by unfold Num; rw [F.isNaN_negate]; exact nx
    obtain ⟨n1, v1⟩ := clip2_spec F hM hm hz O.sub nx ny
    obtain ⟨n2, v2⟩ := clip2_spec F hM hm hz O.sub nx' ny
    refine opposite_of_value n1 n2 ?_
    change F.toEReal (Functor.clip2 A (F.negate x) y) = -F.toEReal (Functor.clip2 A x y)
    rw [v1, v2, F.toEReal_negate]
    generalize F.toEReal x = v at *
    generalize F.toEReal y = l at *
    have hl' : -l ≤ l := le_trans (by simpa using EReal.neg_le_neg_iff.mpr hl) hl
    simpa using clip_inverted v hl'
  | _ => exact absurd h (by simp [BinFlips])

/-- `clip` with the range inverted and exchanged. -/
theorem clip_odd {A : Arith (BitVec w)} (hM : IsMax F A.max_) (hm : IsMin F A.min_) {v lo hi : BitVec w} (hv : Num F v)
    (hl : Num F lo) (hh : Num F hi) (hlh : F.toEReal lo ≤ F.toEReal hi) :
    Opposite F (Functor.clip A v lo hi) (Functor.clip A (F.negate v) (F.negate hi) (F.negate lo)) := by
  have num_neg : ∀ {x : BitVec w}, Num F x → Num F (F.negate x) := fun {x} h => by unfold Num; rw [F.isNaN_negate]; exact h
  obtain ⟨n1, v1⟩ := clip_spec F hM hm hv hl hh
  obtain ⟨n2, v2⟩ := clip_spec F hM hm (num_neg hv) (num_neg hh) (num_neg hl)
  refine opposite_of_value n1 n2 ?_
  rw [v1, v2, F.toEReal_negate, F.toEReal_negate, F.toEReal_negate]
  exact clip_inverted _ hlh

/-- `min` of inverted numbers is the inverted `max`. -/
theorem minmax_odd {A : Arith (BitVec w)} (hM : IsMax F A.max_) (hm : IsMin F A.min_) {x y : BitVec w} (hx : Num F x)
    (hy : Num F y) : Opposite F (A.max_ x y) (A.min_ (F.negate x) (F.negate y)) ∧
      Opposite F (A.min_ x y) (A.max_ (F.negate x) (F.negate y)) := by
  have num_neg : ∀ {x : BitVec w}, Num F x → Num F (F.negate x) := fun {x} h => by unfold Num; rw [F.isNaN_negate]; exact h
  constructor
  · refine opposite_of_value (hM.num hx hy) (hm.num (num_neg hx) (num_neg hy)) ?_
    rw [hM.val _ _ hx hy, hm.val _ _ (num_neg hx) (num_neg hy), F.toEReal_negate, F.toEReal_negate, EReal.min_neg_neg]
  · refine opposite_of_value (hm.num hx hy) (hM.num (num_neg hx) (num_neg hy)) ?_
    rw [hm.val _ _ hx hy, hM.val _ _ (num_neg hx) (num_neg hy), F.toEReal_negate, F.toEReal_negate, EReal.max_neg_neg]

/-- Ternary functions. -/
theorem ternary_odd {A : Arith (BitVec w)} (O : OddOps F A) (op : TerOp) (x y z : BitVec w) {c d e : Bool}
    (h : (c, d, e) ∈ TerFlips op) :
    Opposite F (op.f A x y z) (op.f A (invert F c x) (invert F d y) (invert F e z)) := by
  cases op with
  | clip => exact absurd h (by simp [TerFlips])
  | muladd =>
    obtain ⟨rfl, rfl, rfl⟩ | ⟨rfl, rfl, rfl⟩ : (c = true ∧ d = false ∧ e = true) ∨ (c = false ∧ d = true ∧ e = true) := by
      simpa [TerFlips] using h
    · exact O.madd_l x y z
    · exact O.madd_r x y z
  | ampmod =>
    obtain ⟨rfl, rfl, rfl⟩ : c = true ∧ d = false ∧ e = false := by simpa [TerFlips] using h
    exact O.mul_l x _
  | sum =>
    obtain ⟨rfl, rfl, rfl⟩ : c = true ∧ d = true ∧ e = true := by simpa [TerFlips] using h
    change Opposite F (A.add (A.add x y) z) (A.add (A.add _ _) _)
    rw [O.add]
    exact Opposite.add (Opposite.add (Opposite.negate x) (Opposite.negate y)) (Opposite.negate z)

/-- Functions of four arguments. -/
theorem quad_odd {A : Arith (BitVec w)} (O : OddOps F A) (op : QuadOp) (x y z u : BitVec w) {c d e f : Bool}
    (h : (c, d, e, f) ∈ QuadFlips op) :
    Opposite F (op.f A x y z u) (op.f A (invert F c x) (invert F d y) (invert F e z) (invert F f u)) := by
  cases op with
  | mix =>
    have e1 : ∀ a b c d, QuadOp.mix.f A a b c d = F.add (A.mul a b) (A.mul c d) := fun a b c d => by
      change A.add _ _ = _
      rw [O.add]
    rw [e1, e1]
    obtain ⟨rfl, rfl, rfl, rfl⟩ | ⟨rfl, rfl, rfl, rfl⟩ :
        (c = true ∧ d = false ∧ e = true ∧ f = false) ∨ (c = false ∧ d = true ∧ e = false ∧ f = true) := by
      simpa [QuadFlips] using h
    · exact Opposite.add (O.mul_l x y) (O.mul_l z u)
    · exact Opposite.add (O.mul_r x y) (O.mul_r z u)
  | sum =>
    obtain ⟨rfl, rfl, rfl, rfl⟩ : c = true ∧ d = true ∧ e = true ∧ f = true := by simpa [QuadFlips] using h
    change Opposite F (A.add (A.add x y) (A.add z u)) (A.add (A.add _ _) (A.add _ _))
    rw [O.add]
    exact Opposite.add (Opposite.add (Opposite.negate x) (Opposite.negate y))
      (Opposite.add (Opposite.negate z) (Opposite.negate u))

theorem cube_odd {x : BitVec w} (hx : IsFin F x) :
    Opposite F (F.mul (F.mul x x) x) (F.mul (F.mul (F.negate x) (F.negate x)) (F.negate x)) := by
  rw [mul_self_even hx]
  exact Opposite.mul_right _ (Opposite.negate x)

theorem recip_odd (F : Fmt w) (lit : ℚ → BitVec w) (c99 : Bool) (M : Libm w) (x : BitVec w) :
    Opposite F ((Scalar.arith F lit c99 M).reciprocal x) ((Scalar.arith F lit c99 M).reciprocal (F.negate x)) :=
  Opposite.div_neg (F.ofInt 1) x _ _ (.inr ⟨rfl, rfl⟩)

/-- The magnitude of a product. -/
theorem fabs_mul_negate {x y : BitVec w} (hx : IsFin F x) (hy : IsFin F y) :
    F.fabs (F.mul (F.negate x) y) = F.fabs (F.mul x y) := by
  rw [F.mul_negate_left (isNaN_mul_fin F hx hy), F.fabs_negate]

end generic

/-! ## One element -/

/-- One element of an odd function of `float`. -/
theorem C88_odd_float (b : Build32) (P : Platform 32) (hM : b.simdMath = false → Libm.Odd binary32 P.M) (op : UnOp)
    (x : BitVec 32) (hx : IsFin binary32 x) (hr : UnOdd b P.c99 op (binary32.toReal x)) :
    ∃ r s, op.f (b.lane P) x = .ok r ∧ op.f (b.lane P) (binary32.negate x) = .ok s ∧ Opposite binary32 r s := by
  have hN : Num binary32 x := binary32.isFinite_not_nan hx
  have hx' := fin_negate hx
  have hN' : Num binary32 (binary32.negate x) := binary32.isFinite_not_nan hx'
  cases op with
  | sgn =>
    refine ⟨_, _, rfl, rfl, ?_⟩
    refine sgn_odd (one := 0x3f800000#32) (mone := 0xbf800000#32) (z := fun x => if b = .generic then 0#32 else x) hN
      (fun x h => ?_) (by decide) (fun x h => ?_)
    · obtain ⟨h1, h2, h3⟩ := C39_sign_float b P x h
      exact ⟨fun c => (h1 c).1, fun c => (h2 c).1, fun c => (h3 c).1⟩
    · split
      · decide
      · exact h
  | cube =>
    obtain ⟨r, s, e1, e2, h⟩ := C78_unary_float b P .cube x hx hr
    obtain ⟨r', s', e1', e2', h'⟩ := C78_unary_float b P .cube _ hx' hr
    refine ⟨r, r', e1, e1', ?_⟩
    have o := cube_odd hx
    rw [show binary32.mul (binary32.mul x x) x = s from Except.ok.inj e2,
      show binary32.mul (binary32.mul (binary32.negate x) (binary32.negate x)) (binary32.negate x) = s' from
        Except.ok.inj e2'] at o
    exact (o.same_left h).same_right h'
  | round =>
    refine ⟨_, _, rfl, rfl, ?_⟩
    have hc : ∀ y, |binary32.toReal y| = |binary32.toReal x| →
        b.roundsAll = true ∨ binary32.code y < 0x4B000000 := by
      intro y hy
      by_cases hg : b = .generic
      · subst hg; exact .inl rfl
      · have hr : b.roundsAll = true ∨ |binary32.toReal x| < 2 ^ 23 := by
          simpa [UnOdd, hg] using hr
        rw [← hy] at hr
        exact hr.imp_right code_lt_of_value
    rcases round_lane32 b P (hc x rfl) with ⟨hg, e⟩ | ⟨hg, e⟩
    · rcases round_lane32 b P (hc _ (by rw [binary32.toReal_negate, abs_neg])) with ⟨-, e'⟩ | ⟨hg', -⟩
      · have h99 : P.c99 = true := by simpa [UnOdd, hg] using hr
        rw [e, e']
        unfold Scalar.round
        rw [h99, if_pos rfl, if_pos rfl, roundInt_odd .away (.inr (.inr rfl)) hx]
        exact Opposite.negate _
      · exact absurd hg hg'
    · rcases round_lane32 b P (hc _ (by rw [binary32.toReal_negate, abs_neg])) with ⟨hg', -⟩ | ⟨-, e'⟩
      · exact absurd hg' hg
      · rw [e, e', roundInt_odd .nearest (.inl rfl) hx]
        exact Opposite.negate _
  | trunc =>
    obtain ⟨r, e, f, v⟩ := C57_simd_partial b hr.1 P x hx (.inr hr.2)
    obtain ⟨r', e', f', v'⟩ := C57_simd_partial b hr.1 P _ hx' (.inr (by rw [binary32.toReal_negate, abs_neg]; exact hr.2))
    rw [binary32.toReal_negate] at v'
    exact ⟨r, r', e, e', opposite_of_real f f' (trunc_odd v v')⟩
  | undenormalize =>
    refine ⟨_, _, rfl, rfl, ?_⟩
    rw [undenormalize_lane32 b hr P, undenormalize_lane32 b hr P, binary32.code_negate]
    split
    · exact Opposite.zero (by decide) (by decide)
    · exact Opposite.negate x
  | reciprocal =>
    have hr : b = .generic := hr
    subst hr
    exact ⟨_, _, rfl, rfl, Opposite.div_neg (F := binary32) _ x _ _ (.inr ⟨rfl, rfl⟩)⟩
  | signedSqrt =>
    obtain ⟨-, -, n1, f1⟩ := C43_signed_sqrt_float b hr P x hN
    obtain ⟨-, -, n2, f2⟩ := C43_signed_sqrt_float b hr P _ hN'
    exact ⟨_, _, rfl, rfl, opposite_of_fabs (by rw [n1, n2, binary32.neg_negate]) (by rw [f1, f2, binary32.fabs_negate])⟩
  | softclip =>
    refine ⟨_, _, rfl, rfl, .inr (.inl ?_)⟩
    have := (C48_softclip_finite_float b P x hx).1
    rw [negate32, negate32]; exact this
  | sin =>
    refine ⟨_, _, rfl, rfl, ?_⟩
    cases hb : b.simdMath
    · have := (hM hb).sin x
      rw [(lane_math32 b hb P).sin]; exact this
    · rw [negate32, C45_sin_odd b hb P x, ← negate32]; exact Opposite.negate _
  | tan =>
    refine ⟨_, _, rfl, rfl, ?_⟩
    cases hb : b.simdMath
    · have := (hM hb).tan x
      rw [(lane_math32 b hb P).tan]; exact this
    · rw [negate32, C45_tan_odd b hb P x, ← negate32]; exact Opposite.negate _
  | asin =>
    refine ⟨_, _, rfl, rfl, ?_⟩
    cases hb : b.simdMath
    · have := (hM hb).asin x
      rw [(lane_math32 b hb P).asin]; exact this
    · have T := b.templates hb P
      rw [T.asin]; exact vecAsin_flip T.ieee hx
  | atan =>
    refine ⟨_, _, rfl, rfl, ?_⟩
    cases hb : b.simdMath
    · have := (hM hb).atan x
      rw [(lane_math32 b hb P).atan]; exact this
    · rw [negate32, C45_atan_odd b hb P x, ← negate32]; exact Opposite.negate _
  | tanh =>
    refine ⟨_, _, rfl, rfl, ?_⟩
    cases hb : b.simdMath
    · have := (hM hb).tanh x
      rw [(lane_math32 b hb P).tanh]; exact this
    · exact vecTanh_flip b hb P hx
  | _ => exact absurd hr (by simp [UnOdd])

/-- One element of an odd function of `double`. -/
theorem C88_odd_double (b : Build64) (P : Platform 64) (hM : Libm.Odd binary64 P.M) (op : UnOp)
    (x : BitVec 64) (hx : IsFin binary64 x) (hr : UnOdd64 op (binary64.toReal x)) :
    ∃ r s, op.f (b.lane P) x = .ok r ∧ op.f (b.lane P) (binary64.negate x) = .ok s ∧ Opposite binary64 r s := by
  have hN : Num binary64 x := binary64.isFinite_not_nan hx
  have hx' := fin_negate hx
  have hN' : Num binary64 (binary64.negate x) := binary64.isFinite_not_nan hx'
  have M := lane_math64 b P
  cases op with
  | sgn =>
    refine ⟨_, _, rfl, rfl, ?_⟩
    refine sgn_odd (one := 0x3ff0000000000000#64) (mone := 0xbff0000000000000#64)
      (z := fun x => if b = .generic then 0#64 else x) hN (fun x h => ?_) (by decide) (fun x h => ?_)
    · obtain ⟨h1, h2, h3⟩ := C39_sign_double b P x h
      exact ⟨fun c => (h1 c).1, fun c => (h2 c).1, fun c => (h3 c).1⟩
    · split
      · decide
      · exact h
  | cube =>
    obtain ⟨r, s, e1, e2, h⟩ := C78_unary_double b P .cube x hx trivial
    obtain ⟨r', s', e1', e2', h'⟩ := C78_unary_double b P .cube _ hx' trivial
    refine ⟨r, r', e1, e1', ?_⟩
    have o := cube_odd hx
    rw [show binary64.mul (binary64.mul x x) x = s from Except.ok.inj e2,
      show binary64.mul (binary64.mul (binary64.negate x) (binary64.negate x)) (binary64.negate x) = s' from
        Except.ok.inj e2'] at o
    exact (o.same_left h).same_right h'
  | round =>
    refine ⟨_, _, rfl, rfl, ?_⟩
    have hn := roundInt_odd .nearest (.inl rfl) hx
    have ha := roundInt_odd .away (.inr (.inr rfl)) hx
    cases b with
    | generic => exact .inr (.inl ha)
    | sse2 s f =>
      cases s
      · exact .inr (.inl ha)
      · exact .inr (.inl hn)
    | avx f => exact .inr (.inl hn)
  | trunc =>
    obtain ⟨r, e, f, v⟩ := C57_simd_double b P x hx hr
    obtain ⟨r', e', f', v'⟩ := C57_simd_double b P _ hx'
      (by rw [binary64.toReal_negate, abs_neg]; exact hr)
    rw [binary64.toReal_negate] at v'
    exact ⟨r, r', e, e', opposite_of_real f f' (trunc_odd v v')⟩
  | undenormalize =>
    refine ⟨_, _, rfl, rfl, ?_⟩
    rw [undenormalize_lane64 b P, undenormalize_lane64 b P, binary64.code_negate]
    split
    · exact Opposite.zero (by decide) (by decide)
    · exact Opposite.negate x
  | reciprocal =>
    refine ⟨_, _, rfl, rfl, ?_⟩
    rw [M.reciprocal]
    exact recip_odd binary64 binary64.ofRat true P.M x
  | signedSqrt =>
    obtain ⟨-, -, n1, f1⟩ := C43_signed_sqrt_double b P x hN
    obtain ⟨-, -, n2, f2⟩ := C43_signed_sqrt_double b P _ hN'
    exact ⟨_, _, rfl, rfl, opposite_of_fabs (by rw [n1, n2, binary64.neg_negate]) (by rw [f1, f2, binary64.fabs_negate])⟩
  | softclip =>
    refine ⟨_, _, rfl, rfl, .inr (.inl ?_)⟩
    rw [C48_softclip_double b P, C48_softclip_double b P]
    exact softclip_negate binary64 hx softConsts64
  | sin => refine ⟨_, _, rfl, rfl, ?_⟩; rw [M.sin]; exact hM.sin x
  | tan => refine ⟨_, _, rfl, rfl, ?_⟩; rw [M.tan]; exact hM.tan x
  | asin => refine ⟨_, _, rfl, rfl, ?_⟩; rw [M.asin]; exact hM.asin x
  | atan => refine ⟨_, _, rfl, rfl, ?_⟩; rw [M.atan]; exact hM.atan x
  | tanh => refine ⟨_, _, rfl, rfl, ?_⟩; rw [M.tanh]; exact hM.tanh x
  | _ => exact absurd hr (by simp [UnOdd64])

/-- One element of an even function of `float`: the same bit pattern. -/
theorem C88_even_float (b : Build32) (P : Platform 32) (hM : b.simdMath = false → Libm.Odd binary32 P.M) (op : UnOp)
    (x : BitVec 32) (hx : IsFin binary32 x) (hr : UnEven op = true)
    (hb : multiplies b = true ∨ op = .abs ∨ op = .cos ∨ op = .amp2db) :
    op.f (b.lane P) (binary32.negate x) = op.f (b.lane P) x := by
  have ha : (b.lane P).abs (binary32.negate x) = (b.lane P).abs x := by
    rw [abs_lane32, abs_lane32, binary32.fabs_negate]
  have hl : IsFin binary32 ((b.lane P).lit 0.0022727272727) := by
    rw [lane_lit_s b P]
    exact (show binary32.isFinite (litD32 0.0022727272727) = true by decide +kernel)
  have hlog : multiplies b = true → (b.lane P).abs ((b.lane P).mul (binary32.negate x) ((b.lane P).lit 0.0022727272727)) =
      (b.lane P).abs ((b.lane P).mul x ((b.lane P).lit 0.0022727272727)) := fun h => by
    rw [lane_mul32' b h, abs_lane32, abs_lane32, fabs_mul_negate hx hl]
  cases op with
  | abs => exact congrArg Except.ok ha
  | square =>
    have hb : multiplies b = true := by simpa using hb
    refine congrArg Except.ok ?_
    rw [sq_same b hb, sq_same b hb]
    exact mul_self_even hx
  | cos =>
    refine congrArg Except.ok ?_
    cases hs : b.simdMath
    · rw [(lane_math32 b hs P).cos]; exact (hM hs).cos x
    · rw [negate32]; exact C45_cos_even b hs P x
  | amp2db =>
    refine congrArg Except.ok ?_
    unfold Functor.amp2db
    rw [ha]
  | freq2midi =>
    have hb : multiplies b = true := by simpa using hb
    refine congrArg Except.ok ?_
    unfold Functor.freq2midi Functor.absLog2
    rw [hlog hb]
  | freq2oct =>
    have hb : multiplies b = true := by simpa using hb
    refine congrArg Except.ok ?_
    unfold Functor.freq2oct Functor.absLog2
    rw [hlog hb]
  | _ => exact absurd hr (by decide)

/-- One element of an even function of `double`: the same bit pattern. -/
theorem C88_even_double (b : Build64) (P : Platform 64) (hM : Libm.Odd binary64 P.M) (op : UnOp)
    (x : BitVec 64) (hx : IsFin binary64 x) (hr : UnEven op = true) :
    op.f (b.lane P) (binary64.negate x) = op.f (b.lane P) x := by
  have M := lane_math64 b P
  have ha : (b.lane P).abs (binary64.negate x) = (b.lane P).abs x := by
    rw [abs_lane64, abs_lane64, binary64.fabs_negate]
  have hl : IsFin binary64 ((b.lane P).lit 0.0022727272727) := by
    rw [M.lit]
    exact (show binary64.isFinite (binary64.ofRat 0.0022727272727) = true by decide +kernel)
  have hlog : (b.lane P).abs ((b.lane P).mul (binary64.negate x) ((b.lane P).lit 0.0022727272727)) =
      (b.lane P).abs ((b.lane P).mul x ((b.lane P).lit 0.0022727272727)) := by
    rw [M.mul, abs_lane64, abs_lane64]
    exact fabs_mul_negate hx hl
  cases op with
  | abs => exact congrArg Except.ok ha
  | square =>
    refine congrArg Except.ok ?_
    rw [M.square]
    exact mul_self_even hx
  | cos =>
    refine congrArg Except.ok ?_
    rw [M.cos]; exact hM.cos x
  | amp2db =>
    refine congrArg Except.ok ?_
    unfold Functor.amp2db
    rw [ha]
  | freq2midi =>
    refine congrArg Except.ok ?_
    unfold Functor.freq2midi Functor.absLog2
    rw [hlog]
  | freq2oct =>
    refine congrArg Except.ok ?_
    unfold Functor.freq2oct Functor.absLog2
    rw [hlog]
  | _ => exact absurd hr (by decide)

/-- The floor of an inverted number is the inverted ceiling. -/
theorem C88_floor_float (b : Build32) (P : Platform 32) (x : BitVec 32) (hx : IsFin binary32 x)
    (hr : b.floorsAll = true ∨ |binary32.toReal x| < 2 ^ 23) :
    Opposite binary32 ((b.lane P).ceil x) ((b.lane P).floor (binary32.negate x)) ∧
    Opposite binary32 ((b.lane P).floor x) ((b.lane P).ceil (binary32.negate x)) := by
  have hr' : b.floorsAll = true ∨ |binary32.toReal (binary32.negate x)| < 2 ^ 23 := by
    rwa [binary32.toReal_negate, abs_neg]
  obtain ⟨f1, v1, -⟩ := C41_floor_partial b P x hx hr
  obtain ⟨f2, v2, -⟩ := C41_floor_partial b P _ (fin_negate hx) hr'
  obtain ⟨c1, u1, -⟩ := C41_ceil_partial b P x hx hr
  obtain ⟨c2, u2, -⟩ := C41_ceil_partial b P _ (fin_negate hx) hr'
  rw [binary32.toReal_negate] at v2 u2
  refine ⟨opposite_of_real c1 f2 ?_, opposite_of_real f1 c2 ?_⟩
  · rw [v2, u1, Int.floor_neg]; push_cast; ring
  · rw [u2, v1, Int.ceil_neg]; push_cast; ring

theorem C88_floor_double (b : Build64) (P : Platform 64) (x : BitVec 64) (hx : IsFin binary64 x) :
    Opposite binary64 ((b.lane P).ceil x) ((b.lane P).floor (binary64.negate x)) ∧
    Opposite binary64 ((b.lane P).floor x) ((b.lane P).ceil (binary64.negate x)) := by
  obtain ⟨-, -, f1, c1, -, v1, u1, -⟩ := C41_double b P x hx
  obtain ⟨-, -, f2, c2, -, v2, u2, -⟩ := C41_double b P _ (fin_negate hx)
  rw [binary64.toReal_negate] at v2 u2
  refine ⟨opposite_of_real c1 f2 ?_, opposite_of_real f1 c2 ?_⟩
  · rw [v2, u1, Int.floor_neg]; push_cast; ring
  · rw [u2, v1, Int.ceil_neg]; push_cast; ring

/-- One element of a binary function of `float`, for all bit patterns. -/
theorem C88_binary_float (b : Build32) (P : Platform 32) (op : BinOp) (x y : BitVec 32) {c d : Bool}
    (h : (c, d) ∈ BinFlips op) (ho : op = .over → divides b = true)
    (hc : op = .clip2 → Num binary32 x ∧ Num binary32 y ∧ 0 ≤ binary32.toEReal y) :
    Opposite binary32 (op.f (b.lane P) x y) (op.f (b.lane P) (invert binary32 c x) (invert binary32 d y)) := by
  refine binary_odd (lane_oddOps32 b P) (isMax_lane32 b P) (isMin_lane32 b P) (lane_zero32' b P) op x y h (fun e => ?_) hc
  have hd := ho e
  cases b <;> first | rfl | exact absurd hd (by decide)

theorem C88_binary_double (b : Build64) (P : Platform 64) (op : BinOp) (x y : BitVec 64) {c d : Bool}
    (h : (c, d) ∈ BinFlips op) (hc : op = .clip2 → Num binary64 x ∧ Num binary64 y ∧ 0 ≤ binary64.toEReal y) :
    Opposite binary64 (op.f (b.lane P) x y) (op.f (b.lane P) (invert binary64 c x) (invert binary64 d y)) :=
  binary_odd (lane_oddOps64 b P) (isMax_lane64 b P) (isMin_lane64 b P) (lane_zero64 b P) op x y h
    (fun _ => (lane_math64 b P).div) hc

/-- `min` and `max` exchange their roles. -/
theorem C88_minmax (b : Build32) (P : Platform 32) (b' : Build64) (P' : Platform 64) :
    (∀ x y, Num binary32 x → Num binary32 y →
      Opposite binary32 ((b.lane P).max_ x y) ((b.lane P).min_ (binary32.negate x) (binary32.negate y)) ∧
      Opposite binary32 ((b.lane P).min_ x y) ((b.lane P).max_ (binary32.negate x) (binary32.negate y))) ∧
    (∀ x y, Num binary64 x → Num binary64 y →
      Opposite binary64 ((b'.lane P').max_ x y) ((b'.lane P').min_ (binary64.negate x) (binary64.negate y)) ∧
      Opposite binary64 ((b'.lane P').min_ x y) ((b'.lane P').max_ (binary64.negate x) (binary64.negate y))) :=
  ⟨fun _ _ hx hy => minmax_odd (isMax_lane32 b P) (isMin_lane32 b P) hx hy,
    fun _ _ hx hy => minmax_odd (isMax_lane64 b' P') (isMin_lane64 b' P') hx hy⟩

/-- `clip`: the range is inverted and its ends are exchanged. -/
theorem C88_clip (b : Build32) (P : Platform 32) (b' : Build64) (P' : Platform 64) :
    (∀ v lo hi, Num binary32 v → Num binary32 lo → Num binary32 hi → binary32.toEReal lo ≤ binary32.toEReal hi →
      Opposite binary32 (TerOp.clip.f (b.lane P) v lo hi)
        (TerOp.clip.f (b.lane P) (binary32.negate v) (binary32.negate hi) (binary32.negate lo))) ∧
    (∀ v lo hi, Num binary64 v → Num binary64 lo → Num binary64 hi → binary64.toEReal lo ≤ binary64.toEReal hi →
      Opposite binary64 (TerOp.clip.f (b'.lane P') v lo hi)
        (TerOp.clip.f (b'.lane P') (binary64.negate v) (binary64.negate hi) (binary64.negate lo))) :=
  ⟨fun _ _ _ hv hl hh h => clip_odd (isMax_lane32 b P) (isMin_lane32 b P) hv hl hh h,
    fun _ _ _ hv hl hh h => clip_odd (isMax_lane64 b' P') (isMin_lane64 b' P') hv hl hh h⟩

/-! ## Whole calls -/

section calls
variable {w : Nat} {F : Fmt w}

/-- Two calls on memories of which one holds the inverted input of the other. -/
theorem inverted_unary (t : Target) (E : Env (BitVec w)) (op : UnOp) {m m' : Mem (BitVec w)} {out inp : Nat} {n : BitVec 32}
    {x : Nat → BitVec w} (hn : 0 < n.toNat) (hmul : t.perLine ∣ n.toNat) (hoal : t.align ∣ out) (hial : t.align ∣ inp)
    (hout : Allocated m out n.toNat) (hout' : Allocated m' out n.toNat) (hin : Holds m inp n.toNat x)
    (hin' : Holds m' inp n.toNat fun i => F.negate (x i)) (hs : SafePlacement out inp n.toNat)
    (h : ∀ i, i < n.toNat → ∃ r s, op.f E.L (x i) = .ok r ∧ op.f E.L (F.negate (x i)) = .ok s ∧ Opposite F r s) :
    ∃ y z : Nat → BitVec w, op.vecSimd (t.vec E) out inp n m = .ok ((), overwrite m out n.toNat y) ∧
      op.vecSimd (t.vec E) out inp n m' = .ok ((), overwrite m' out n.toNat z) ∧ ∀ i, i < n.toNat → Opposite F (y i) (z i) := by
  classical
  choose y z h1 h2 h3 using h
  refine ⟨fun i => if h : i < n.toNat then y i h else 0, fun i => if h : i < n.toNat then z i h else 0, ?_, ?_, ?_⟩
  · refine C01_unary_simd t E op hn hmul hoal hial hout hin hs fun i h => ?_
    rw [dif_pos h]; exact h1 i h
  · refine C01_unary_simd t E op hn hmul hoal hial hout' hin' hs fun i h => ?_
    rw [dif_pos h]; exact h2 i h
  · intro i h; simp only [dif_pos h]; exact h3 i h

theorem inverted_unary_scalar (A : Arith (BitVec w)) (op : UnOp) {m m' : Mem (BitVec w)} {out inp : Nat} {n : BitVec 32}
    {x : Nat → BitVec w} (hn : 0 < n.toNat)
    (hout : Allocated m out n.toNat) (hout' : Allocated m' out n.toNat) (hin : Holds m inp n.toNat x)
    (hin' : Holds m' inp n.toNat fun i => F.negate (x i)) (hs : SafePlacement out inp n.toNat)
    (h : ∀ i, i < n.toNat → ∃ r s, op.f A (x i) = .ok r ∧ op.f A (F.negate (x i)) = .ok s ∧ Opposite F r s) :
    ∃ y z : Nat → BitVec w, op.vec A out inp n m = .ok ((), overwrite m out n.toNat y) ∧
      op.vec A out inp n m' = .ok ((), overwrite m' out n.toNat z) ∧ ∀ i, i < n.toNat → Opposite F (y i) (z i) := by
  classical
  choose y z h1 h2 h3 using h
  refine ⟨fun i => if h : i < n.toNat then y i h else 0, fun i => if h : i < n.toNat then z i h else 0, ?_, ?_, ?_⟩
  · refine C01_unary_scalar A op hn hout hin hs fun i h => ?_
    rw [dif_pos h]; exact h1 i h
  · refine C01_unary_scalar A op hn hout' hin' hs fun i h => ?_
    rw [dif_pos h]; exact h2 i h
  · intro i h; simp only [dif_pos h]; exact h3 i h

end calls

/-- `f_vec_simd(out, in, n)` for `float`: an inverted input gives the inverted output. -/
theorem C88_unary_calls_float (b : Build32) (P : Platform 32) (hM : b.simdMath = false → Libm.Odd binary32 P.M) (op : UnOp)
    {m m' : Mem (BitVec 32)} {out inp : Nat} {n : BitVec 32} {x : Nat → BitVec 32} (hn : 0 < n.toNat)
    (hmul : b.target.perLine ∣ n.toNat) (hoal : b.target.align ∣ out) (hial : b.target.align ∣ inp)
    (hout : Allocated m out n.toNat) (hout' : Allocated m' out n.toNat) (hin : Holds m inp n.toNat x)
    (hin' : Holds m' inp n.toNat fun i => binary32.negate (x i)) (hs : SafePlacement out inp n.toNat)
    (hx : ∀ i, i < n.toNat → IsFin binary32 (x i) ∧ UnOdd b P.c99 op (binary32.toReal (x i))) :
    ∃ y z : Nat → BitVec 32, op.vecSimd (b.vec P) out inp n m = .ok ((), overwrite m out n.toNat y) ∧
      op.vecSimd (b.vec P) out inp n m' = .ok ((), overwrite m' out n.toNat z) ∧
      ∀ i, i < n.toNat → Opposite binary32 (y i) (z i) :=
  inverted_unary b.target (b.env P) op hn hmul hoal hial hout hout' hin hin' hs fun i h =>
    C88_odd_float b P hM op (x i) (hx i h).1 (hx i h).2

/-- `f_vec(out, in, n)` for `float` -/
theorem C88_unary_scalar_float (P : Platform 32) (hM : Libm.Odd binary32 P.M) (op : UnOp)
    {m m' : Mem (BitVec 32)} {out inp : Nat} {n : BitVec 32} {x : Nat → BitVec 32} (hn : 0 < n.toNat)
    (hout : Allocated m out n.toNat) (hout' : Allocated m' out n.toNat) (hin : Holds m inp n.toNat x)
    (hin' : Holds m' inp n.toNat fun i => binary32.negate (x i)) (hs : SafePlacement out inp n.toNat)
    (hx : ∀ i, i < n.toNat → IsFin binary32 (x i) ∧ UnOdd .generic P.c99 op (binary32.toReal (x i))) :
    ∃ y z : Nat → BitVec 32, op.vec (Build32.scalar P) out inp n m = .ok ((), overwrite m out n.toNat y) ∧
      op.vec (Build32.scalar P) out inp n m' = .ok ((), overwrite m' out n.toNat z) ∧
      ∀ i, i < n.toNat → Opposite binary32 (y i) (z i) :=
  inverted_unary_scalar (Build32.scalar P) op hn hout hout' hin hin' hs fun i h =>
    C88_odd_float .generic P (fun _ => hM) op (x i) (hx i h).1 (hx i h).2

/-- `f_vec_simd(out, in, n)` for `double` -/
theorem C88_unary_calls_double (b : Build64) (P : Platform 64) (hM : Libm.Odd binary64 P.M) (op : UnOp)
    {m m' : Mem (BitVec 64)} {out inp : Nat} {n : BitVec 32} {x : Nat → BitVec 64} (hn : 0 < n.toNat)
    (hmul : b.target.perLine ∣ n.toNat) (hoal : b.target.align ∣ out) (hial : b.target.align ∣ inp)
    (hout : Allocated m out n.toNat) (hout' : Allocated m' out n.toNat) (hin : Holds m inp n.toNat x)
    (hin' : Holds m' inp n.toNat fun i => binary64.negate (x i)) (hs : SafePlacement out inp n.toNat)
    (hx : ∀ i, i < n.toNat → IsFin binary64 (x i) ∧ UnOdd64 op (binary64.toReal (x i))) :
    ∃ y z : Nat → BitVec 64, op.vecSimd (b.vec P) out inp n m = .ok ((), overwrite m out n.toNat y) ∧
      op.vecSimd (b.vec P) out inp n m' = .ok ((), overwrite m' out n.toNat z) ∧
      ∀ i, i < n.toNat → Opposite binary64 (y i) (z i) :=
  inverted_unary b.target (b.env P) op hn hmul hoal hial hout hout' hin hin' hs fun i h =>
    C88_odd_double b P hM op (x i) (hx i h).1 (hx i h).2

/-- `f_vec_simd` with two arguments for `float`: buffers, numbers or ramps, on all bit patterns but for `clip2`. -/
theorem C88_binary_calls_float (bd : Build32) (P : Platform 32) (op : BinOp) {m m' : Mem (BitVec 32)} {out : Nat}
    {a b a' b' : SArg (BitVec 32)} {n : BitVec 32} {x y : Nat → BitVec 32} {c d : Bool} (h : (c, d) ∈ BinFlips op)
    (hn : 0 < n.toNat) (hmul : bd.target.perLine ∣ n.toNat) (hoal : bd.target.align ∣ out)
    (hout : Allocated m out n.toNat) (hout' : Allocated m' out n.toNat)
    (ha : SimdSupplies (bd.vec P) bd.target.align m out n.toNat a x)
    (hb : SimdSupplies (bd.vec P) bd.target.align m out n.toNat b y)
    (ha' : SimdSupplies (bd.vec P) bd.target.align m' out n.toNat a' fun i => invert binary32 c (x i))
    (hb' : SimdSupplies (bd.vec P) bd.target.align m' out n.toNat b' fun i => invert binary32 d (y i))
    (ho : op = .over → divides bd = true)
    (hc : op = .clip2 → ∀ i, i < n.toNat → Num binary32 (x i) ∧ Num binary32 (y i) ∧ 0 ≤ binary32.toEReal (y i)) :
    ∃ r s : Nat → BitVec 32, op.vecSimd (bd.vec P) out a b n m = .ok ((), overwrite m out n.toNat r) ∧
      op.vecSimd (bd.vec P) out a' b' n m' = .ok ((), overwrite m' out n.toNat s) ∧
      ∀ i, i < n.toNat → Opposite binary32 (r i) (s i) :=
  ⟨_, _, C02_binary_simd bd.target (bd.env P) op hn hmul hoal hout ha hb,
    C02_binary_simd bd.target (bd.env P) op hn hmul hoal hout' ha' hb',
    fun i hi => C88_binary_float bd P op (x i) (y i) h ho fun e => hc e i hi⟩

/-- `f_vec_simd` with three arguments for `float`, on all bit patterns, with or without fused operations. -/
theorem C88_ternary_calls_float (bd : Build32) (P : Platform 32) (op : TerOp) {m m' : Mem (BitVec 32)} {out : Nat}
    {a b g a' b' g' : SArg (BitVec 32)} {n : BitVec 32} {x y z : Nat → BitVec 32} {c d e : Bool} (h : (c, d, e) ∈ TerFlips op)
    (hn : 0 < n.toNat) (hmul : bd.target.perLine ∣ n.toNat) (hoal : bd.target.align ∣ out)
    (hout : Allocated m out n.toNat) (hout' : Allocated m' out n.toNat)
    (ha : SimdSupplies (bd.vec P) bd.target.align m out n.toNat a x)
    (hb : SimdSupplies (bd.vec P) bd.target.align m out n.toNat b y)
    (hg : SimdSupplies (bd.vec P) bd.target.align m out n.toNat g z)
    (ha' : SimdSupplies (bd.vec P) bd.target.align m' out n.toNat a' fun i => invert binary32 c (x i))
    (hb' : SimdSupplies (bd.vec P) bd.target.align m' out n.toNat b' fun i => invert binary32 d (y i))
    (hg' : SimdSupplies (bd.vec P) bd.target.align m' out n.toNat g' fun i => invert binary32 e (z i)) :
    ∃ r s : Nat → BitVec 32, op.vecSimd (bd.vec P) out a b g n m = .ok ((), overwrite m out n.toNat r) ∧
      op.vecSimd (bd.vec P) out a' b' g' n m' = .ok ((), overwrite m' out n.toNat s) ∧
      ∀ i, i < n.toNat → Opposite binary32 (r i) (s i) :=
  ⟨_, _, C03_ternary_simd bd.target (bd.env P) op hn hmul hoal hout ha hb hg,
    C03_ternary_simd bd.target (bd.env P) op hn hmul hoal hout' ha' hb' hg',
    fun i _ => ternary_odd (lane_oddOps32 bd P) op (x i) (y i) (z i) h⟩

/-- `mix_vec_simd` and `sum_vec_simd` with four arguments for `float`, on all bit patterns. -/
theorem C88_quad_calls_float (bd : Build32) (P : Platform 32) (op : QuadOp) {m m' : Mem (BitVec 32)} {out : Nat}
    {a b g k a' b' g' k' : SArg (BitVec 32)} {n : BitVec 32} {x y z u : Nat → BitVec 32} {c d e f : Bool}
    (h : (c, d, e, f) ∈ QuadFlips op)
    (hn : 0 < n.toNat) (hmul : bd.target.perLine ∣ n.toNat) (hoal : bd.target.align ∣ out)
    (hout : Allocated m out n.toNat) (hout' : Allocated m' out n.toNat)
    (ha : SimdSupplies (bd.vec P) bd.target.align m out n.toNat a x)
    (hb : SimdSupplies (bd.vec P) bd.target.align m out n.toNat b y)
    (hg : SimdSupplies (bd.vec P) bd.target.align m out n.toNat g z)
    (hk : SimdSupplies (bd.vec P) bd.target.align m out n.toNat k u)
    (ha' : SimdSupplies (bd.vec P) bd.target.align m' out n.toNat a' fun i => invert binary32 c (x i))
    (hb' : SimdSupplies (bd.vec P) bd.target.align m' out n.toNat b' fun i => invert binary32 d (y i))
    (hg' : SimdSupplies (bd.vec P) bd.target.align m' out n.toNat g' fun i => invert binary32 e (z i))
    (hk' : SimdSupplies (bd.vec P) bd.target.align m' out n.toNat k' fun i => invert binary32 f (u i)) :
    ∃ r s : Nat → BitVec 32, op.vecSimd (bd.vec P) out a b g k n m = .ok ((), overwrite m out n.toNat r) ∧
      op.vecSimd (bd.vec P) out a' b' g' k' n m' = .ok ((), overwrite m' out n.toNat s) ∧
      ∀ i, i < n.toNat → Opposite binary32 (r i) (s i) :=
  ⟨_, _, C04_quad_simd bd.target (bd.env P) op hn hmul hoal hout ha hb hg hk,
    C04_quad_simd bd.target (bd.env P) op hn hmul hoal hout' ha' hb' hg' hk',
    fun i _ => quad_odd (lane_oddOps32 bd P) op (x i) (y i) (z i) (u i) h⟩

/-! ## What does not invert -/

/-- The scalar `spow` of a zero is the negative of `pow`: with a C library whose `pow(0, 0)` is 1, as the C standard
has it, `spow(0, 0)` and `spow(-0, 0)` are both -1. -/
theorem C88_negation_spow (P : Platform 32) (hp : ∀ z, binary32.code z = 0 → P.M.pow z 0#32 = 0x3f800000#32) :
    (Build32.scalar P).signedPow 0#32 0#32 = 0xbf800000#32 ∧
    (Build32.scalar P).signedPow 0x80000000#32 0#32 = 0xbf800000#32 := by
  have e : ∀ x, (Build32.scalar P).signedPow x 0#32 =
      if binary32.ltb binary32.posZero x then P.M.pow x 0#32 else binary32.negate (P.M.pow (binary32.negate x) 0#32) :=
    fun _ => rfl
  rw [e, e, if_neg (by decide), if_neg (by decide), hp _ (by decide), hp _ (by decide)]
  decide

/-- Without C99 the rounding of `float` numbers is not symmetric: `round(0.5)` is 1 and `round(-0.5)` is -0 or 0. -/
theorem C88_negation_round (P : Platform 32) (hc : P.c99 = false) :
    ¬ Opposite binary32 ((Build32.scalar P).round 0x3f000000#32) ((Build32.scalar P).round 0xbf000000#32) := by
  have e : ∀ x, (Build32.scalar P).round x = Scalar.round binary32 P.c99 x := fun _ => rfl
  rw [e, e, hc]
  have h1 : Scalar.round binary32 false 0x3f000000#32 = 0x3f800000#32 := by decide +kernel
  have h2 : binary32.code (Scalar.round binary32 false 0xbf000000#32) = 0 := by decide +kernel
  rw [h1]
  rintro (⟨h, -⟩ | h | ⟨-, h⟩)
  · exact absurd h (by decide)
  · rw [h] at h2; exact absurd h2 (by decide)
  · exact absurd h (by decide)

/-! ## The hypotheses can be met -/

/-- A C library with odd functions exists: the sine is taken to be the identity and the cosine the magnitude. -/
example {w : Nat} (F : Fmt w) : Libm.Odd F ⟨id, F.fabs, id, id, id, id, id, id, id, id, id, fun a _ => a⟩ :=
  ⟨fun x => Opposite.negate x, fun x => Opposite.negate x, fun x => Opposite.negate x, fun x => Opposite.negate x,
    fun x => Opposite.negate x, fun x => F.fabs_negate x⟩

/-- Thirty-two times `tanh(0.75)` and `tanh(-0.75)` with AVX, in place. -/
example (P : Platform 32) :
    ∃ y z : Nat → BitVec 32, UnOp.tanh.vecSimd ((Build32.avx true).vec P) 0 0 32#32
        (fun i => if i < 32 then some 0x3f400000#32 else none) =
      .ok ((), overwrite (fun i => if i < 32 then some 0x3f400000#32 else none) 0 32 y) ∧
      UnOp.tanh.vecSimd ((Build32.avx true).vec P) 0 0 32#32 (fun i => if i < 32 then some 0xbf400000#32 else none) =
        .ok ((), overwrite (fun i => if i < 32 then some 0xbf400000#32 else none) 0 32 z) ∧
      ∀ i, i < 32 → Opposite binary32 (y i) (z i) := by
  refine C88_unary_calls_float (.avx true) P (fun h => absurd h (by decide)) .tanh (n := 32#32)
    (x := fun _ => 0x3f400000#32) (by decide) (by decide) (by decide) (by decide) (by unfold Allocated; decide)
    (by unfold Allocated; decide) (by unfold Holds; decide) (by unfold Holds; decide) (.inl le_rfl)
    fun i _ => ⟨by decide, trivial⟩

/-- A fused `muladd` of infinities and of zeros: no bit pattern is excluded. -/
example (P : Platform 32) (x y z : BitVec 32) :
    Opposite binary32 (TerOp.muladd.f ((Build32.avx true).lane P) x y z)
      (TerOp.muladd.f ((Build32.avx true).lane P) (binary32.negate x) y (binary32.negate z)) :=
  ternary_odd (lane_oddOps32 (.avx true) P) .muladd x y z (c := true) (d := false) (e := true) (by decide)

end Nova
