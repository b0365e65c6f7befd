import Verif.Lemmas.OrderLanes

/-!
# C90 Order is preserved

For the functions and arguments of the tables in `SpecOrder`, moving the arguments as listed never makes a result
smaller, although every operation rounds.  Whole calls preserve the order of buffers element by element.  The scalar
functions are the lanes of the generic build.
-/

namespace Nova
open FP VecMath Spec

section generic
variable {w : Nat} {F : Fmt w}

theorem sgn_rises {A : BitVec w → BitVec w} {one mone : BitVec w} {z : BitVec w → BitVec w} {x x' : BitVec w} (hx : Num F x)
    (hx' : Num F x')
    (h : ∀ x, Num F x → (0 < F.toEReal x → A x = one) ∧ (F.toEReal x < 0 → A x = mone) ∧ (F.toEReal x = 0 → A x = z x))
    (h1 : Num F one ∧ F.toEReal one = 1) (h2 : Num F mone ∧ F.toEReal mone = -1)
    (hz : ∀ x, Num F x → F.toEReal x = 0 → Num F (z x) ∧ F.toEReal (z x) = 0) (hle : F.toEReal x ≤ F.toEReal x') :
    AtMost F (A x) (A x') := by
  obtain ⟨p, n, o⟩ := h x hx
  obtain ⟨p', n', o'⟩ := h x' hx'
  have e1 : (0 : EReal) ≤ 1 := by exact_mod_cast (zero_le_one : (0 : ℝ) ≤ 1)
  have e0 : (-1 : EReal) ≤ 0 := by simpa using EReal.neg_le_neg_iff.mpr e1
  rcases lt_trichotomy (F.toEReal x) 0 with c | c | c <;> rcases lt_trichotomy (F.toEReal x') 0 with c' | c' | c'
  · rw [n c, n' c']; exact AtMost.refl h2.1
  · rw [n c, o' c']; exact ⟨h2.1, (hz x' hx' c').1, by rw [h2.2, (hz x' hx' c').2]; exact e0⟩
  · rw [n c, p' c']; exact ⟨h2.1, h1.1, by rw [h2.2, h1.2]; exact e0.trans e1⟩
  · exact absurd (hle.trans_lt c') (by rw [c]; exact lt_irrefl _)
  · rw [o c, o' c']; exact ⟨(hz x hx c).1, (hz x' hx' c').1, by rw [(hz x hx c).2, (hz x' hx' c').2]⟩
  · rw [o c, p' c']; exact ⟨(hz x hx c).1, h1.1, by rw [(hz x hx c).2, h1.2]; exact e1⟩
  · exact absurd (c.trans_le hle |>.trans c') (lt_irrefl _)
  · exact absurd (c.trans_le hle) (by rw [c']; exact lt_irrefl _)
  · rw [p c, p' c']; exact AtMost.refl h1.1

theorem scalar_reciprocal (F : Fmt w) (lit : Rat → BitVec w) (c99 : Bool) (M : Libm w) (y : BitVec w) :
    (Scalar.arith F lit c99 M).reciprocal y = F.div (F.ofInt 1) y := rfl

theorem zero_num {x : BitVec w} (hc : F.code x = 0) : Num F x ∧ F.toEReal x = 0 := by
  have n : Num F x := by unfold Num; simp [Fmt.isNaN, hc]
  exact ⟨n, (F.key_zero_iff n).mp (F.key_eq_zero.mpr hc)⟩

end generic

theorem one_fin32 : binary32.isFinite (binary32.ofInt 1) = true := by decide +kernel
theorem one_fin64 : binary64.isFinite (binary64.ofInt 1) = true := by decide +kernel

theorem one_real32 : binary32.toReal (binary32.ofInt 1) = 1 := by
  have := toEReal_one32
  rw [← one32, binary32.toEReal_of_finite one_fin32] at this
  exact_mod_cast this

theorem one_real64 : binary64.toReal (binary64.ofInt 1) = 1 := by
  rw [one64, binary64.toReal_eq, show binary64.neg 0x3ff0000000000000#64 = false by decide +kernel,
    show mag binary64.mb (binary64.code 0x3ff0000000000000#64) = 2 ^ 1074 by decide +kernel,
    show binary64.scale = 1074 by decide, Nat.cast_pow, Nat.cast_ofNat]
  have h : (0 : ℝ) < 2 ^ 1074 := by positivity
  generalize (2 : ℝ) ^ 1074 = T at *
  simp only [Bool.false_eq_true, if_false]
  field_simp

/-- One element of a unary function of `float`. -/
theorem C90_unary_float_partial (b : Build32) (P : Platform 32) (op : UnOp) (x x' : BitVec 32) (hx : IsFin binary32 x)
    (hx' : IsFin binary32 x') (hr : UnRises b op (binary32.toReal x) (binary32.toReal x')) :
    ∃ r r', op.f (b.lane P) x = .ok r ∧ op.f (b.lane P) x' = .ok r' ∧ AtMost binary32 r r' := by
  have O := lane_orderOps32 b P
  have nx : Num binary32 x := binary32.isFinite_not_nan hx
  have nx' : Num binary32 x' := binary32.isFinite_not_nan hx'
  have ev : ∀ h : binary32.toReal x ≤ binary32.toReal x', binary32.toEReal x ≤ binary32.toEReal x' := fun h => by
    rw [binary32.toEReal_of_finite hx, binary32.toEReal_of_finite hx']; exact_mod_cast h
  cases op with
  | sgn =>
    refine ⟨_, _, rfl, rfl, ?_⟩
    refine sgn_rises (A := (b.lane P).sign) (z := fun x => if b = .generic then 0#32 else x) nx nx'
      (fun y hy => ⟨fun h => ((C39_sign_float b P y hy).1 h).1, fun h => ((C39_sign_float b P y hy).2.1 h).1,
        fun h => ((C39_sign_float b P y hy).2.2 h).1⟩) ⟨by decide, toEReal_one32⟩ ⟨by decide, ?_⟩ (fun y hy h => ?_) (ev hr)
    · rw [show (0xbf800000#32 : BitVec 32) = binary32.negate 0x3f800000#32 by decide +kernel, binary32.toEReal_negate, toEReal_one32]
    · by_cases hb : b = .generic
      · rw [if_pos hb]; exact zero_num (by decide)
      · rw [if_neg hb]; exact ⟨hy, h⟩
  | cube => exact ⟨_, _, rfl, rfl, O.cube_rises hx hx' hr⟩
  | square => exact ⟨_, _, rfl, rfl, O.square_rises hx hx' hr⟩
  | abs =>
    refine ⟨_, _, rfl, rfl, ?_⟩
    rw [abs_lane32, abs_lane32]
    refine atMost_real (by unfold IsFin; simpa using hx) (by unfold IsFin; simpa using hx') ?_
    rw [binary32.toReal_fabs, binary32.toReal_fabs]; exact hr
  | floor =>
    obtain ⟨h, hc⟩ := hr
    obtain ⟨f, v, -⟩ := C41_floor_partial b P x hx (hc.imp_right And.left)
    obtain ⟨f', v', -⟩ := C41_floor_partial b P x' hx' (hc.imp_right And.right)
    refine ⟨_, _, rfl, rfl, atMost_real f f' ?_⟩
    rw [v, v']; exact_mod_cast Int.floor_le_floor h
  | ceil =>
    obtain ⟨h, hc⟩ := hr
    obtain ⟨f, v, -⟩ := C41_ceil_partial b P x hx (hc.imp_right And.left)
    obtain ⟨f', v', -⟩ := C41_ceil_partial b P x' hx' (hc.imp_right And.right)
    refine ⟨_, _, rfl, rfl, atMost_real f f' ?_⟩
    rw [v, v']; exact_mod_cast Int.ceil_le_ceil h
  | round =>
    obtain ⟨h, hc⟩ := hr
    refine ⟨_, _, rfl, rfl, ?_⟩
    rcases round_lane32 b P (x := x) (hc.imp_right fun h => code_lt_of_value h.1) with ⟨g, e⟩ | ⟨g, e⟩
    · rcases round_lane32 b P (x := x') (hc.imp_right fun h => code_lt_of_value h.2) with ⟨-, e'⟩ | ⟨g', -⟩
      · rw [e, e']
        unfold Scalar.round
        cases P.c99
        · have fh : binary32.isFinite (binary32.ofRat 0.5) = true := soft32.hf
          have n := (Fmt.add_rounds hx fh).1
          have n' := (Fmt.add_rounds hx' fh).1
          exact roundInt_rises_num Fmt.wide32 .down ⟨n, n', add_rises (ev h) le_rfl n n'⟩
        · exact roundInt_rises Fmt.wide32 .away hx hx' h
      · exact absurd g g'
    · rcases round_lane32 b P (x := x') (hc.imp_right fun h => code_lt_of_value h.2) with ⟨g', -⟩ | ⟨-, e'⟩
      · exact absurd g' g
      · rw [e, e']; exact roundInt_rises Fmt.wide32 .nearest hx hx' h
  | trunc =>
    obtain ⟨h, hb, h1, h2⟩ := hr
    obtain ⟨r, e, f, v⟩ := C57_simd_partial b hb P x hx (.inr h1)
    obtain ⟨r', e', f', v'⟩ := C57_simd_partial b hb P x' hx' (.inr h2)
    exact ⟨r, r', e, e', atMost_real f f' (isRounded_mono (m := .zero) v v' h)⟩
  | undenormalize =>
    obtain ⟨h, hb⟩ := hr
    refine ⟨_, _, rfl, rfl, ?_⟩
    rw [undenormalize_lane32 b hb, undenormalize_lane32 b hb]
    exact undenormalize_rises (by decide) nx nx' (ev h)
  | signedSqrt =>
    obtain ⟨h, hb⟩ := hr
    obtain ⟨-, n, s, f⟩ := C43_signed_sqrt_float b hb P x nx
    obtain ⟨-, n', s', f'⟩ := C43_signed_sqrt_float b hb P x' nx'
    exact ⟨_, _, rfl, rfl, signedSqrt_rises hx hx' n n' s s' f f' h⟩
  | softclip =>
    obtain ⟨h, h1, h2⟩ := hr
    refine ⟨_, _, rfl, rfl, ?_⟩
    change AtMost binary32 ((b.lane P).softclip x) ((b.lane P).softclip x')
    rw [softclip_lane32, softclip_lane32]
    exact softclip_rises soft32 hx hx' h1 h2 h
  | reciprocal =>
    obtain ⟨rfl, h, hs⟩ := hr
    exact ⟨_, _, rfl, rfl, reciprocal_rises one_fin32 one_real32 hx hx' h hs⟩
  | _ => exact hr.elim

/-- The same for `double`. -/
theorem C90_unary_double_partial (b : Build64) (P : Platform 64) (op : UnOp) (x x' : BitVec 64) (hx : IsFin binary64 x)
    (hx' : IsFin binary64 x') (hr : UnRises64 op (binary64.toReal x) (binary64.toReal x')) :
    ∃ r r', op.f (b.lane P) x = .ok r ∧ op.f (b.lane P) x' = .ok r' ∧ AtMost binary64 r r' := by
  have O := lane_orderOps64 b P
  have nx : Num binary64 x := binary64.isFinite_not_nan hx
  have nx' : Num binary64 x' := binary64.isFinite_not_nan hx'
  have ev : ∀ h : binary64.toReal x ≤ binary64.toReal x', binary64.toEReal x ≤ binary64.toEReal x' := fun h => by
    rw [binary64.toEReal_of_finite hx, binary64.toEReal_of_finite hx']; exact_mod_cast h
  have v1 : binary64.toEReal 0x3ff0000000000000#64 = 1 := by
    rw [← one64, binary64.toEReal_of_finite one_fin64, one_real64]; rfl
  cases op with
  | sgn =>
    refine ⟨_, _, rfl, rfl, ?_⟩
    refine sgn_rises (A := (b.lane P).sign) (z := fun x => if b = .generic then 0#64 else x) nx nx'
      (fun y hy => ⟨fun h => ((C39_sign_double b P y hy).1 h).1, fun h => ((C39_sign_double b P y hy).2.1 h).1,
        fun h => ((C39_sign_double b P y hy).2.2 h).1⟩) ⟨by decide +kernel, v1⟩ ⟨by decide +kernel, ?_⟩ (fun y hy h => ?_) (ev hr)
    · rw [show (0xbff0000000000000#64 : BitVec 64) = binary64.negate 0x3ff0000000000000#64 by decide +kernel,
        binary64.toEReal_negate, v1]
    · by_cases hb : b = .generic
      · rw [if_pos hb]; exact zero_num (by decide +kernel)
      · rw [if_neg hb]; exact ⟨hy, h⟩
  | cube => exact ⟨_, _, rfl, rfl, O.cube_rises hx hx' hr⟩
  | square => exact ⟨_, _, rfl, rfl, O.square_rises hx hx' hr⟩
  | abs =>
    refine ⟨_, _, rfl, rfl, ?_⟩
    rw [abs_lane64, abs_lane64]
    refine atMost_real (by unfold IsFin; simpa using hx) (by unfold IsFin; simpa using hx') ?_
    rw [binary64.toReal_fabs, binary64.toReal_fabs]; exact hr
  | floor =>
    obtain ⟨-, -, f, -, -, v, -⟩ := C41_double b P x hx
    obtain ⟨-, -, f', -, -, v', -⟩ := C41_double b P x' hx'
    refine ⟨_, _, rfl, rfl, atMost_real f f' ?_⟩
    rw [v, v']; exact_mod_cast Int.floor_le_floor hr
  | ceil =>
    obtain ⟨-, -, -, f, -, -, v, -⟩ := C41_double b P x hx
    obtain ⟨-, -, -, f', -, -, v', -⟩ := C41_double b P x' hx'
    refine ⟨_, _, rfl, rfl, atMost_real f f' ?_⟩
    rw [v, v']; exact_mod_cast Int.ceil_le_ceil hr
  | round =>
    refine ⟨_, _, rfl, rfl, ?_⟩
    cases b with
    | generic => exact roundInt_rises Fmt.wide64 .away hx hx' hr
    | sse2 s f =>
      cases s
      · exact roundInt_rises Fmt.wide64 .away hx hx' hr
      · exact roundInt_rises Fmt.wide64 .nearest hx hx' hr
    | avx f => exact roundInt_rises Fmt.wide64 .nearest hx hx' hr
  | trunc =>
    obtain ⟨h, h1, h2⟩ := hr
    obtain ⟨r, e, f, v⟩ := C57_simd_double b P x hx h1
    obtain ⟨r', e', f', v'⟩ := C57_simd_double b P x' hx' h2
    exact ⟨r, r', e, e', atMost_real f f' (isRounded_mono (m := .zero) v v' h)⟩
  | undenormalize =>
    refine ⟨_, _, rfl, rfl, ?_⟩
    rw [undenormalize_lane64 b, undenormalize_lane64 b]
    exact undenormalize_rises (by decide +kernel) nx nx' (ev hr)
  | signedSqrt =>
    obtain ⟨-, n, s, f⟩ := C43_signed_sqrt_double b P x nx
    obtain ⟨-, n', s', f'⟩ := C43_signed_sqrt_double b P x' nx'
    exact ⟨_, _, rfl, rfl, signedSqrt_rises hx hx' n n' s s' f f' hr⟩
  | softclip =>
    obtain ⟨h, h1, h2⟩ := hr
    refine ⟨_, _, rfl, rfl, ?_⟩
    change AtMost binary64 ((b.lane P).softclip x) ((b.lane P).softclip x')
    rw [softclip_lane64, softclip_lane64]
    exact softclip_rises soft64 hx hx' h1 h2 h
  | reciprocal =>
    have e : ∀ y, (b.lane P).reciprocal y = binary64.div (binary64.ofInt 1) y := fun y => by
      rw [(lane_math64 b P).reciprocal]; exact scalar_reciprocal binary64 _ _ _ y
    refine ⟨_, _, rfl, rfl, ?_⟩
    rw [e, e]
    exact reciprocal_rises one_fin64 one_real64 hx hx' hr.1 hr.2
  | _ => exact hr.elim

/-- One element of a binary function of `float`, infinities included. -/
theorem C90_binary_float (b : Build32) (P : Platform 32) (op : BinOp) {x x' y y' : BitVec 32} {i j : Move}
    (h : (i, j) ∈ BinMoves op) (hx : i.From binary32 x x') (hy : j.From binary32 y y') (ho : op = .over → divides b = true) :
    Rises binary32 (op.f (b.lane P) x y) (op.f (b.lane P) x' y') := by
  refine binary_rises (lane_orderOps32 b P) op h hx hy (fun e => ?_)
  have hd := ho e
  cases b <;> first | rfl | exact absurd hd (by decide)

theorem C90_binary_double (b : Build64) (P : Platform 64) (op : BinOp) {x x' y y' : BitVec 64} {i j : Move}
    (h : (i, j) ∈ BinMoves op) (hx : i.From binary64 x x') (hy : j.From binary64 y y') :
    Rises binary64 (op.f (b.lane P) x y) (op.f (b.lane P) x' y') :=
  binary_rises (lane_orderOps64 b P) op h hx hy (fun _ => (lane_math64 b P).div)

/-- One element of a ternary function of `float`, fused or not. -/
theorem C90_ternary_float (b : Build32) (P : Platform 32) (op : TerOp) {x x' y y' z z' : BitVec 32} {i j k : Move}
    (h : (i, j, k) ∈ TerMoves op) (hx : i.From binary32 x x') (hy : j.From binary32 y y') (hz : k.From binary32 z z') :
    Rises binary32 (op.f (b.lane P) x y z) (op.f (b.lane P) x' y' z') :=
  ternary_rises (lane_orderOps32 b P)
    (by rw [binary32.toEReal_of_finite one_fin32, one_real32]; exact_mod_cast (zero_le_one : (0 : ℝ) ≤ 1)) op h hx hy hz

theorem C90_ternary_double (b : Build64) (P : Platform 64) (op : TerOp) {x x' y y' z z' : BitVec 64} {i j k : Move}
    (h : (i, j, k) ∈ TerMoves op) (hx : i.From binary64 x x') (hy : j.From binary64 y y') (hz : k.From binary64 z z') :
    Rises binary64 (op.f (b.lane P) x y z) (op.f (b.lane P) x' y' z') :=
  ternary_rises (lane_orderOps64 b P)
    (by rw [binary64.toEReal_of_finite one_fin64, one_real64]; exact_mod_cast (zero_le_one : (0 : ℝ) ≤ 1)) op h hx hy hz

/-- `mix` and the sum of four. -/
theorem C90_quad_float (b : Build32) (P : Platform 32) (op : QuadOp) {x x' y y' z z' u u' : BitVec 32} {i j k l : Move}
    (h : (i, j, k, l) ∈ QuadMoves op) (hx : i.From binary32 x x') (hy : j.From binary32 y y') (hz : k.From binary32 z z')
    (hu : l.From binary32 u u') : Rises binary32 (op.f (b.lane P) x y z u) (op.f (b.lane P) x' y' z' u') :=
  quad_rises (lane_orderOps32 b P) op h hx hy hz hu

theorem C90_quad_double (b : Build64) (P : Platform 64) (op : QuadOp) {x x' y y' z z' u u' : BitVec 64} {i j k l : Move}
    (h : (i, j, k, l) ∈ QuadMoves op) (hx : i.From binary64 x x') (hy : j.From binary64 y y') (hz : k.From binary64 z z')
    (hu : l.From binary64 u u') : Rises binary64 (op.f (b.lane P) x y z u) (op.f (b.lane P) x' y' z' u') :=
  quad_rises (lane_orderOps64 b P) op h hx hy hz hu

/-- `ampmod` keeps the order of signals as long as the modulation does not exceed the amplitude. -/
theorem C90_ampmod (b : Build32) (P : Platform 32) (b' : Build64) (P' : Platform 64) :
    (∀ x x' y z, AtMost binary32 x x' → -1 ≤ binary32.toEReal y * binary32.toEReal z →
      Rises binary32 (TerOp.ampmod.f (b.lane P) x y z) (TerOp.ampmod.f (b.lane P) x' y z)) ∧
    (∀ x x' y z, AtMost binary64 x x' → -1 ≤ binary64.toEReal y * binary64.toEReal z →
      Rises binary64 (TerOp.ampmod.f (b'.lane P') x y z) (TerOp.ampmod.f (b'.lane P') x' y z)) :=
  ⟨fun _ _ _ _ hx hp => ampmod_rises (lane_orderOps32 b P) one_fin32 one_real32 hx hp,
    fun _ _ _ _ hx hp => ampmod_rises (lane_orderOps64 b' P') one_fin64 one_real64 hx hp⟩

/-! ## Whole calls -/

section calls
variable {w : Nat} {F : Fmt w}

/-- Two calls on memories whose inputs are related element by element. -/
theorem ordered_unary (t : Target) (E : Env (BitVec w)) (op : UnOp) {m m' : Mem (BitVec w)} {out inp : Nat} {n : BitVec 32}
    {x x' : Nat → BitVec w} {R : BitVec w → BitVec w → Prop} (hn : 0 < n.toNat) (hmul : t.perLine ∣ n.toNat)
    (hoal : t.align ∣ out) (hial : t.align ∣ inp)
    (hout : Allocated m out n.toNat) (hout' : Allocated m' out n.toNat) (hin : Holds m inp n.toNat x)
    (hin' : Holds m' inp n.toNat x') (hs : SafePlacement out inp n.toNat)
    (h : ∀ i, i < n.toNat → ∃ r s, op.f E.L (x i) = .ok r ∧ op.f E.L (x' i) = .ok s ∧ R r s) :
    ∃ y z : Nat → BitVec w, op.vecSimd (t.vec E) out inp n m = .ok ((), overwrite m out n.toNat y) ∧
      op.vecSimd (t.vec E) out inp n m' = .ok ((), overwrite m' out n.toNat z) ∧ ∀ i, i < n.toNat → R (y i) (z i) := by
  classical
  choose y z h1 h2 h3 using h
  refine ⟨fun i => if h : i < n.toNat then y i h else 0, fun i => if h : i < n.toNat then z i h else 0, ?_, ?_, ?_⟩
  · refine C01_unary_simd t E op hn hmul hoal hial hout hin hs fun i h => ?_
    rw [dif_pos h]; exact h1 i h
  · refine C01_unary_simd t E op hn hmul hoal hial hout' hin' hs fun i h => ?_
    rw [dif_pos h]; exact h2 i h
  · intro i h; simp only [dif_pos h]; exact h3 i h

theorem ordered_unary_scalar (A : Arith (BitVec w)) (op : UnOp) {m m' : Mem (BitVec w)} {out inp : Nat} {n : BitVec 32}
    {x x' : Nat → BitVec w} {R : BitVec w → BitVec w → Prop} (hn : 0 < n.toNat)
    (hout : Allocated m out n.toNat) (hout' : Allocated m' out n.toNat) (hin : Holds m inp n.toNat x)
    (hin' : Holds m' inp n.toNat x') (hs : SafePlacement out inp n.toNat)
    (h : ∀ i, i < n.toNat → ∃ r s, op.f A (x i) = .ok r ∧ op.f A (x' i) = .ok s ∧ R r s) :
    ∃ y z : Nat → BitVec w, op.vec A out inp n m = .ok ((), overwrite m out n.toNat y) ∧
      op.vec A out inp n m' = .ok ((), overwrite m' out n.toNat z) ∧ ∀ i, i < n.toNat → R (y i) (z i) := by
  classical
  choose y z h1 h2 h3 using h
  refine ⟨fun i => if h : i < n.toNat then y i h else 0, fun i => if h : i < n.toNat then z i h else 0, ?_, ?_, ?_⟩
  · refine C01_unary_scalar A op hn hout hin hs fun i h => ?_
    rw [dif_pos h]; exact h1 i h
  · refine C01_unary_scalar A op hn hout' hin' hs fun i h => ?_
    rw [dif_pos h]; exact h2 i h
  · intro i h; simp only [dif_pos h]; exact h3 i h

end calls

/-- `f_vec_simd(out, in, n)` for `float`: a larger input gives a larger output. -/
theorem C90_unary_calls_float_partial (b : Build32) (P : Platform 32) (op : UnOp)
    {m m' : Mem (BitVec 32)} {out inp : Nat} {n : BitVec 32} {x x' : Nat → BitVec 32} (hn : 0 < n.toNat)
    (hmul : b.target.perLine ∣ n.toNat) (hoal : b.target.align ∣ out) (hial : b.target.align ∣ inp)
    (hout : Allocated m out n.toNat) (hout' : Allocated m' out n.toNat) (hin : Holds m inp n.toNat x)
    (hin' : Holds m' inp n.toNat x') (hs : SafePlacement out inp n.toNat)
    (hx : ∀ i, i < n.toNat → IsFin binary32 (x i) ∧ IsFin binary32 (x' i) ∧
      UnRises b op (binary32.toReal (x i)) (binary32.toReal (x' i))) :
    ∃ y z : Nat → BitVec 32, op.vecSimd (b.vec P) out inp n m = .ok ((), overwrite m out n.toNat y) ∧
      op.vecSimd (b.vec P) out inp n m' = .ok ((), overwrite m' out n.toNat z) ∧
      ∀ i, i < n.toNat → AtMost binary32 (y i) (z i) :=
  ordered_unary b.target (b.env P) op hn hmul hoal hial hout hout' hin hin' hs fun i h =>
    C90_unary_float_partial b P op (x i) (x' i) (hx i h).1 (hx i h).2.1 (hx i h).2.2

/-- `f_vec(out, in, n)` for `float` -/
theorem C90_unary_scalar_float_partial (P : Platform 32) (op : UnOp)
    {m m' : Mem (BitVec 32)} {out inp : Nat} {n : BitVec 32} {x x' : Nat → BitVec 32} (hn : 0 < n.toNat)
    (hout : Allocated m out n.toNat) (hout' : Allocated m' out n.toNat) (hin : Holds m inp n.toNat x)
    (hin' : Holds m' inp n.toNat x') (hs : SafePlacement out inp n.toNat)
    (hx : ∀ i, i < n.toNat → IsFin binary32 (x i) ∧ IsFin binary32 (x' i) ∧
      UnRises .generic op (binary32.toReal (x i)) (binary32.toReal (x' i))) :
    ∃ y z : Nat → BitVec 32, op.vec (Build32.scalar P) out inp n m = .ok ((), overwrite m out n.toNat y) ∧
      op.vec (Build32.scalar P) out inp n m' = .ok ((), overwrite m' out n.toNat z) ∧
      ∀ i, i < n.toNat → AtMost binary32 (y i) (z i) :=
  ordered_unary_scalar (Build32.scalar P) op hn hout hout' hin hin' hs fun i h =>
    C90_unary_float_partial .generic P op (x i) (x' i) (hx i h).1 (hx i h).2.1 (hx i h).2.2

/-- `f_vec_simd(out, in, n)` for `double` -/
theorem C90_unary_calls_double_partial (b : Build64) (P : Platform 64) (op : UnOp)
    {m m' : Mem (BitVec 64)} {out inp : Nat} {n : BitVec 32} {x x' : Nat → BitVec 64} (hn : 0 < n.toNat)
    (hmul : b.target.perLine ∣ n.toNat) (hoal : b.target.align ∣ out) (hial : b.target.align ∣ inp)
    (hout : Allocated m out n.toNat) (hout' : Allocated m' out n.toNat) (hin : Holds m inp n.toNat x)
    (hin' : Holds m' inp n.toNat x') (hs : SafePlacement out inp n.toNat)
    (hx : ∀ i, i < n.toNat → IsFin binary64 (x i) ∧ IsFin binary64 (x' i) ∧
      UnRises64 op (binary64.toReal (x i)) (binary64.toReal (x' i))) :
    ∃ y z : Nat → BitVec 64, op.vecSimd (b.vec P) out inp n m = .ok ((), overwrite m out n.toNat y) ∧
      op.vecSimd (b.vec P) out inp n m' = .ok ((), overwrite m' out n.toNat z) ∧
      ∀ i, i < n.toNat → AtMost binary64 (y i) (z i) :=
  ordered_unary b.target (b.env P) op hn hmul hoal hial hout hout' hin hin' hs fun i h =>
    C90_unary_double_partial b P op (x i) (x' i) (hx i h).1 (hx i h).2.1 (hx i h).2.2

/-- `f_vec_simd` with two arguments for `float`: buffers, numbers or ramps. -/
theorem C90_binary_calls_float (bd : Build32) (P : Platform 32) (op : BinOp) {m m' : Mem (BitVec 32)} {out : Nat}
    {a b a' b' : SArg (BitVec 32)} {n : BitVec 32} {x y x' y' : Nat → BitVec 32} {i j : Move} (h : (i, j) ∈ BinMoves op)
    (hn : 0 < n.toNat) (hmul : bd.target.perLine ∣ n.toNat) (hoal : bd.target.align ∣ out)
    (hout : Allocated m out n.toNat) (hout' : Allocated m' out n.toNat)
    (ha : SimdSupplies (bd.vec P) bd.target.align m out n.toNat a x)
    (hb : SimdSupplies (bd.vec P) bd.target.align m out n.toNat b y)
    (ha' : SimdSupplies (bd.vec P) bd.target.align m' out n.toNat a' x')
    (hb' : SimdSupplies (bd.vec P) bd.target.align m' out n.toNat b' y')
    (hx : ∀ t, t < n.toNat → i.From binary32 (x t) (x' t)) (hy : ∀ t, t < n.toNat → j.From binary32 (y t) (y' t))
    (ho : op = .over → divides bd = true) :
    ∃ r s : Nat → BitVec 32, op.vecSimd (bd.vec P) out a b n m = .ok ((), overwrite m out n.toNat r) ∧
      op.vecSimd (bd.vec P) out a' b' n m' = .ok ((), overwrite m' out n.toNat s) ∧
      ∀ t, t < n.toNat → Rises binary32 (r t) (s t) :=
  ⟨_, _, C02_binary_simd bd.target (bd.env P) op hn hmul hoal hout ha hb,
    C02_binary_simd bd.target (bd.env P) op hn hmul hoal hout' ha' hb',
    fun t ht => C90_binary_float bd P op h (hx t ht) (hy t ht) ho⟩

theorem C90_binary_calls_double (bd : Build64) (P : Platform 64) (op : BinOp) {m m' : Mem (BitVec 64)} {out : Nat}
    {a b a' b' : SArg (BitVec 64)} {n : BitVec 32} {x y x' y' : Nat → BitVec 64} {i j : Move} (h : (i, j) ∈ BinMoves op)
    (hn : 0 < n.toNat) (hmul : bd.target.perLine ∣ n.toNat) (hoal : bd.target.align ∣ out)
    (hout : Allocated m out n.toNat) (hout' : Allocated m' out n.toNat)
    (ha : SimdSupplies (bd.vec P) bd.target.align m out n.toNat a x)
    (hb : SimdSupplies (bd.vec P) bd.target.align m out n.toNat b y)
    (ha' : SimdSupplies (bd.vec P) bd.target.align m' out n.toNat a' x')
    (hb' : SimdSupplies (bd.vec P) bd.target.align m' out n.toNat b' y')
    (hx : ∀ t, t < n.toNat → i.From binary64 (x t) (x' t)) (hy : ∀ t, t < n.toNat → j.From binary64 (y t) (y' t)) :
    ∃ r s : Nat → BitVec 64, op.vecSimd (bd.vec P) out a b n m = .ok ((), overwrite m out n.toNat r) ∧
      op.vecSimd (bd.vec P) out a' b' n m' = .ok ((), overwrite m' out n.toNat s) ∧
      ∀ t, t < n.toNat → Rises binary64 (r t) (s t) :=
  ⟨_, _, C02_binary_simd bd.target (bd.env P) op hn hmul hoal hout ha hb,
    C02_binary_simd bd.target (bd.env P) op hn hmul hoal hout' ha' hb',
    fun t ht => C90_binary_double bd P op h (hx t ht) (hy t ht)⟩

/-- `f_vec_simd` with three arguments for `float`. -/
theorem C90_ternary_calls_float (bd : Build32) (P : Platform 32) (op : TerOp) {m m' : Mem (BitVec 32)} {out : Nat}
    {a b g a' b' g' : SArg (BitVec 32)} {n : BitVec 32} {x y z x' y' z' : Nat → BitVec 32} {i j k : Move}
    (h : (i, j, k) ∈ TerMoves op)
    (hn : 0 < n.toNat) (hmul : bd.target.perLine ∣ n.toNat) (hoal : bd.target.align ∣ out)
    (hout : Allocated m out n.toNat) (hout' : Allocated m' out n.toNat)
    (ha : SimdSupplies (bd.vec P) bd.target.align m out n.toNat a x)
    (hb : SimdSupplies (bd.vec P) bd.target.align m out n.toNat b y)
    (hg : SimdSupplies (bd.vec P) bd.target.align m out n.toNat g z)
    (ha' : SimdSupplies (bd.vec P) bd.target.align m' out n.toNat a' x')
    (hb' : SimdSupplies (bd.vec P) bd.target.align m' out n.toNat b' y')
    (hg' : SimdSupplies (bd.vec P) bd.target.align m' out n.toNat g' z')
    (hx : ∀ t, t < n.toNat → i.From binary32 (x t) (x' t)) (hy : ∀ t, t < n.toNat → j.From binary32 (y t) (y' t))
    (hz : ∀ t, t < n.toNat → k.From binary32 (z t) (z' t)) :
    ∃ r s : Nat → BitVec 32, op.vecSimd (bd.vec P) out a b g n m = .ok ((), overwrite m out n.toNat r) ∧
      op.vecSimd (bd.vec P) out a' b' g' n m' = .ok ((), overwrite m' out n.toNat s) ∧
      ∀ t, t < n.toNat → Rises binary32 (r t) (s t) :=
  ⟨_, _, C03_ternary_simd bd.target (bd.env P) op hn hmul hoal hout ha hb hg,
    C03_ternary_simd bd.target (bd.env P) op hn hmul hoal hout' ha' hb' hg',
    fun t ht => C90_ternary_float bd P op h (hx t ht) (hy t ht) (hz t ht)⟩

/-- `mix_vec_simd` and `sum_vec_simd` with four arguments for `float`. -/
theorem C90_quad_calls_float (bd : Build32) (P : Platform 32) (op : QuadOp) {m m' : Mem (BitVec 32)} {out : Nat}
    {a b g q a' b' g' q' : SArg (BitVec 32)} {n : BitVec 32} {x y z u x' y' z' u' : Nat → BitVec 32} {i j k l : Move}
    (h : (i, j, k, l) ∈ QuadMoves op)
    (hn : 0 < n.toNat) (hmul : bd.target.perLine ∣ n.toNat) (hoal : bd.target.align ∣ out)
    (hout : Allocated m out n.toNat) (hout' : Allocated m' out n.toNat)
    (ha : SimdSupplies (bd.vec P) bd.target.align m out n.toNat a x)
    (hb : SimdSupplies (bd.vec P) bd.target.align m out n.toNat b y)
    (hg : SimdSupplies (bd.vec P) bd.target.align m out n.toNat g z)
    (hq : SimdSupplies (bd.vec P) bd.target.align m out n.toNat q u)
    (ha' : SimdSupplies (bd.vec P) bd.target.align m' out n.toNat a' x')
    (hb' : SimdSupplies (bd.vec P) bd.target.align m' out n.toNat b' y')
    (hg' : SimdSupplies (bd.vec P) bd.target.align m' out n.toNat g' z')
    (hq' : SimdSupplies (bd.vec P) bd.target.align m' out n.toNat q' u')
    (hx : ∀ t, t < n.toNat → i.From binary32 (x t) (x' t)) (hy : ∀ t, t < n.toNat → j.From binary32 (y t) (y' t))
    (hz : ∀ t, t < n.toNat → k.From binary32 (z t) (z' t)) (hu : ∀ t, t < n.toNat → l.From binary32 (u t) (u' t)) :
    ∃ r s : Nat → BitVec 32, op.vecSimd (bd.vec P) out a b g q n m = .ok ((), overwrite m out n.toNat r) ∧
      op.vecSimd (bd.vec P) out a' b' g' q' n m' = .ok ((), overwrite m' out n.toNat s) ∧
      ∀ t, t < n.toNat → Rises binary32 (r t) (s t) :=
  ⟨_, _, C04_quad_simd bd.target (bd.env P) op hn hmul hoal hout ha hb hg hq,
    C04_quad_simd bd.target (bd.env P) op hn hmul hoal hout' ha' hb' hg' hq',
    fun t ht => C90_quad_float bd P op h (hx t ht) (hy t ht) (hz t ht) (hu t ht)⟩

/-! ## Where the order is lost -/

/-- Beyond 2^22 the difference in the softclip rounds: 4194304.5 gives less than 4194304. -/
theorem C90_negation_softclip (b : Build32) (P : Platform 32) :
    AtMost binary32 0x4A800000#32 0x4A800001#32 ∧
    (b.lane P).softclip 0x4A800000#32 = 0x3f7fffff#32 ∧ (b.lane P).softclip 0x4A800001#32 = 0x3f7ffffe#32 ∧
    ¬ Rises binary32 ((b.lane P).softclip 0x4A800000#32) ((b.lane P).softclip 0x4A800001#32) := by
  have e1 : (b.lane P).softclip 0x4A800000#32 = 0x3f7fffff#32 := by rw [softclip_lane32]; decide +kernel
  have e2 : (b.lane P).softclip 0x4A800001#32 = 0x3f7ffffe#32 := by rw [softclip_lane32]; decide +kernel
  refine ⟨⟨by decide, by decide, ?_⟩, e1, e2, ?_⟩
  · rw [← binary32.key_le_iff_value (by decide) (by decide)]; decide +kernel
  · rw [e1, e2]
    intro h
    have := h (by decide) (by decide)
    rw [← binary32.key_le_iff_value (by decide) (by decide)] at this
    exact absurd this (by decide +kernel)

/-! ## Examples -/

/-- 0.5 ≤ 2 in 2^22: the softclip of 0.5 is 0.5, that of 2 is 0.875. -/
example (P : Platform 32) : UnRises .neon .softclip (binary32.toReal 0x3f000000#32) (binary32.toReal 0x40000000#32) ∧
    (Build32.neon.lane P).softclip 0x3f000000#32 = 0x3f000000#32 ∧ (Build32.neon.lane P).softclip 0x40000000#32 = 0x3f600000#32 := by
  have a : binary32.toReal 0x3f000000#32 = 1 / 2 := by
    rw [binary32.toReal_eq, show binary32.neg 0x3f000000#32 = false by decide +kernel,
      show mag binary32.mb (binary32.code 0x3f000000#32) = 2 ^ 148 by decide +kernel, show binary32.scale = 149 by decide]
    norm_num
  have b : binary32.toReal 0x40000000#32 = 2 := by
    rw [binary32.toReal_eq, show binary32.neg 0x40000000#32 = false by decide +kernel,
      show mag binary32.mb (binary32.code 0x40000000#32) = 2 ^ 150 by decide +kernel, show binary32.scale = 149 by decide]
    norm_num
  refine ⟨?_, by rw [softclip_lane32]; decide +kernel, by rw [softclip_lane32]; decide +kernel⟩
  rw [a, b]
  refine ⟨by norm_num, ?_, ?_⟩ <;> norm_num

/-- 1 ≤ 3 multiplied by the gain 0.5 -/
example (P : Platform 32) : (Move.up, Move.nonneg) ∈ BinMoves .times ∧ Move.up.From binary32 0x3f800000#32 0x40400000#32 ∧
    Move.nonneg.From binary32 0x3f000000#32 0x3f000000#32 ∧
    BinOp.times.f ((Build32.avx true).lane P) 0x3f800000#32 0x3f000000#32 = 0x3f000000#32 ∧
    BinOp.times.f ((Build32.avx true).lane P) 0x40400000#32 0x3f000000#32 = 0x3fc00000#32 := by
  refine ⟨by decide, ⟨by decide, by decide, ?_⟩, ⟨by decide, rfl, ?_⟩, ?_, ?_⟩
  · rw [← binary32.key_le_iff_value (by decide) (by decide)]; decide +kernel
  · have : binary32.toEReal binary32.posZero ≤ binary32.toEReal 0x3f000000#32 := by
      rw [← binary32.key_le_iff_value (by decide) (by decide)]; decide +kernel
    rwa [binary32.toEReal_posZero] at this
  · change (Build32.avx true |>.lane P).mul _ _ = _
    rw [lane_mul32' _ rfl]; decide +kernel
  · change (Build32.avx true |>.lane P).mul _ _ = _
    rw [lane_mul32' _ rfl]; decide +kernel

end Nova
