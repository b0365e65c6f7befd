import Verif.SpecFlush
import Verif.Lemmas.BasicFinal
import Verif.Float.Error
import Verif.Lemmas.PolarityLanes

/-! Lemmas about flushing hardware and the lanes built on it. -/

namespace Nova
open FP Spec VecMath

namespace FP.Fmt
variable {w : Nat} {F : Fmt w}

theorem code_zero (F : Fmt w) (s : Bool) : F.code (F.pack s 0) = 0 := F.code_pack s (by positivity)

theorem flush_code (x : BitVec w) : F.code (F.flush x) = if F.Subnormal x then 0 else F.code x := by
  unfold flush
  split
  · exact F.code_zero _
  · rfl

theorem flush_neg (x : BitVec w) : F.neg (F.flush x) = F.neg x := by
  unfold flush
  split
  · exact F.neg_pack _ (by positivity)
  · rfl

theorem flush_not_subnormal (x : BitVec w) : ¬ F.Subnormal (F.flush x) := by
  by_cases h : F.Subnormal x
  · unfold Subnormal; rw [flush_code, if_pos h]; simp
  · unfold flush; rwa [if_neg h]

theorem clear_not_subnormal {x : BitVec w} (h : Clear F x) : ¬ F.Subnormal x := fun s => by
  rcases h with h | h
  · exact s.1 h
  · exact absurd s.2 (by omega)

theorem flush_clear {x : BitVec w} (h : Clear F x) : F.flush x = x := by
  unfold flush; rw [if_neg (clear_not_subnormal h)]

theorem operand_clear {daz : Bool} {x : BitVec w} (h : Clear F x) : F.operand daz x = x := by
  unfold operand; cases daz
  · rfl
  · exact flush_clear h

theorem operand_zero (F : Fmt w) (daz : Bool) : F.operand daz 0#w = 0#w :=
  operand_clear (.inl (by rw [← F.posZero_eq]; exact F.code_zero false))

theorem FlushTo.not_subnormal {r r' : BitVec w} (h : F.FlushTo true r r') : ¬ F.Subnormal r' := by
  rcases h with ⟨rfl, h⟩ | ⟨-, -, rfl⟩
  · exact h rfl
  · unfold Subnormal; rw [code_zero]; simp

theorem FlushTo.clear {ftz : Bool} {r r' : BitVec w} (h : F.FlushTo ftz r r') (c : Clear F r) : r' = r := by
  rcases h with ⟨rfl, -⟩ | ⟨-, h, rfl⟩
  · rfl
  · rcases c with c | c
    · have := F.pack_self r
      rwa [c] at this
    · omega

theorem flushTo_flush (r : BitVec w) : F.FlushTo true r (F.flush r) := by
  unfold flush
  by_cases h : F.Subnormal r
  · rw [if_pos h]; exact .inr ⟨rfl, h.2.le, rfl⟩
  · rw [if_neg h]; exact .inl ⟨rfl, fun _ => h⟩

end FP.Fmt

/-- Hardware of this kind exists. -/
theorem Hw.flushed_flushing {w : Nat} (F : Fmt w) (base : Hw w) : Hw.Flushing F true true base (Hw.flushed F base) where
  add _ _ := Fmt.flushTo_flush _
  sub _ _ := Fmt.flushTo_flush _
  mul _ _ := Fmt.flushTo_flush _
  div _ _ := Fmt.flushTo_flush _
  fma _ _ _ := Fmt.flushTo_flush _
  nmsub _ _ _ := Fmt.flushTo_flush _
  mla _ _ _ := rfl
  sqrt _ := Fmt.flushTo_flush _
  lt _ _ := rfl
  le _ _ := rfl
  eq _ _ := rfl
  max _ _ := rfl
  min _ _ := rfl
  roundInt _ _ := rfl
  toInt32 _ := rfl
  toUInt32 _ := rfl
  ofInt32 := rfl
  ofUInt32 := rfl

/-- How lanes on flushing hardware relate to the lanes on hardware with subnormals. -/
structure FlushOps {w : Nat} (F : Fmt w) (daz ftz : Bool) (A0 A : Arith (BitVec w)) : Prop where
  one : A.one = A0.one
  oneClear : Clear F A0.one
  add : ∀ x y, F.FlushTo ftz (A0.add (F.operand daz x) (F.operand daz y)) (A.add x y)
  sub : ∀ x y, F.FlushTo ftz (A0.sub (F.operand daz x) (F.operand daz y)) (A.sub x y)
  mul : ∀ x y, F.FlushTo ftz (A0.mul (F.operand daz x) (F.operand daz y)) (A.mul x y)
  madd : (∀ x y z, F.FlushTo ftz (A0.madd (F.operand daz x) (F.operand daz y) (F.operand daz z)) (A.madd x y z)) ∨
    (∀ x y z, A.madd x y z = A.add (A.mul x y) z ∧ A0.madd x y z = A0.add (A0.mul x y) z) ∨
    (∀ x y z, A.madd x y z = A.add z (A.mul y x) ∧ A0.madd x y z = A0.add z (A0.mul y x))
  square : ∀ x, A.square x = A.mul x x ∧ A0.square x = A0.mul x x
  cube : (∀ x, A.cube x = A.mul x (A.mul x x) ∧ A0.cube x = A0.mul x (A0.mul x x)) ∨
    (∀ x, A.cube x = A.mul (A.mul x x) x ∧ A0.cube x = A0.mul (A0.mul x x) x)
  compare : ∀ op, BinCompare op = true → ∀ x y, op.f A x y = op.f A0 (F.operand daz x) (F.operand daz y)
  abs : ∀ x, A.abs x = A0.abs x

section generic
variable {w : Nat} {F : Fmt w} {daz ftz : Bool} {A0 A : Arith (BitVec w)}

theorem FlushOps.same_add (O : FlushOps F daz ftz A0 A) {x y : BitVec w} (hx : Clear F x) (hy : Clear F y)
    (h : Clear F (A0.add x y)) : A.add x y = A0.add x y := by
  have := O.add x y
  rw [Fmt.operand_clear hx, Fmt.operand_clear hy] at this
  exact this.clear h

theorem FlushOps.same_sub (O : FlushOps F daz ftz A0 A) {x y : BitVec w} (hx : Clear F x) (hy : Clear F y)
    (h : Clear F (A0.sub x y)) : A.sub x y = A0.sub x y := by
  have := O.sub x y
  rw [Fmt.operand_clear hx, Fmt.operand_clear hy] at this
  exact this.clear h

theorem FlushOps.same_mul (O : FlushOps F daz ftz A0 A) {x y : BitVec w} (hx : Clear F x) (hy : Clear F y)
    (h : Clear F (A0.mul x y)) : A.mul x y = A0.mul x y := by
  have := O.mul x y
  rw [Fmt.operand_clear hx, Fmt.operand_clear hy] at this
  exact this.clear h

theorem FlushOps.un_none (O : FlushOps F daz true A0 A) (op : UnOp) (h : UnCalc op = true) (x : BitVec w) :
    ∃ r, op.f A x = .ok r ∧ ¬ F.Subnormal r := by
  cases op with
  | square => exact ⟨_, rfl, by rw [(O.square x).1]; exact (O.mul x x).not_subnormal⟩
  | cube =>
    refine ⟨_, rfl, ?_⟩
    rcases O.cube with c | c
    · rw [(c x).1]; exact (O.mul _ _).not_subnormal
    · rw [(c x).1]; exact (O.mul _ _).not_subnormal
  | _ => exact absurd h (by simp [UnCalc])

theorem FlushOps.un_same (O : FlushOps F daz ftz A0 A) (op : UnOp) (h : UnCalc op = true) (x : BitVec w)
    (c : UnClear F A0 op x) : op.f A x = op.f A0 x := by
  obtain ⟨h1, h2, h3⟩ := c
  have e := O.same_mul h1 h1 h2
  cases op with
  | square =>
    refine congrArg Except.ok ?_
    rw [(O.square x).1, (O.square x).2, e]
  | cube =>
    refine congrArg Except.ok ?_
    have h3 := h3 rfl
    rcases O.cube with c | c
    · rw [(c x).2] at h3
      rw [(c x).1, (c x).2, e]; exact O.same_mul h1 h2 h3
    · rw [(c x).2] at h3
      rw [(c x).1, (c x).2, e]; exact O.same_mul h2 h1 h3
  | _ => exact absurd h (by simp [UnCalc])

theorem FlushOps.bin_none (O : FlushOps F daz true A0 A) (op : BinOp) (h : BinCalc op = true) (x y : BitVec w)
    (hd : op = .over → ¬ F.Subnormal (A.div x y)) : ¬ F.Subnormal (op.f A x y) := by
  cases op with
  | plus => exact (O.add x y).not_subnormal
  | sum => exact (O.add x y).not_subnormal
  | minus => exact (O.sub x y).not_subnormal
  | times => exact (O.mul x y).not_subnormal
  | over => exact hd rfl
  | _ => exact absurd h (by simp [BinCalc])

theorem FlushOps.bin_same (O : FlushOps F daz ftz A0 A) (op : BinOp) (h : BinCalc op = true ∨ BinCompare op = true)
    (x y : BitVec w) (hd : op = .over → F.FlushTo ftz (A0.div (F.operand daz x) (F.operand daz y)) (A.div x y))
    (c : BinClear F A0 op x y) : op.f A x y = op.f A0 x y := by
  obtain ⟨hx, hy, hr⟩ := c
  rcases h with h | h
  · have hr := hr h
    cases op with
    | plus => exact O.same_add hx hy hr
    | sum => exact O.same_add hx hy hr
    | minus => exact O.same_sub hx hy hr
    | times => exact O.same_mul hx hy hr
    | over =>
      have := hd rfl
      rw [Fmt.operand_clear hx, Fmt.operand_clear hy] at this
      exact this.clear hr
    | _ => exact absurd h (by simp [BinCalc])
  · rw [O.compare op h, Fmt.operand_clear hx, Fmt.operand_clear hy]

theorem FlushOps.ter_none (O : FlushOps F daz true A0 A) (op : TerOp) (h : TerCalc op = true) (x y z : BitVec w) :
    ¬ F.Subnormal (op.f A x y z) := by
  cases op with
  | muladd =>
    change ¬ F.Subnormal (A.madd x y z)
    rcases O.madd with m | m | m
    · exact (m x y z).not_subnormal
    · rw [(m x y z).1]; exact (O.add _ _).not_subnormal
    · rw [(m x y z).1]; exact (O.add _ _).not_subnormal
  | ampmod => exact (O.mul _ _).not_subnormal
  | sum => exact (O.add _ _).not_subnormal
  | _ => exact absurd h (by simp [TerCalc])

theorem FlushOps.ter_same (O : FlushOps F daz ftz A0 A) (op : TerOp) (h : TerCalc op = true) (x y z : BitVec w)
    (c : TerClear F A0 op x y z) : op.f A x y z = op.f A0 x y z := by
  obtain ⟨hx, hy, hz, hr, hi⟩ := c
  cases op with
  | muladd =>
    change A.madd x y z = A0.madd x y z
    change Clear F (A0.madd x y z) at hr
    rcases O.madd with m | m | m
    · have := m x y z
      rw [Fmt.operand_clear hx, Fmt.operand_clear hy, Fmt.operand_clear hz] at this
      exact this.clear hr
    · rw [(m x y z).2] at hr ⊢
      rw [(m x y z).1, O.same_mul hx hy hi.1, O.same_add hi.1 hz hr]
    · rw [(m x y z).2] at hr ⊢
      rw [(m x y z).1, O.same_mul hy hx hi.2, O.same_add hz hi.2 hr]
  | ampmod =>
    change A.mul x (A.add A.one (A.mul y z)) = A0.mul x (A0.add A0.one (A0.mul y z))
    rw [O.same_mul hy hz hi.1, O.one, O.same_add O.oneClear hi.1 hi.2, O.same_mul hx hi.2 hr]
  | sum =>
    change A.add (A.add x y) z = A0.add (A0.add x y) z
    have hi : Clear F (A0.add x y) := hi
    rw [O.same_add hx hy hi, O.same_add hi hz hr]
  | _ => exact absurd h (by simp [TerCalc])

theorem FlushOps.quad_none (O : FlushOps F daz true A0 A) (op : QuadOp) (x y z u : BitVec w) :
    ¬ F.Subnormal (op.f A x y z u) := by
  cases op
  · exact (O.add _ _).not_subnormal
  · exact (O.add _ _).not_subnormal

theorem FlushOps.quad_same (O : FlushOps F daz ftz A0 A) (op : QuadOp) (x y z u : BitVec w)
    (c : QuadClear F A0 op x y z u) : op.f A x y z u = op.f A0 x y z u := by
  obtain ⟨hx, hy, hz, hu, hr, hi⟩ := c
  cases op with
  | mix =>
    change A.add (A.mul x y) (A.mul z u) = A0.add (A0.mul x y) (A0.mul z u)
    rw [O.same_mul hx hy hi.1, O.same_mul hz hu hi.2, O.same_add hi.1 hi.2 hr]
  | sum =>
    change A.add (A.add x y) (A.add z u) = A0.add (A0.add x y) (A0.add z u)
    rw [O.same_add hx hy hi.1, O.same_add hz hu hi.2, O.same_add hi.1 hi.2 hr]

end generic

/-! ## The lanes -/

theorem Hw.Flushing.eq_zero {w : Nat} {F : Fmt w} {daz ftz : Bool} {base hw : Hw w} (H : Hw.Flushing F daz ftz base hw) :
    hw.eq 0#w 0#w = base.eq 0#w 0#w := by
  rw [H.eq, F.operand_zero]

/-- A fused operation, or a product and a sum. -/
theorem Hw.Flushing.madd {w : Nat} {F : Fmt w} {daz ftz : Bool} {base hw : Hw w} (H : Hw.Flushing F daz ftz base hw) (f : Bool)
    {A0 A : Arith (BitVec w)} (m0 : A0.madd = fun a b c => if f then base.fma a b c else base.add (base.mul a b) c)
    (m : A.madd = fun a b c => if f then hw.fma a b c else hw.add (hw.mul a b) c)
    (a0 : A0.add = base.add) (a : A.add = hw.add) (p0 : A0.mul = base.mul) (p : A.mul = hw.mul) :
    (∀ x y z, F.FlushTo ftz (A0.madd (F.operand daz x) (F.operand daz y) (F.operand daz z)) (A.madd x y z)) ∨
    (∀ x y z, A.madd x y z = A.add (A.mul x y) z ∧ A0.madd x y z = A0.add (A0.mul x y) z) ∨
    (∀ x y z, A.madd x y z = A.add z (A.mul y x) ∧ A0.madd x y z = A0.add z (A0.mul y x)) := by
  rw [m0, m, a0, a, p0, p]
  cases f
  · exact .inr (.inl fun _ _ _ => ⟨rfl, rfl⟩)
  · exact .inl H.fma

theorem Sse.one_flush {daz ftz : Bool} {base hw : Hw 32} (H : Hw.Flushing binary32 daz ftz base hw) (s : Bool) :
    Sse.one s hw = Sse.one s base := by
  unfold Sse.one Sse.ones; rw [H.eq_zero]

theorem Sse.absMask_flush {daz ftz : Bool} {base hw : Hw 32} (H : Hw.Flushing binary32 daz ftz base hw) (s : Bool) :
    Sse.absMask s hw = Sse.absMask s base := by
  unfold Sse.absMask Sse.ones; rw [H.eq_zero]

theorem clear_one32 : Clear binary32 0x3f800000#32 := by unfold Clear; decide
theorem clear_one64 : Clear binary64 0x3ff0000000000000#64 := by unfold Clear; decide

theorem flushOps32 (b : Build32) (hb : b ≠ .generic) (P : Platform 32) {daz ftz : Bool} {h : Hw 32}
    (H : Hw.Flushing binary32 daz ftz (b.hw P) h) : FlushOps binary32 daz ftz (b.lane P) (b.laneOn P h) where
  one := by
    cases b with
    | generic => exact absurd rfl hb
    | sse s f => exact Sse.one_flush H f.sse2
    | _ => rfl
  oneClear := by rw [lane_one32]; exact clear_one32
  add := by
    cases b with
    | generic => exact absurd rfl hb
    | _ => exact H.add
  sub := by
    cases b with
    | generic => exact absurd rfl hb
    | _ => exact H.sub
  mul := by
    cases b with
    | generic => exact absurd rfl hb
    | altivec =>
      intro x y
      have := H.fma x y 0#32
      rwa [binary32.operand_zero] at this
    | _ => exact H.mul
  madd := by
    cases b with
    | generic => exact absurd rfl hb
    | sse s f => exact H.madd f.fma rfl rfl rfl rfl rfl rfl
    | avx f => exact H.madd f rfl rfl rfl rfl rfl rfl
    | neon => exact .inr (.inr fun x y z => ⟨H.mla z y x, rfl⟩)
    | altivec => exact .inl H.fma
  square := by
    cases b with
    | generic => exact absurd rfl hb
    | _ => exact fun _ => ⟨rfl, rfl⟩
  cube := by
    cases b with
    | generic => exact absurd rfl hb
    | avx f => exact .inr fun _ => ⟨rfl, rfl⟩
    | _ => exact .inl fun _ => ⟨rfl, rfl⟩
  compare op ho x y := by
    cases b with
    | generic => exact absurd rfl hb
    | sse s f =>
      have e := Sse.one_flush H f.sse2
      cases op with
      | min => exact H.min x y
      | max => exact H.max x y
      | less => exact congrArg₂ (fun a c => maskOf a &&& c) (H.lt x y) e
      | lessEqual => exact congrArg₂ (fun a c => maskOf a &&& c) (H.le x y) e
      | greater => exact congrArg₂ (fun a c => maskOf a &&& c) (H.lt y x) e
      | greaterEqual => exact congrArg₂ (fun a c => maskOf a &&& c) (H.le y x) e
      | equal => exact congrArg₂ (fun a c => maskOf a &&& c) (H.eq x y) e
      | notequal => exact congrArg₂ (fun a c => maskOf (!a) &&& c) (H.eq x y) e
      | _ => exact absurd ho (by simp [BinCompare])
    | avx f =>
      cases op with
      | min => exact H.min x y
      | max => exact H.max x y
      | less => exact congrArg (fun a => maskOf a &&& litF 1) (H.lt x y)
      | lessEqual => exact congrArg (fun a => maskOf a &&& litF 1) (H.le x y)
      | greater => exact congrArg (fun a => maskOf (!a) &&& litF 1) (H.le x y)
      | greaterEqual => exact congrArg (fun a => maskOf (!a) &&& litF 1) (H.lt x y)
      | equal => exact congrArg (fun a => maskOf a &&& litF 1) (H.eq x y)
      | notequal => exact congrArg (fun a => maskOf (!a) &&& litF 1) (H.eq x y)
      | _ => exact absurd ho (by simp [BinCompare])
    | neon =>
      cases op with
      | min => exact H.min x y
      | max => exact H.max x y
      | less => exact congrArg (fun a => maskOf a &&& litF 1) (H.lt x y)
      | lessEqual => exact congrArg (fun a => maskOf a &&& litF 1) (H.le x y)
      | greater => exact congrArg (fun a => maskOf a &&& litF 1) (H.lt y x)
      | greaterEqual => exact congrArg (fun a => maskOf a &&& litF 1) (H.le y x)
      | equal => exact congrArg (fun a => maskOf a &&& litF 1) (H.eq x y)
      | notequal => exact congrArg (fun a => (~~~maskOf a) &&& litF 1) (H.eq x y)
      | _ => exact absurd ho (by simp [BinCompare])
    | altivec =>
      cases op with
      | min => exact H.min x y
      | max => exact H.max x y
      | less => exact congrArg (fun a => maskOf a &&& litF 1) (H.lt x y)
      | lessEqual => exact congrArg (fun a => maskOf a &&& litF 1) (H.le x y)
      | greater => exact congrArg (fun a => maskOf a &&& litF 1) (H.lt y x)
      | greaterEqual => exact congrArg (fun a => maskOf a &&& litF 1) (H.le y x)
      | equal => exact congrArg (fun a => maskOf a &&& litF 1) (H.eq x y)
      | notequal => exact congrArg (fun a => (~~~maskOf a) &&& litF 1) (H.eq x y)
      | _ => exact absurd ho (by simp [BinCompare])
  abs x := by
    cases b with
    | generic => exact absurd rfl hb
    | sse s f => exact congrArg (· &&& x) (Sse.absMask_flush H f.sse2)
    | _ => rfl

theorem lane_one64' (b : Build64) (P : Platform 64) : (b.lane P).one = 0x3ff0000000000000#64 := by
  cases b with
  | generic => exact (show binary64.ofInt 1 = 0x3ff0000000000000#64 by decide +kernel)
  | _ => exact (show binary64.ofRat 1 = 0x3ff0000000000000#64 by decide +kernel)

theorem flushOps64 (b : Build64) (hb : b ≠ .generic) (P : Platform 64) {daz ftz : Bool} {h : Hw 64}
    (H : Hw.Flushing binary64 daz ftz (P.x86 binary64) h) : FlushOps binary64 daz ftz (b.lane P) (b.laneOn P h) where
  one := by
    cases b with
    | generic => exact absurd rfl hb
    | _ => rfl
  oneClear := by rw [lane_one64']; exact clear_one64
  add := by
    cases b with
    | generic => exact absurd rfl hb
    | _ => exact H.add
  sub := by
    cases b with
    | generic => exact absurd rfl hb
    | _ => exact H.sub
  mul := by
    cases b with
    | generic => exact absurd rfl hb
    | _ => exact H.mul
  madd := by
    cases b with
    | generic => exact absurd rfl hb
    | sse2 s f => exact H.madd f rfl rfl rfl rfl rfl rfl
    | avx f => exact H.madd f rfl rfl rfl rfl rfl rfl
  square := by
    cases b with
    | generic => exact absurd rfl hb
    | _ => exact fun _ => ⟨rfl, rfl⟩
  cube := by
    cases b with
    | generic => exact absurd rfl hb
    | _ => exact .inl fun _ => ⟨rfl, rfl⟩
  compare op ho x y := by
    cases b with
    | generic => exact absurd rfl hb
    | sse2 s f =>
      cases op with
      | min => exact H.min x y
      | max => exact H.max x y
      | less => exact congrArg (fun a => maskOf a &&& binary64.ofRat 1) (H.lt x y)
      | lessEqual => exact congrArg (fun a => maskOf a &&& binary64.ofRat 1) (H.le x y)
      | greater => exact congrArg (fun a => maskOf a &&& binary64.ofRat 1) (H.lt y x)
      | greaterEqual => exact congrArg (fun a => maskOf a &&& binary64.ofRat 1) (H.le y x)
      | equal => exact congrArg (fun a => maskOf a &&& binary64.ofRat 1) (H.eq x y)
      | notequal => exact congrArg (fun a => maskOf (!a) &&& binary64.ofRat 1) (H.eq x y)
      | _ => exact absurd ho (by simp [BinCompare])
    | avx f =>
      cases op with
      | min => exact H.min x y
      | max => exact H.max x y
      | less => exact congrArg (fun a => maskOf a &&& binary64.ofRat 1) (H.lt x y)
      | lessEqual => exact congrArg (fun a => maskOf a &&& binary64.ofRat 1) (H.le x y)
      | greater => exact congrArg (fun a => maskOf (!a) &&& binary64.ofRat 1) (H.le x y)
      | greaterEqual => exact congrArg (fun a => maskOf (!a) &&& binary64.ofRat 1) (H.lt x y)
      | equal => exact congrArg (fun a => maskOf a &&& binary64.ofRat 1) (H.eq x y)
      | notequal => exact congrArg (fun a => maskOf (!a) &&& binary64.ofRat 1) (H.eq x y)
      | _ => exact absurd ho (by simp [BinCompare])
  abs x := by
    cases b with
    | generic => exact absurd rfl hb
    | _ => rfl

/-! ## Division -/

theorem div_none32 (b : Build32) (hb : b ≠ .generic) (P : Platform 32) {daz : Bool} {h : Hw 32}
    (H : Hw.Flushing binary32 daz true (b.hw P) h) (x y : BitVec 32) : ¬ binary32.Subnormal ((b.laneOn P h).div x y) := by
  cases b with
  | generic => exact absurd rfl hb
  | sse s f => exact (H.div x y).not_subnormal
  | avx f => exact (H.div x y).not_subnormal
  | neon => exact (H.mul x _).not_subnormal
  | altivec => exact (H.fma x _ _).not_subnormal

theorem div_flush32 (b : Build32) (hb : b ≠ .generic) (hd : divides b = true) (P : Platform 32) {daz ftz : Bool} {h : Hw 32}
    (H : Hw.Flushing binary32 daz ftz (b.hw P) h) (x y : BitVec 32) :
    binary32.FlushTo ftz ((b.lane P).div (binary32.operand daz x) (binary32.operand daz y)) ((b.laneOn P h).div x y) := by
  cases b with
  | generic => exact absurd rfl hb
  | sse s f => exact H.div x y
  | avx f => exact H.div x y
  | neon => exact absurd hd (by decide)
  | altivec => exact absurd hd (by decide)

theorem div_flush64 (b : Build64) (hb : b ≠ .generic) (P : Platform 64) {daz ftz : Bool} {h : Hw 64}
    (H : Hw.Flushing binary64 daz ftz (P.x86 binary64) h) (x y : BitVec 64) :
    binary64.FlushTo ftz ((b.lane P).div (binary64.operand daz x) (binary64.operand daz y)) ((b.laneOn P h).div x y) := by
  cases b with
  | generic => exact absurd rfl hb
  | _ => exact H.div x y

/-! ## `undenormalize` -/

theorem minPositive_code {w : Nat} (F : Fmt w) : F.code (Scalar.minPositive F) = 2 ^ F.mb :=
  F.code_pack _ (lt_trans F.pow_mb_lt_infCode F.infCode_lt)

theorem operand_minPositive {w : Nat} (F : Fmt w) (daz : Bool) :
    F.operand daz (Scalar.minPositive F) = Scalar.minPositive F := by
  have h : ¬ F.Subnormal (Scalar.minPositive F) := fun h => absurd h.2 (by rw [minPositive_code]; exact lt_irrefl _)
  unfold Fmt.operand Fmt.flush
  rw [if_neg h]
  simp

theorem operand_small {w : Nat} (F : Fmt w) (daz : Bool) (x : BitVec w) :
    F.code (F.operand daz x) < 2 ^ F.mb ↔ F.code x < 2 ^ F.mb := by
  unfold Fmt.operand
  cases daz
  · exact Iff.rfl
  · simp only [if_true]
    rw [Fmt.flush_code]
    by_cases h : F.Subnormal x
    · rw [if_pos h]; exact ⟨fun _ => h.2, fun _ => by positivity⟩
    · rw [if_neg h]

theorem operand_neg {w : Nat} (F : Fmt w) (daz : Bool) (x : BitVec w) : F.neg (F.operand daz x) = F.neg x := by
  unfold Fmt.operand
  cases daz
  · rfl
  · exact Fmt.flush_neg x

theorem vecUndenormalize_flush {w : Nat} (F : Fmt w) (V : LaneOps w) (daz : Bool) (ha : ∀ x, V.abs x = F.fabs x)
    (hm : ∀ x y, V.maskLt x y = maskOf (F.ltb (F.operand daz x) (F.operand daz y))) (hz : V.zero = F.posZero)
    (hsel : ∀ a b c, V.select a b (maskOf c) = if c then b else a) (x : BitVec w) :
    vecUndenormalize V (Scalar.minPositive F) x = if F.code x < 2 ^ F.mb then F.posZero else x := by
  unfold vecUndenormalize
  simp only [ha, hm, hsel, hz]
  rw [operand_minPositive, lt_minPositive F (by rw [operand_neg, F.neg_fabs])]
  simp only [operand_small, F.code_fabs]
  simp

theorem undenormalize_flush32 (b : Build32) (hb : b ≠ .generic) (hu : b.hasUndenormalize = true) (P : Platform 32)
    {daz ftz : Bool} {h : Hw 32} (H : Hw.Flushing binary32 daz ftz (b.hw P) h) (x : BitVec 32) :
    (b.laneOn P h).undenormalize x = (b.lane P).undenormalize x := by
  rw [undenormalize_lane32 b hu P, ← binary32.posZero_eq]
  have ab := (flushOps32 b hb P H).abs
  cases b with
  | generic => exact absurd rfl hb
  | sse s f =>
    exact vecUndenormalize_flush binary32 (Sse.ops f h) daz (fun x => (ab x).trans (abs_lane32 (.sse s f) P x))
      (fun x y => congrArg maskOf (H.lt x y)) binary32.posZero_eq.symm (fun a b c => sse_select _ a b c) x
  | avx f =>
    exact vecUndenormalize_flush binary32 (AvxF.ops f h) daz (fun x => (ab x).trans (abs_lane32 (.avx f) P x))
      (fun x y => congrArg maskOf (H.lt x y)) binary32.posZero_eq.symm (fun a b c => sse_select true a b c) x
  | neon => exact absurd hu (by decide)
  | altivec => exact absurd hu (by decide)

theorem undenormalize_flush64 (b : Build64) (hb : b ≠ .generic) (P : Platform 64)
    {daz ftz : Bool} {h : Hw 64} (H : Hw.Flushing binary64 daz ftz (P.x86 binary64) h) (x : BitVec 64) :
    (b.laneOn P h).undenormalize x = (b.lane P).undenormalize x := by
  rw [undenormalize_lane64 b P, ← binary64.posZero_eq]
  have ab := (flushOps64 b hb P H).abs
  cases b with
  | generic => exact absurd rfl hb
  | sse2 s f =>
    exact vecUndenormalize_flush binary64 (Dbl.ops ⟨false, s, f⟩ h) daz (fun x => (ab x).trans (abs_lane64 (.sse2 s f) P x))
      (fun x y => congrArg maskOf (H.lt x y)) binary64.posZero_eq.symm (fun a b c => dbl_select _ _ a b c) x
  | avx f =>
    exact vecUndenormalize_flush binary64 (Dbl.ops ⟨true, true, f⟩ h) daz (fun x => (ab x).trans (abs_lane64 (.avx f) P x))
      (fun x y => congrArg maskOf (H.lt x y)) binary64.posZero_eq.symm (fun a b c => dbl_select _ _ a b c) x

/-! ## Errors -/

namespace FP.Fmt
variable {w : Nat} {F : Fmt w}

/-- The least normal number. -/
noncomputable def least (F : Fmt w) : ℝ := 2 ^ F.mb / 2 ^ F.scale

theorem least_pos (F : Fmt w) : 0 < F.least := by unfold least; positivity

theorem least32 : binary32.least = 1 / 2 ^ 126 := by
  unfold least; rw [show binary32.scale = 149 by decide, show binary32.mb = 23 from rfl]; norm_num

theorem least64 : binary64.least = 1 / 2 ^ 1022 := by
  unfold least; rw [show binary64.scale = 1074 by decide, show binary64.mb = 52 from rfl]
  rw [show (1074 : ℕ) = 52 + 1022 from rfl, pow_add]; field_simp

theorem small_value {x : BitVec w} (h : F.code x ≤ 2 ^ F.mb) : |F.toReal x| ≤ F.least := by
  have hm : mag F.mb (F.code x) = F.code x := mag_small (h.trans (Nat.pow_le_pow_right (by decide) (by omega)))
  have hc : ((F.code x : ℕ) : ℝ) ≤ 2 ^ F.mb := by exact_mod_cast h
  unfold toReal least units
  rw [abs_div, abs_of_pos (show (0 : ℝ) < 2 ^ F.scale by positivity), hm]
  gcongr
  split
  · push_cast; rw [abs_neg, abs_of_nonneg (by positivity)]; exact hc
  · push_cast; rw [abs_of_nonneg (by positivity)]; exact hc

theorem zero_value (F : Fmt w) (s : Bool) : F.toReal (F.pack s 0) = 0 := by
  rw [F.toReal_pack s F.infCode_pos]; simp

theorem operand_cases (daz : Bool) (x : BitVec w) :
    F.operand daz x = x ∨ (F.toReal (F.operand daz x) = 0 ∧ |F.toReal x| ≤ F.least ∧ F.isFinite (F.operand daz x) = true) := by
  unfold operand
  cases daz
  · exact .inl rfl
  · simp only [if_true]
    by_cases h : F.Subnormal x
    · refine .inr ⟨?_, small_value h.2.le, ?_⟩
      · unfold flush; rw [if_pos h]; exact F.zero_value _
      · unfold flush; rw [if_pos h]; exact F.isFinite_pack _ F.infCode_pos
    · exact .inl (by unfold flush; rw [if_neg h])

theorem operand_finite (daz : Bool) {x : BitVec w} (h : F.isFinite x = true) : F.isFinite (F.operand daz x) = true := by
  rcases operand_cases (F := F) daz x with e | e
  · rwa [e]
  · exact e.2.2

theorem operand_error (daz : Bool) (x : BitVec w) : |F.toReal (F.operand daz x) - F.toReal x| ≤ F.least := by
  rcases operand_cases (F := F) daz x with e | e
  · rw [e, sub_self, abs_zero]; exact F.least_pos.le
  · rw [e.1, _root_.zero_sub, abs_neg]; exact e.2.1

theorem operand_abs (daz : Bool) (x : BitVec w) : |F.toReal (F.operand daz x)| ≤ |F.toReal x| := by
  rcases operand_cases (F := F) daz x with e | e
  · rw [e]
  · rw [e.1, abs_zero]; exact abs_nonneg _

theorem operand_mul_error (daz : Bool) (x y : BitVec w) :
    |F.toReal (F.operand daz x) * F.toReal (F.operand daz y) - F.toReal x * F.toReal y| ≤
      F.least * (|F.toReal x| + |F.toReal y|) := by
  have hp := F.least_pos
  rcases operand_cases (F := F) daz x with e | e
  · rcases operand_cases (F := F) daz y with e' | e'
    · rw [e, e', sub_self, abs_zero]; positivity
    · rw [e, e'.1, mul_zero, _root_.zero_sub, abs_neg, abs_mul]
      nlinarith [e'.2.1, abs_nonneg (F.toReal x), abs_nonneg (F.toReal y)]
  · rw [e.1, zero_mul, _root_.zero_sub, abs_neg, abs_mul]
    nlinarith [e.2.1, abs_nonneg (F.toReal x), abs_nonneg (F.toReal y)]

theorem FlushTo.error {ftz : Bool} {r r' : BitVec w} (h : F.FlushTo ftz r r') (f : F.isFinite r = true) :
    F.isFinite r' = true ∧ |F.toReal r' - F.toReal r| ≤ F.least := by
  rcases h with ⟨rfl, -⟩ | ⟨-, h, rfl⟩
  · exact ⟨f, by rw [sub_self, abs_zero]; exact F.least_pos.le⟩
  · refine ⟨F.isFinite_pack _ F.infCode_pos, ?_⟩
    rw [F.zero_value, _root_.zero_sub, abs_neg]; exact small_value h

theorem u_le (F : Fmt w) : F.u ≤ 1 / 2 := by
  unfold u
  rw [pow_succ]
  have : (1 : ℝ) ≤ 2 ^ F.mb := one_le_pow₀ (by norm_num)
  rw [div_le_div_iff₀ (by positivity) (by norm_num)]
  linarith

theorem eta_le (F : Fmt w) : F.eta ≤ F.least / 2 := by
  unfold eta least
  rw [pow_succ]
  have : (1 : ℝ) ≤ 2 ^ F.mb := one_le_pow₀ (by norm_num)
  rw [div_div, div_le_div_iff_of_pos_right (by positivity)]
  exact this

end FP.Fmt

section generic
variable {w : Nat} {F : Fmt w} {daz ftz : Bool}
open Fmt

/-- A sum of flushed operands, flushed. -/
theorem flush_sum {r : BitVec w} (a a' b b' v : ℝ) (hr : F.isFinite r = true) (ha : |a' - a| ≤ F.least)
    (hb : |b' - b| ≤ F.least) (hv : |v - (a' + b')| ≤ F.u * |a' + b'|) (h : |F.toReal r - v| ≤ F.least) :
    F.isFinite r = true ∧ |F.toReal r - (a + b)| ≤ F.u * |a + b| + 4 * F.least := by
  refine ⟨hr, ?_⟩
  have hu := F.u_le
  have hu0 := F.u_pos
  have hp := F.least_pos
  have e1 : |a' + b' - (a + b)| ≤ 2 * F.least := by
    calc _ = |(a' - a) + (b' - b)| := by ring_nf
      _ ≤ _ := (abs_add_le _ _).trans (by linarith)
  have e2 : |a' + b'| ≤ |a + b| + 2 * F.least := by
    have := abs_sub_abs_le_abs_sub (a' + b') (a + b)
    linarith
  have e3 : |F.toReal r - (a + b)| ≤ |F.toReal r - v| + |v - (a' + b')| + |a' + b' - (a + b)| := by
    calc _ = |(F.toReal r - v) + (v - (a' + b')) + (a' + b' - (a + b))| := by ring_nf
      _ ≤ _ := (abs_add_le _ _).trans (by gcongr; exact abs_add_le _ _)
  nlinarith [mul_le_mul_of_nonneg_left e2 hu0.le]

theorem flush_add_error {A0 A : BitVec w → BitVec w → BitVec w}
    (H : ∀ x y, F.FlushTo ftz (A0 (F.operand daz x) (F.operand daz y)) (A x y)) (h0 : A0 = F.add) {x y : BitVec w}
    (hx : F.isFinite x = true) (hy : F.isFinite y = true) (h : |F.toReal x| + |F.toReal y| ≤ 2 ^ F.bias) :
    F.isFinite (A x y) = true ∧
      |F.toReal (A x y) - (F.toReal x + F.toReal y)| ≤ F.u * |F.toReal x + F.toReal y| + 4 * F.least := by
  have N := F.add_near (operand_finite daz hx) (operand_finite daz hy)
    ((abs_add_le _ _).trans ((add_le_add (operand_abs daz x) (operand_abs daz y)).trans h))
  have h1 := H x y
  rw [h0] at h1
  have E := h1.error N.1
  exact flush_sum _ _ _ _ _ E.1 (operand_error daz x) (operand_error daz y) N.2 E.2

theorem flush_sub_error {A0 A : BitVec w → BitVec w → BitVec w}
    (H : ∀ x y, F.FlushTo ftz (A0 (F.operand daz x) (F.operand daz y)) (A x y)) (h0 : A0 = F.sub) {x y : BitVec w}
    (hx : F.isFinite x = true) (hy : F.isFinite y = true) (h : |F.toReal x| + |F.toReal y| ≤ 2 ^ F.bias) :
    F.isFinite (A x y) = true ∧
      |F.toReal (A x y) - (F.toReal x - F.toReal y)| ≤ F.u * |F.toReal x - F.toReal y| + 4 * F.least := by
  have N := F.sub_near (operand_finite daz hx) (operand_finite daz hy)
    ((abs_sub _ _).trans ((add_le_add (operand_abs daz x) (operand_abs daz y)).trans h))
  have h1 := H x y
  rw [h0] at h1
  have E := h1.error N.1
  have := flush_sum (F.toReal x) (F.toReal (F.operand daz x)) (-F.toReal y) (-F.toReal (F.operand daz y)) _ E.1
    (operand_error daz x) (by rw [neg_sub_neg, abs_sub_comm]; exact operand_error daz y) N.2 E.2
  exact this

theorem flush_mul_error {A0 A : BitVec w → BitVec w → BitVec w}
    (H : ∀ x y, F.FlushTo ftz (A0 (F.operand daz x) (F.operand daz y)) (A x y))
    (h0 : ∀ x y, F.isFinite x = true → F.isFinite y = true → |F.toReal x * F.toReal y| ≤ 2 ^ F.bias →
      F.Near (F.toReal x * F.toReal y) (A0 x y)) {x y : BitVec w}
    (hx : F.isFinite x = true) (hy : F.isFinite y = true) (h : |F.toReal x * F.toReal y| ≤ 2 ^ F.bias) :
    F.isFinite (A x y) = true ∧
      |F.toReal (A x y) - F.toReal x * F.toReal y| ≤
        F.u * |F.toReal x * F.toReal y| + F.least * (|F.toReal x| + |F.toReal y| + 2) := by
  have hle : |F.toReal (F.operand daz x) * F.toReal (F.operand daz y)| ≤ |F.toReal x * F.toReal y| := by
    rw [abs_mul, abs_mul]
    exact mul_le_mul (operand_abs daz x) (operand_abs daz y) (abs_nonneg _) (abs_nonneg _)
  have N := h0 _ _ (operand_finite daz hx) (operand_finite daz hy) (hle.trans h)
  have E := (H x y).error N.1
  refine ⟨E.1, ?_⟩
  have M := operand_mul_error (F := F) daz x y
  have hN := N.2
  set v := F.toReal (A0 (F.operand daz x) (F.operand daz y))
  set p := F.toReal (F.operand daz x) * F.toReal (F.operand daz y)
  have e3 : |F.toReal (A x y) - F.toReal x * F.toReal y| ≤
      |F.toReal (A x y) - v| + |v - p| + |p - F.toReal x * F.toReal y| := by
    calc _ = |(F.toReal (A x y) - v) + (v - p) + (p - F.toReal x * F.toReal y)| := by ring_nf
      _ ≤ _ := (abs_add_le _ _).trans (by gcongr; exact abs_add_le _ _)
  have e4 : max (F.u * |p|) F.eta ≤ F.u * |F.toReal x * F.toReal y| + F.least := by
    have := F.u_pos
    have := F.eta_le
    have := F.least_pos
    apply max_le
    · have := mul_le_mul_of_nonneg_left hle F.u_pos.le
      linarith
    · have : 0 ≤ F.u * |F.toReal x * F.toReal y| := by positivity
      linarith
  linarith [E.2]

end generic

theorem lane_mul_near32 (b : Build32) (P : Platform 32) (x y : BitVec 32) (hx : binary32.isFinite x = true)
    (hy : binary32.isFinite y = true) (h : |binary32.toReal x * binary32.toReal y| ≤ 2 ^ binary32.bias) :
    binary32.Near (binary32.toReal x * binary32.toReal y) ((b.lane P).mul x y) := by
  by_cases hb : multiplies b = true
  · rw [lane_mul32' b hb]; exact binary32.mul_near hx hy h
  · cases b <;> first | exact absurd rfl hb | skip
    rw [altivec_mul]
    have hz : binary32.toReal binary32.posZero = 0 := binary32.zero_value false
    have := binary32.fma_near hx hy (binary32.isFinite_pack false binary32.infCode_pos)
      (z := binary32.posZero) (by rw [hz, add_zero]; exact h)
    rwa [hz, add_zero] at this

end Nova
