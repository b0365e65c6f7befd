import Verif.Lemmas.ContractMix
import Verif.Lemmas.BasicFinal
import Verif.Lemmas.UnitFinal
import Verif.Lemmas.Flush
import Verif.Props.C76_Accuracy

/-!
# C103: mixing and metering are accurate to a few roundings, fused or not

For `float` and `double`, scalar and SIMD versions of the functions with three and four arguments, and the meter that adds
squares.  `c` tells whether the compiler may evaluate a product and the sum which uses it with one rounding.
-/

namespace Nova
open FP Spec

theorem Build32.mixOps (b : Build32) (P : Platform 32) : MixOps binary32 (b.lane P) where
  add := fun a c => by rw [lane_add32]
  mul := by
    intro x y hx hy h
    have hm := Fmt.mul_near (F := binary32) hx hy h
    cases b with
    | altivec =>
      have h0 : binary32.toReal 0#32 = 0 := by
        have := isVal_value (x := 0#32) (q := 0) (by decide +kernel)
        exact_mod_cast this
      have := Fmt.fma_near hx hy (show IsFin binary32 0#32 by decide) (by rw [h0, add_zero]; exact h)
      rw [h0, add_zero] at this
      exact this
    | _ => exact hm
  madd := by
    intro x y z
    cases b with
    | generic => exact .inl rfl
    | sse s f => rw [lane_madd_sse]; cases f.fma <;> simp
    | avx f => rw [lane_madd_avx]; cases f <;> simp
    | neon => exact .inr (.inl rfl)
    | altivec => exact .inr (.inr rfl)
  one := by
    rw [lane_one32]
    refine ⟨by decide, ?_⟩
    have := isVal_value (x := 0x3f800000#32) (q := 1) (by decide +kernel)
    exact_mod_cast this

theorem lane_madd_sse2 (s f : Bool) (P : Platform 64) (x y z : BitVec 64) :
    ((Build64.sse2 s f).lane P).madd x y z = if f then binary64.fma x y z else binary64.add (binary64.mul x y) z := rfl
theorem lane_madd_avx64 (f : Bool) (P : Platform 64) (x y z : BitVec 64) :
    ((Build64.avx f).lane P).madd x y z = if f then binary64.fma x y z else binary64.add (binary64.mul x y) z := rfl

theorem Build64.mixOps (b : Build64) (P : Platform 64) : MixOps binary64 (b.lane P) where
  add := fun a c => by cases b <;> rfl
  mul := by
    intro x y hx hy h
    have hm := Fmt.mul_near (F := binary64) hx hy h
    cases b <;> exact hm
  madd := by
    intro x y z
    cases b with
    | generic => exact .inl rfl
    | sse2 s f => rw [lane_madd_sse2]; cases f <;> simp
    | avx f => rw [lane_madd_avx64]; cases f <;> simp
  one := by
    rw [lane_one64']
    refine ⟨by decide, ?_⟩
    have : binary64.units 0x3ff0000000000000#64 = 2 ^ binary64.scale := by decide +kernel
    unfold Fmt.toReal
    rw [this]
    push_cast
    exact div_self (by positivity)

/-! ## One element -/

/-- Three `float` arguments: SIMD and scalar. -/
theorem C103_ternary_float (c : Bool) (b : Build32) (P : Platform 32) {op : TerOp} {x y z : BitVec 32} (hx : IsFin binary32 x)
    (hy : IsFin binary32 y) (hz : IsFin binary32 z) {M : Mix}
    (hM : terMix binary32 op (binary32.toReal x) (binary32.toReal y) (binary32.toReal z) = some M)
    (hr : TerFits binary32 op (binary32.toReal x) (binary32.toReal y) (binary32.toReal z) M) :
    (∀ r ∈ Contract.mix3 binary32 c (b.lane P) op x y z, M.Accurate binary32 r) ∧
    (∀ r ∈ Contract.mix3 binary32 c (Build32.scalar P) op x y z, M.Accurate binary32 r) :=
  ⟨fun _ h => (b.mixOps P).ternary hx hy hz hM hr h, fun _ h => (Build32.generic.mixOps P).ternary hx hy hz hM hr h⟩

/-- Three `double` arguments. -/
theorem C103_ternary_double (c : Bool) (b : Build64) (P : Platform 64) {op : TerOp} {x y z : BitVec 64} (hx : IsFin binary64 x)
    (hy : IsFin binary64 y) (hz : IsFin binary64 z) {M : Mix}
    (hM : terMix binary64 op (binary64.toReal x) (binary64.toReal y) (binary64.toReal z) = some M)
    (hr : TerFits binary64 op (binary64.toReal x) (binary64.toReal y) (binary64.toReal z) M) :
    (∀ r ∈ Contract.mix3 binary64 c (b.lane P) op x y z, M.Accurate binary64 r) ∧
    (∀ r ∈ Contract.mix3 binary64 c (Build64.scalar P) op x y z, M.Accurate binary64 r) :=
  ⟨fun _ h => (b.mixOps P).ternary hx hy hz hM hr h, fun _ h => (Build64.generic.mixOps P).ternary hx hy hz hM hr h⟩

/-- Four `float` arguments. -/
theorem C103_quad_float (c : Bool) (b : Build32) (P : Platform 32) {op : QuadOp} {x y z u : BitVec 32} (hx : IsFin binary32 x)
    (hy : IsFin binary32 y) (hz : IsFin binary32 z) (hu : IsFin binary32 u)
    (hr : (quadMix binary32 op (binary32.toReal x) (binary32.toReal y) (binary32.toReal z) (binary32.toReal u)).Fits binary32) :
    (∀ r ∈ Contract.mix4 binary32 c (b.lane P) op x y z u,
      (quadMix binary32 op (binary32.toReal x) (binary32.toReal y) (binary32.toReal z) (binary32.toReal u)).Accurate
        binary32 r) ∧
    (∀ r ∈ Contract.mix4 binary32 c (Build32.scalar P) op x y z u,
      (quadMix binary32 op (binary32.toReal x) (binary32.toReal y) (binary32.toReal z) (binary32.toReal u)).Accurate
        binary32 r) :=
  ⟨fun _ h => (b.mixOps P).quad hx hy hz hu hr h, fun _ h => (Build32.generic.mixOps P).quad hx hy hz hu hr h⟩

/-- Four `double` arguments. -/
theorem C103_quad_double (c : Bool) (b : Build64) (P : Platform 64) {op : QuadOp} {x y z u : BitVec 64} (hx : IsFin binary64 x)
    (hy : IsFin binary64 y) (hz : IsFin binary64 z) (hu : IsFin binary64 u)
    (hr : (quadMix binary64 op (binary64.toReal x) (binary64.toReal y) (binary64.toReal z) (binary64.toReal u)).Fits binary64) :
    (∀ r ∈ Contract.mix4 binary64 c (b.lane P) op x y z u,
      (quadMix binary64 op (binary64.toReal x) (binary64.toReal y) (binary64.toReal z) (binary64.toReal u)).Accurate
        binary64 r) ∧
    (∀ r ∈ Contract.mix4 binary64 c (Build64.scalar P) op x y z u,
      (quadMix binary64 op (binary64.toReal x) (binary64.toReal y) (binary64.toReal z) (binary64.toReal u)).Accurate
        binary64 r) :=
  ⟨fun _ h => (b.mixOps P).quad hx hy hz hu hr h, fun _ h => (Build64.generic.mixOps P).quad hx hy hz hu hr h⟩

/-- The text without fusing is one of the possibilities, and the only one without contraction. -/
theorem C103_off {w : Nat} (F : Fmt w) (c : Bool) (A : Arith (BitVec w)) (op : TerOp) (op' : QuadOp) (x y z u : BitVec w) :
    op.f A x y z ∈ Contract.mix3 F c A op x y z ∧ op'.f A x y z u ∈ Contract.mix4 F c A op' x y z u ∧
    Contract.mix3 F false A op x y z = [op.f A x y z] ∧ Contract.mix4 F false A op' x y z u = [op'.f A x y z u] :=
  ⟨List.mem_cons_self, List.mem_cons_self, rfl, rfl⟩

/-! ## Whole calls

`f` is the function that the compiled loop body computes for one element: any function all of whose values are possible. -/

/-- `muladd_vec`, `ampmod_vec`, `sum_vec` of `float`s and the SIMD versions. -/
theorem C103_ternary_calls_float (ct : Bool) (bd : Build32) (P : Platform 32) (op : TerOp)
    {f g : BitVec 32 → BitVec 32 → BitVec 32 → BitVec 32}
    (hf : ∀ x y z, f x y z ∈ Contract.mix3 binary32 ct (Build32.scalar P) op x y z)
    (hg : ∀ x y z, g x y z ∈ Contract.mix3 binary32 ct (bd.lane P) op x y z)
    {m : Mem (BitVec 32)} {out : Nat} {a b c : SArg (BitVec 32)} {n : BitVec 32} {x y z : Nat → BitVec 32} {M : Nat → Mix}
    (hn : 0 < n.toNat) (hout : Allocated m out n.toNat)
    (hx : ∀ i, i < n.toNat → IsFin binary32 (x i) ∧ IsFin binary32 (y i) ∧ IsFin binary32 (z i) ∧
      terMix binary32 op (binary32.toReal (x i)) (binary32.toReal (y i)) (binary32.toReal (z i)) = some (M i) ∧
      TerFits binary32 op (binary32.toReal (x i)) (binary32.toReal (y i)) (binary32.toReal (z i)) (M i)) :
    (ScalarSupplies (Build32.scalar P) m out n.toNat a x → ScalarSupplies (Build32.scalar P) m out n.toNat b y →
      ScalarSupplies (Build32.scalar P) m out n.toNat c z →
      ∃ r : Nat → BitVec 32, performVec3 (Build32.scalar P) f out a b c n m = .ok ((), overwrite m out n.toNat r) ∧
        ∀ i, i < n.toNat → (M i).Accurate binary32 (r i)) ∧
    (bd.target.perLine ∣ n.toNat → bd.target.align ∣ out → SimdSupplies (bd.vec P) bd.target.align m out n.toNat a x →
      SimdSupplies (bd.vec P) bd.target.align m out n.toNat b y → SimdSupplies (bd.vec P) bd.target.align m out n.toNat c z →
      ∃ r : Nat → BitVec 32, performVecSimd3 (bd.vec P) g out a b c n m = .ok ((), overwrite m out n.toNat r) ∧
        ∀ i, i < n.toNat → (M i).Accurate binary32 (r i)) := by
  constructor
  · intro ha hb hc
    exact ⟨_, performVec3_spec hn hout ha hb hc, fun i h => (C103_ternary_float ct bd P (hx i h).1 (hx i h).2.1 (hx i h).2.2.1
      (hx i h).2.2.2.1 (hx i h).2.2.2.2).2 _ (hf _ _ _)⟩
  · intro hmul hoal ha hb hc
    refine ⟨fun i => g (x i) (y i) (z i), ?_, fun i h => (C103_ternary_float ct bd P (hx i h).1 (hx i h).2.1 (hx i h).2.2.1
      (hx i h).2.2.2.1 (hx i h).2.2.2.2).1 _ (hg _ _ _)⟩
    have hp := processed_eq bd.target (bd.env P) hmul
    rw [← hp] at hout ha hb hc ⊢
    exact performVecSimd3_spec (bd.target.lawful (bd.env P)) (perLine_le bd.target (bd.env P) hn hmul) hoal hout ha hb hc

/-- The same functions of `double`s. -/
theorem C103_ternary_calls_double (ct : Bool) (bd : Build64) (P : Platform 64) (op : TerOp)
    {f g : BitVec 64 → BitVec 64 → BitVec 64 → BitVec 64}
    (hf : ∀ x y z, f x y z ∈ Contract.mix3 binary64 ct (Build64.scalar P) op x y z)
    (hg : ∀ x y z, g x y z ∈ Contract.mix3 binary64 ct (bd.lane P) op x y z)
    {m : Mem (BitVec 64)} {out : Nat} {a b c : SArg (BitVec 64)} {n : BitVec 32} {x y z : Nat → BitVec 64} {M : Nat → Mix}
    (hn : 0 < n.toNat) (hout : Allocated m out n.toNat)
    (hx : ∀ i, i < n.toNat → IsFin binary64 (x i) ∧ IsFin binary64 (y i) ∧ IsFin binary64 (z i) ∧
      terMix binary64 op (binary64.toReal (x i)) (binary64.toReal (y i)) (binary64.toReal (z i)) = some (M i) ∧
      TerFits binary64 op (binary64.toReal (x i)) (binary64.toReal (y i)) (binary64.toReal (z i)) (M i)) :
    (ScalarSupplies (Build64.scalar P) m out n.toNat a x → ScalarSupplies (Build64.scalar P) m out n.toNat b y →
      ScalarSupplies (Build64.scalar P) m out n.toNat c z →
      ∃ r : Nat → BitVec 64, performVec3 (Build64.scalar P) f out a b c n m = .ok ((), overwrite m out n.toNat r) ∧
        ∀ i, i < n.toNat → (M i).Accurate binary64 (r i)) ∧
    (bd.target.perLine ∣ n.toNat → bd.target.align ∣ out → SimdSupplies (bd.vec P) bd.target.align m out n.toNat a x →
      SimdSupplies (bd.vec P) bd.target.align m out n.toNat b y → SimdSupplies (bd.vec P) bd.target.align m out n.toNat c z →
      ∃ r : Nat → BitVec 64, performVecSimd3 (bd.vec P) g out a b c n m = .ok ((), overwrite m out n.toNat r) ∧
        ∀ i, i < n.toNat → (M i).Accurate binary64 (r i)) := by
  constructor
  · intro ha hb hc
    exact ⟨_, performVec3_spec hn hout ha hb hc, fun i h => (C103_ternary_double ct bd P (hx i h).1 (hx i h).2.1 (hx i h).2.2.1
      (hx i h).2.2.2.1 (hx i h).2.2.2.2).2 _ (hf _ _ _)⟩
  · intro hmul hoal ha hb hc
    refine ⟨fun i => g (x i) (y i) (z i), ?_, fun i h => (C103_ternary_double ct bd P (hx i h).1 (hx i h).2.1 (hx i h).2.2.1
      (hx i h).2.2.2.1 (hx i h).2.2.2.2).1 _ (hg _ _ _)⟩
    have hp := processed_eq bd.target (bd.env P) hmul
    rw [← hp] at hout ha hb hc ⊢
    exact performVecSimd3_spec (bd.target.lawful (bd.env P)) (perLine_le bd.target (bd.env P) hn hmul) hoal hout ha hb hc

/-- `mix_vec` and `sum_vec` of four `float` arguments and the SIMD versions. -/
theorem C103_quad_calls_float (ct : Bool) (bd : Build32) (P : Platform 32) (op : QuadOp)
    {f g : BitVec 32 → BitVec 32 → BitVec 32 → BitVec 32 → BitVec 32}
    (hf : ∀ x y z u, f x y z u ∈ Contract.mix4 binary32 ct (Build32.scalar P) op x y z u)
    (hg : ∀ x y z u, g x y z u ∈ Contract.mix4 binary32 ct (bd.lane P) op x y z u)
    {m : Mem (BitVec 32)} {out : Nat} {a b c d : SArg (BitVec 32)} {n : BitVec 32} {x y z u : Nat → BitVec 32}
    (hn : 0 < n.toNat) (hout : Allocated m out n.toNat)
    (hx : ∀ i, i < n.toNat → IsFin binary32 (x i) ∧ IsFin binary32 (y i) ∧ IsFin binary32 (z i) ∧ IsFin binary32 (u i) ∧
      (quadMix binary32 op (binary32.toReal (x i)) (binary32.toReal (y i)) (binary32.toReal (z i))
        (binary32.toReal (u i))).Fits binary32) :
    (ScalarSupplies (Build32.scalar P) m out n.toNat a x → ScalarSupplies (Build32.scalar P) m out n.toNat b y →
      ScalarSupplies (Build32.scalar P) m out n.toNat c z → ScalarSupplies (Build32.scalar P) m out n.toNat d u →
      ∃ r : Nat → BitVec 32, performVec4 (Build32.scalar P) f out a b c d n m = .ok ((), overwrite m out n.toNat r) ∧
        ∀ i, i < n.toNat → (quadMix binary32 op (binary32.toReal (x i)) (binary32.toReal (y i)) (binary32.toReal (z i))
          (binary32.toReal (u i))).Accurate binary32 (r i)) ∧
    (bd.target.perLine ∣ n.toNat → bd.target.align ∣ out → SimdSupplies (bd.vec P) bd.target.align m out n.toNat a x →
      SimdSupplies (bd.vec P) bd.target.align m out n.toNat b y → SimdSupplies (bd.vec P) bd.target.align m out n.toNat c z →
      SimdSupplies (bd.vec P) bd.target.align m out n.toNat d u →
      ∃ r : Nat → BitVec 32, performVecSimd4 (bd.vec P) g out a b c d n m = .ok ((), overwrite m out n.toNat r) ∧
        ∀ i, i < n.toNat → (quadMix binary32 op (binary32.toReal (x i)) (binary32.toReal (y i)) (binary32.toReal (z i))
          (binary32.toReal (u i))).Accurate binary32 (r i)) := by
  constructor
  · intro ha hb hc hd
    exact ⟨_, performVec4_spec hn hout ha hb hc hd, fun i h => (C103_quad_float ct bd P (hx i h).1 (hx i h).2.1 (hx i h).2.2.1
      (hx i h).2.2.2.1 (hx i h).2.2.2.2).2 _ (hf _ _ _ _)⟩
  · intro hmul hoal ha hb hc hd
    refine ⟨fun i => g (x i) (y i) (z i) (u i), ?_, fun i h => (C103_quad_float ct bd P (hx i h).1 (hx i h).2.1 (hx i h).2.2.1
      (hx i h).2.2.2.1 (hx i h).2.2.2.2).1 _ (hg _ _ _ _)⟩
    have hp := processed_eq bd.target (bd.env P) hmul
    rw [← hp] at hout ha hb hc hd ⊢
    exact performVecSimd4_spec (bd.target.lawful (bd.env P)) (perLine_le bd.target (bd.env P) hn hmul) hoal hout ha hb hc hd

/-- The same functions of `double`s. -/
theorem C103_quad_calls_double (ct : Bool) (bd : Build64) (P : Platform 64) (op : QuadOp)
    {f g : BitVec 64 → BitVec 64 → BitVec 64 → BitVec 64 → BitVec 64}
    (hf : ∀ x y z u, f x y z u ∈ Contract.mix4 binary64 ct (Build64.scalar P) op x y z u)
    (hg : ∀ x y z u, g x y z u ∈ Contract.mix4 binary64 ct (bd.lane P) op x y z u)
    {m : Mem (BitVec 64)} {out : Nat} {a b c d : SArg (BitVec 64)} {n : BitVec 32} {x y z u : Nat → BitVec 64}
    (hn : 0 < n.toNat) (hout : Allocated m out n.toNat)
    (hx : ∀ i, i < n.toNat → IsFin binary64 (x i) ∧ IsFin binary64 (y i) ∧ IsFin binary64 (z i) ∧ IsFin binary64 (u i) ∧
      (quadMix binary64 op (binary64.toReal (x i)) (binary64.toReal (y i)) (binary64.toReal (z i))
        (binary64.toReal (u i))).Fits binary64) :
    (ScalarSupplies (Build64.scalar P) m out n.toNat a x → ScalarSupplies (Build64.scalar P) m out n.toNat b y →
      ScalarSupplies (Build64.scalar P) m out n.toNat c z → ScalarSupplies (Build64.scalar P) m out n.toNat d u →
      ∃ r : Nat → BitVec 64, performVec4 (Build64.scalar P) f out a b c d n m = .ok ((), overwrite m out n.toNat r) ∧
        ∀ i, i < n.toNat → (quadMix binary64 op (binary64.toReal (x i)) (binary64.toReal (y i)) (binary64.toReal (z i))
          (binary64.toReal (u i))).Accurate binary64 (r i)) ∧
    (bd.target.perLine ∣ n.toNat → bd.target.align ∣ out → SimdSupplies (bd.vec P) bd.target.align m out n.toNat a x →
      SimdSupplies (bd.vec P) bd.target.align m out n.toNat b y → SimdSupplies (bd.vec P) bd.target.align m out n.toNat c z →
      SimdSupplies (bd.vec P) bd.target.align m out n.toNat d u →
      ∃ r : Nat → BitVec 64, performVecSimd4 (bd.vec P) g out a b c d n m = .ok ((), overwrite m out n.toNat r) ∧
        ∀ i, i < n.toNat → (quadMix binary64 op (binary64.toReal (x i)) (binary64.toReal (y i)) (binary64.toReal (z i))
          (binary64.toReal (u i))).Accurate binary64 (r i)) := by
  constructor
  · intro ha hb hc hd
    exact ⟨_, performVec4_spec hn hout ha hb hc hd, fun i h => (C103_quad_double ct bd P (hx i h).1 (hx i h).2.1 (hx i h).2.2.1
      (hx i h).2.2.2.1 (hx i h).2.2.2.2).2 _ (hf _ _ _ _)⟩
  · intro hmul hoal ha hb hc hd
    refine ⟨fun i => g (x i) (y i) (z i) (u i), ?_, fun i h => (C103_quad_double ct bd P (hx i h).1 (hx i h).2.1 (hx i h).2.2.1
      (hx i h).2.2.2.1 (hx i h).2.2.2.2).1 _ (hg _ _ _ _)⟩
    have hp := processed_eq bd.target (bd.env P) hmul
    rw [← hp] at hout ha hb hc hd ⊢
    exact performVecSimd4_spec (bd.target.lawful (bd.env P)) (perLine_le bd.target (bd.env P) hn hmul) hoal hout ha hb hc hd

/-! ## The meters -/

/-- `peak_rms_vec` of `float`s: the squares are added, each with one rounding or with two. -/
theorem C103_rms_float (c : Bool) (b : Build32) (P : Platform 32) {q : Nat → BitVec 32 → BitVec 32 → BitVec 32}
    (hq : ∀ k s x, q k s x ∈ Contract.squareAdd binary32 c s x) {m : Mem (BitVec 32)} {inp peak sq : Nat} {n : BitVec 32}
    {x : ℕ → BitVec 32} {p0 s0 : BitVec 32} (hn : 0 < n.toNat) (hx : Holds m inp n.toNat x)
    (hp : m peak = some p0) (hs : m sq = some s0) (hs0 : IsFin binary32 s0) (hf : ∀ i < n.toNat, IsFin binary32 (x i))
    (hr : SquareSumOk binary32 (n.toNat + 1) (binary32.toReal s0) (fun i => binary32.toReal (x i)) n.toNat) :
    ∃ p r, Contract.peakRmsVec (b.env P) q inp peak sq n m =
        .ok ((), overwrite (overwrite m peak 1 fun _ => p) sq 1 fun _ => r) ∧
      IsSquareSum binary32 (n.toNat + 1) (binary32.toReal s0) (fun i => binary32.toReal (x i)) n.toNat r :=
  ⟨_, _, Contract.peakRms_ok (b.env P) q hn hx hp hs, squares_seq hq (acc := squareSeq q s0 x) hs0 (fun _ => rfl) hf hr⟩

/-- `peak_rms_vec_simd` of `float`s, in all builds but AVX (which starts from uninitialised lanes, C26). -/
theorem C103_rms_simd_float (c : Bool) (b : Build32) (hb : ∀ fma, b ≠ .avx fma) (P : Platform 32)
    {q : Nat → Nat → BitVec 32 → BitVec 32 → BitVec 32 → BitVec 32 → BitVec 32}
    (hq : ∀ k l x0 x1 x2 x3, q k l x0 x1 x2 x3 ∈ Contract.fourSquares binary32 c x0 x1 x2 x3) {m : Mem (BitVec 32)}
    {inp peak sq : Nat} {n : BitVec 32} {x : ℕ → BitVec 32} {p0 s0 : BitVec 32} (hn : 0 < n.toNat)
    (hd : 4 * b.target.size ∣ n.toNat) (hal : b.target.align ∣ inp) (hx : Holds m inp n.toNat x)
    (hp : m peak = some p0) (hs : m sq = some s0) (hs0 : IsFin binary32 s0) (hf : ∀ i < n.toNat, IsFin binary32 (x i))
    (hr : SquareSumOk binary32 (n.toNat / (4 * b.target.size) + 4 + b.target.size) (binary32.toReal s0)
      (fun i => binary32.toReal (x i)) n.toNat) :
    ∃ p r, Contract.peakRmsVecSimd (b.vec P) q inp peak sq n m =
        .ok ((), overwrite (overwrite m peak 1 fun _ => p) sq 1 fun _ => r) ∧
      IsSquareSum binary32 (n.toNat / (4 * b.target.size) + 4 + b.target.size) (binary32.toReal s0)
        (fun i => binary32.toReal (x i)) n.toNat r := by
  have ht : b.target ≠ .avxFloat ∧ b.target ≠ .avxDouble := by
    cases b <;> first | exact absurd rfl (hb _) | exact ⟨by simp [Build32.target], by simp [Build32.target]⟩
  have hn' : 4 * (b.target.vec (b.env P)).size ≤ n.toNat := by
    rw [b.target.vec_size]; exact Nat.le_of_dvd hn hd
  have h := Contract.peakRmsSimd_ok (b.target.lawful (b.env P)) hal (b.target.four_size_small (b.env P)) hn' hx q
    (C32_load_first_partial b.target (b.env P) ht hp) (C32_load_first_partial b.target (b.env P) ht hs)
    (by rw [hp]; rfl) (by rw [hs]; rfl)
  exact ⟨_, _, h, squares_lanes (b.adds P) b.target (fun k l _ _ _ _ h0 h1 h2 h3 hr => fourSquares_acc h0 h1 h2 h3 hr (hq _ _ _ _ _ _))
    hd hs0 hf hr⟩

/-- `peak_rms_vec` of `double`s: the squares are added, each with one rounding or with two. -/
theorem C103_rms_double (c : Bool) (b : Build64) (P : Platform 64) {q : Nat → BitVec 64 → BitVec 64 → BitVec 64}
    (hq : ∀ k s x, q k s x ∈ Contract.squareAdd binary64 c s x) {m : Mem (BitVec 64)} {inp peak sq : Nat} {n : BitVec 32}
    {x : ℕ → BitVec 64} {p0 s0 : BitVec 64} (hn : 0 < n.toNat) (hx : Holds m inp n.toNat x)
    (hp : m peak = some p0) (hs : m sq = some s0) (hs0 : IsFin binary64 s0) (hf : ∀ i < n.toNat, IsFin binary64 (x i))
    (hr : SquareSumOk binary64 (n.toNat + 1) (binary64.toReal s0) (fun i => binary64.toReal (x i)) n.toNat) :
    ∃ p r, Contract.peakRmsVec (b.env P) q inp peak sq n m =
        .ok ((), overwrite (overwrite m peak 1 fun _ => p) sq 1 fun _ => r) ∧
      IsSquareSum binary64 (n.toNat + 1) (binary64.toReal s0) (fun i => binary64.toReal (x i)) n.toNat r :=
  ⟨_, _, Contract.peakRms_ok (b.env P) q hn hx hp hs, squares_seq hq (acc := squareSeq q s0 x) hs0 (fun _ => rfl) hf hr⟩

/-- `peak_rms_vec_simd` of `double`s, in all builds but AVX (which starts from uninitialised lanes, C26). -/
theorem C103_rms_simd_double (c : Bool) (b : Build64) (hb : ∀ fma, b ≠ .avx fma) (P : Platform 64)
    {q : Nat → Nat → BitVec 64 → BitVec 64 → BitVec 64 → BitVec 64 → BitVec 64}
    (hq : ∀ k l x0 x1 x2 x3, q k l x0 x1 x2 x3 ∈ Contract.fourSquares binary64 c x0 x1 x2 x3) {m : Mem (BitVec 64)}
    {inp peak sq : Nat} {n : BitVec 32} {x : ℕ → BitVec 64} {p0 s0 : BitVec 64} (hn : 0 < n.toNat)
    (hd : 4 * b.target.size ∣ n.toNat) (hal : b.target.align ∣ inp) (hx : Holds m inp n.toNat x)
    (hp : m peak = some p0) (hs : m sq = some s0) (hs0 : IsFin binary64 s0) (hf : ∀ i < n.toNat, IsFin binary64 (x i))
    (hr : SquareSumOk binary64 (n.toNat / (4 * b.target.size) + 4 + b.target.size) (binary64.toReal s0)
      (fun i => binary64.toReal (x i)) n.toNat) :
    ∃ p r, Contract.peakRmsVecSimd (b.vec P) q inp peak sq n m =
        .ok ((), overwrite (overwrite m peak 1 fun _ => p) sq 1 fun _ => r) ∧
      IsSquareSum binary64 (n.toNat / (4 * b.target.size) + 4 + b.target.size) (binary64.toReal s0)
        (fun i => binary64.toReal (x i)) n.toNat r := by
  have ht : b.target ≠ .avxFloat ∧ b.target ≠ .avxDouble := by
    cases b <;> first | exact absurd rfl (hb _) | exact ⟨by simp [Build64.target], by simp [Build64.target]⟩
  have hn' : 4 * (b.target.vec (b.env P)).size ≤ n.toNat := by
    rw [b.target.vec_size]; exact Nat.le_of_dvd hn hd
  have h := Contract.peakRmsSimd_ok (b.target.lawful (b.env P)) hal (b.target.four_size_small (b.env P)) hn' hx q
    (C32_load_first_partial b.target (b.env P) ht hp) (C32_load_first_partial b.target (b.env P) ht hs)
    (by rw [hp]; rfl) (by rw [hs]; rfl)
  exact ⟨_, _, h, squares_lanes (b.adds P) b.target (fun k l _ _ _ _ h0 h1 h2 h3 hr => fourSquares_acc h0 h1 h2 h3 hr (hq _ _ _ _ _ _))
    hd hs0 hf hr⟩

/-- The meter as written is one of the possibilities: with separate roundings this model and the one of C23 to C26 agree. -/
theorem C103_off_meter {α : Type} (E : Env α) {m : Mem α} {inp peak sq : Nat} {n : BitVec 32} {x : Nat → α} {p0 s0 : α}
    (hn : 0 < n.toNat) (hx : Holds m inp n.toNat x) (hp : m peak = some p0) (hs : m sq = some s0) :
    Contract.peakRmsVec E (fun _ s x => E.S.add s (E.S.mul x x)) inp peak sq n m = peakRmsVec E inp peak sq n m := by
  rw [Contract.peakRms_ok E _ hn hx hp hs, Nova.peakRms_ok E hn hx hp hs]
  have : ∀ k, squareSeq (fun _ s x => E.S.add s (E.S.mul x x)) s0 x k = foldSeq E.S.add s0 (fun i => E.S.mul (x i) (x i)) k := by
    intro k
    induction k with
    | zero => rfl
    | succ k ih => rw [squareSeq, ih]; rfl
  rw [this]

/-- The same for one iteration of the SIMD version. -/
theorem C103_off_meter_simd {α : Type} (I : VecImpl α) (inp : Nat) (maximum localSum : I.V) :
    Contract.peakRmsStep I (fun _ x0 x1 x2 x3 => I.lane.add (I.lane.add (I.lane.add (I.lane.square x0) (I.lane.square x1))
      (I.lane.square x2)) (I.lane.square x3)) inp maximum localSum = peakRmsStep I inp maximum localSum := rfl

/-! ## What contraction changes, and that the hypotheses can be met -/

/-- The choice is visible: the meter which adds the square of 0.5 + 2^-24 to 1 with one rounding gives another number than
the meter with two roundings. -/
theorem C103_differs : ∃ s x r r' : BitVec 32, r ∈ Contract.squareAdd binary32 true s x ∧
    r' ∈ Contract.squareAdd binary32 true s x ∧ binary32.toReal r ≠ binary32.toReal r' := by
  refine ⟨0x3f800000#32, 0x3f000001#32, binary32.add 0x3f800000#32 (binary32.mul 0x3f000001#32 0x3f000001#32),
    binary32.fma 0x3f000001#32 0x3f000001#32 0x3f800000#32, ?_, ?_, ?_⟩
  · simp [Contract.squareAdd, Fmt.sums, Fmt.value]
  · simp [Contract.squareAdd, Fmt.sums, Fmt.value]
  · unfold Fmt.toReal
    intro h
    have h2 : binary32.units (binary32.add 0x3f800000#32 (binary32.mul 0x3f000001#32 0x3f000001#32)) ≠
      binary32.units (binary32.fma 0x3f000001#32 0x3f000001#32 0x3f800000#32) := by decide +kernel
    have h3 : (2 : ℝ) ^ binary32.scale ≠ 0 := by positivity
    exact h2 (by exact_mod_cast (div_left_inj' h3).mp h)

/-- Mixing 0.5 * 0.75 + 0.5 * 0.25 is in range. -/
example : (quadMix binary32 .mix 0.5 0.75 0.5 0.25).Fits binary32 := by
  unfold Mix.Fits quadMix
  have hu : binary32.u = 1 / 2 ^ 24 := Fmt.u32
  have he : binary32.eta = 1 / 2 ^ 150 := Fmt.eta32
  have hb : binary32.bias = 127 := bias32
  rw [hu, he, hb]
  norm_num

/-- A gain of 1 + 0.5 * 0.25 on a signal of 0.75 is in range. -/
example : ∃ M, terMix binary32 .ampmod 0.75 0.5 0.25 = some M ∧ TerFits binary32 .ampmod 0.75 0.5 0.25 M := by
  refine ⟨_, rfl, ?_, fun _ => ?_⟩
  all_goals
    unfold Mix.Fits
    have hu : binary32.u = 1 / 2 ^ 24 := Fmt.u32
    have he : binary32.eta = 1 / 2 ^ 150 := Fmt.eta32
    have hb : binary32.bias = 127 := bias32
    simp only [gain]
    rw [hu, he, hb]
    norm_num

/-- Four samples of 1.0, all squares fused: the meter writes a sum of squares near 4. -/
example (P : Platform 32) : ∃ p r, Contract.peakRmsVec ((Build32.avx true).env P) (fun _ s x => binary32.fma x x s) 0 4 5 4#32
      (fun i => if i < 4 then some 0x3f800000#32 else if i < 6 then some 0#32 else none) =
        .ok ((), overwrite (overwrite (fun i => if i < 4 then some 0x3f800000#32 else if i < 6 then some 0#32 else none)
          4 1 fun _ => p) 5 1 fun _ => r) ∧
      IsSquareSum binary32 5 (binary32.toReal 0#32) (fun _ => binary32.toReal 0x3f800000#32) 4 r := by
  have o2 : binary32.toReal 0x3f800000#32 = 1 := by
    have := isVal_value (x := 0x3f800000#32) (q := 1) (by decide +kernel)
    rwa [Rat.cast_one] at this
  have z : binary32.toReal 0#32 = 0 := by
    have := isVal_value (x := 0#32) (q := 0) (by decide +kernel)
    rwa [Rat.cast_zero] at this
  refine C103_rms_float true (.avx true) P (n := 4#32) (x := fun _ => 0x3f800000#32) (p0 := 0#32) (s0 := 0#32)
    (fun k s x => by simp [Contract.squareAdd, Fmt.sums, Fmt.value]) (by decide) ?_ rfl rfl (by decide) (fun _ _ => by decide) ?_
  · intro i hi
    have hi : i < 4 := hi
    show (if 0 + i < 4 then _ else _) = _
    rw [if_pos (by omega)]
  · unfold SquareSumOk
    simp only [o2, z]
    rw [Fmt.u32, Fmt.eta32, bias32]
    norm_num

end Nova
