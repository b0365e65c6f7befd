import Verif.Exact
import Verif.Props.C01_Elementwise

/-!
# C31, C13: slopes, exponential curves and ramp arguments

`α` is an arbitrary commutative ring, the arithmetic of the type is exact.
-/

namespace Nova
open Spec
variable {α : Type} [CommRing α]

theorem Base.diff_eq {A : Arith α} (hA : A.Exact) (s : α) (i : Nat) : Base.diff A s i = i * s := by
  induction i with
  | zero => simp [Base.diff, hA.zero]
  | succ i ih => rw [Base.diff, hA.add, ih]; push_cast; ring

theorem Base.value_eq {A : Arith α} (hA : A.Exact) (b c : α) (i : Nat) :
    Base.value A b c i = b * c ^ i := by
  induction i with
  | zero => simp [Base.value]
  | succ i ih => rw [Base.value, hA.mul, ih]; ring

omit [CommRing α] in
theorem lanes4_forall {P : Nat → α → Prop} {a b c d : α} (h0 : P 0 a) (h1 : P 1 b) (h2 : P 2 c)
    (h3 : P 3 d) : ∀ l : Fin 4, P l (lanes4 a b c d l)
  | 0 => h0 | 1 => h1 | 2 => h2 | 3 => h3

omit [CommRing α] in
theorem lanes2_forall {P : Nat → α → Prop} {a b : α} (h0 : P 0 a) (h1 : P 1 b) :
    ∀ l : Fin 2, P l (lanes2 a b l)
  | 0 => h0 | 1 => h1

omit [CommRing α] in
theorem lanes8_forall {P : Nat → α → Prop} {a b c d e f g h : α} (h0 : P 0 a) (h1 : P 1 b)
    (h2 : P 2 c) (h3 : P 3 d) (h4 : P 4 e) (h5 : P 5 f) (h6 : P 6 g) (h7 : P 7 h) :
    ∀ l : Fin 8, P l (lanes8 a b c d e f g h l)
  | 0 => h0 | 1 => h1 | 2 => h2 | 3 => h3 | 4 => h4 | 5 => h5 | 6 => h6 | 7 => h7

/-! ## C31 -/

/-- `set_slope(start, slope)` puts `start + i*slope` in lane `i` and returns `size*slope`, the
difference to the same lane of the next vector. -/
theorem C31_set_slope (t : Target) (E : Env α) (hE : E.Exact) (start slope : α) :
    (∀ l : Fin (t.vec E).size, ((t.vec E).setSlope start slope).1 l = start + l * slope) ∧
      ((t.vec E).setSlope start slope).2 = t.size * slope := by
  obtain ⟨hS, -, -⟩ := hE
  have hb : (∀ l : Fin 4, (Base.setSlope E.S 4 start slope).1 l = start + l * slope) ∧
      (Base.setSlope E.S 4 start slope).2 = (4 : Nat) * slope := by
    constructor
    · intro l
      show E.S.add start (Base.diff E.S slope l) = _
      rw [hS.add, Base.diff_eq hS]
    · exact Base.diff_eq hS slope 4
  cases t with
  | genericFloat => exact hb
  | genericDouble => exact hb
  | sse a b =>
    constructor
    · apply lanes4_forall (P := fun l v => v = start + (l : α) * slope)
        <;> simp [hS.add] <;> ring
    · show E.S.add (E.S.add _ _) _ = _
      simp only [hS.add, Target.size]; push_cast; ring
  | sse2 =>
    constructor
    · apply lanes2_forall (P := fun l v => v = start + (l : α) * slope)
        <;> simp [hS.add]
    · show E.S.add _ _ = _
      simp only [hS.add, Target.size]; push_cast; ring
  | avxFloat =>
    constructor
    · apply lanes8_forall (P := fun l v => v = start + (l : α) * slope)
        <;> simp [hS.add] <;> ring
    · show E.S.mul _ (E.S.lit 8) = _
      have := hS.lit_nat 8
      push_cast at this
      rw [hS.mul, this]
      simp only [Target.size]; push_cast; ring
  | avxDouble =>
    constructor
    · apply lanes4_forall (P := fun l v => v = start + (l : α) * slope)
        <;> simp [hS.add] <;> ring
    · show E.S.add (E.S.add (E.S.add _ _) _) _ = _
      simp only [hS.add, Target.size]; push_cast; ring
  | neon =>
    constructor
    · apply lanes4_forall (P := fun l v => v = start + (l : α) * slope)
        <;> simp [hS.add] <;> ring
    · show E.S.add (E.S.add (E.S.add _ _) _) _ = _
      simp only [hS.add, Target.size]; push_cast; ring
  | altivec =>
    constructor
    · apply lanes4_forall (P := fun l v => v = start + (l : α) * slope)
        <;> simp [hS.add] <;> ring
    · show E.S.add (E.S.add (E.S.add _ _) _) _ = _
      simp only [hS.add, Target.size]; push_cast; ring

/-- `set_exp(start, curve)` puts `start * curve^i` in lane `i` and returns `start * curve^size`, the
first value of the next vector. -/
theorem C31_set_exp (t : Target) (E : Env α) (hE : E.Exact) (start curve : α) :
    (∀ l : Fin (t.vec E).size, ((t.vec E).setExp start curve).1 l = start * curve ^ l.val) ∧
      ((t.vec E).setExp start curve).2 = start * curve ^ t.size := by
  obtain ⟨hS, -, -⟩ := hE
  have hb : (∀ l : Fin 4, (Base.setExp E.S 4 start curve).1 l = start * curve ^ l.val) ∧
      (Base.setExp E.S 4 start curve).2 = start * curve ^ 4 :=
    ⟨fun l => Base.value_eq hS start curve l, Base.value_eq hS start curve 4⟩
  have hq : (∀ l : Fin 4, (Sse.setExp E.S start curve).1 l = start * curve ^ l.val) ∧
      (Sse.setExp E.S start curve).2 = start * curve ^ 4 := by
    constructor
    · apply lanes4_forall (P := fun l v => v = start * curve ^ l)
        <;> simp [hS.mul] <;> ring
    · show E.S.mul (E.S.mul (E.S.mul (E.S.mul _ _) _) _) _ = _
      simp only [hS.mul]; ring
  cases t with
  | genericFloat => exact hb
  | genericDouble => exact hb
  | sse a b => exact hq
  | sse2 =>
    constructor
    · apply lanes2_forall (P := fun l v => v = start * curve ^ l)
        <;> simp [hS.mul]
    · show E.S.mul (E.S.mul _ _) _ = _
      simp only [hS.mul, Target.size]; ring
  | avxFloat =>
    constructor
    · apply lanes8_forall (P := fun l v => v = start * curve ^ l)
        <;> simp [hS.mul] <;> ring
    · show E.S.mul (E.S.mul (E.S.mul (E.S.mul (E.S.mul (E.S.mul (E.S.mul (E.S.mul _ _) _) _) _) _) _) _) _
        = _
      simp only [hS.mul, Target.size]; ring
  | avxDouble => exact hq
  | neon =>
    constructor
    · apply lanes4_forall (P := fun l v => v = start * curve ^ l)
        <;> simp [hS.mul] <;> ring
    · show E.S.mul (E.S.mul (E.S.mul (E.S.mul _ _) _) _) _ = _
      simp only [hS.mul, Target.size]; ring
  | altivec => exact hq

/-! ## C13 -/

/-- Value of a ramp argument at element `i` of a scalar loop. -/
theorem C13_scalar {A : Arith α} (hA : A.Exact) (base slope : α) (i : Nat) :
    scalarRamp A base slope i = base + i * slope := by
  induction i with
  | zero => simp [scalarRamp]
  | succ i ih => rw [scalarRamp, hA.add, ih]; push_cast; ring

theorem simdRampReg_exact (t : Target) (E : Env α) (hE : E.Exact) (base slope : α) (j : Nat)
    (l : Fin (t.vec E).size) :
    simdRampReg (t.vec E) base slope j l = base + ((j * t.size + l : Nat) : α) * slope := by
  obtain ⟨h1, h2⟩ := C31_set_slope t E hE base slope
  induction j with
  | zero =>
    show ((t.vec E).setSlope base slope).1 l = _
    rw [h1]; push_cast; ring
  | succ j ih =>
    show (t.vec E).lane.add (simdRampReg (t.vec E) base slope j l)
      ((t.vec E).setVec ((t.vec E).viaFloat ((t.vec E).setSlope base slope).2) l) = _
    have hv : (t.vec E).viaFloat = E.viaFloat := by cases t <;> rfl
    rw [(t.lawful E).setVec, hv, hE.viaFloat, t.vec_lane, hE.L.add, ih, h2]
    push_cast; ring

/-- Value of a ramp argument at element `i` of a SIMD loop, on every target. -/
theorem C13_simd (t : Target) (E : Env α) (hE : E.Exact) (base slope : α) (i : Nat) :
    simdRamp (t.vec E) base slope i = base + i * slope := by
  unfold simdRamp
  rw [simdRampReg_exact t E hE]
  simp only [t.vec_size]
  rw [Nat.mul_comm, Nat.div_add_mod]

/-- `foo_vec_simd(out, a, slope_argument(base, slope), n)` and the scalar function compute
`f(a[i], base + i*slope)`. -/
theorem C13_binary (t : Target) (E : Env α) (hE : E.Exact) (op : BinOp) {m : Mem α} {out : Nat}
    {a : SArg α} {n : BitVec 32} {x : Nat → α} {base slope : α} (hn : 0 < n.toNat)
    (hmul : t.perLine ∣ n.toNat) (hoal : t.align ∣ out) (hout : Allocated m out n.toNat)
    (ha : SimdSupplies (t.vec E) t.align m out n.toNat a x)
    (ga : ScalarSupplies E.S m out n.toNat a x) :
    op.vecSimd (t.vec E) out a (.ramp base slope) n m
      = .ok ((), overwrite m out n.toNat fun i => op.f E.L (x i) (base + i * slope)) ∧
    op.vec E.S out a (.ramp base slope) n m
      = .ok ((), overwrite m out n.toNat fun i => op.f E.S (x i) (base + i * slope)) :=
  ⟨C02_binary_simd t E op hn hmul hoal hout ha fun i _ => (C13_simd t E hE base slope i).symm,
    C02_binary_scalar E.S op hn hout ga fun i _ => (C13_scalar hE.S base slope i).symm⟩

theorem C13_ternary (t : Target) (E : Env α) (hE : E.Exact) (op : TerOp) {m : Mem α} {out : Nat}
    {a : SArg α} {n : BitVec 32} {x : Nat → α} {b1 s1 b2 s2 : α} (hn : 0 < n.toNat)
    (hmul : t.perLine ∣ n.toNat) (hoal : t.align ∣ out) (hout : Allocated m out n.toNat)
    (ha : SimdSupplies (t.vec E) t.align m out n.toNat a x)
    (ga : ScalarSupplies E.S m out n.toNat a x) :
    op.vecSimd (t.vec E) out a (.ramp b1 s1) (.ramp b2 s2) n m
      = .ok ((), overwrite m out n.toNat fun i =>
          op.f E.L (x i) (b1 + i * s1) (b2 + i * s2)) ∧
    op.vec E.S out a (.ramp b1 s1) (.ramp b2 s2) n m
      = .ok ((), overwrite m out n.toNat fun i =>
          op.f E.S (x i) (b1 + i * s1) (b2 + i * s2)) :=
  ⟨C03_ternary_simd t E op hn hmul hoal hout ha
      (fun i _ => (C13_simd t E hE b1 s1 i).symm) fun i _ => (C13_simd t E hE b2 s2 i).symm,
    C03_ternary_scalar E.S op hn hout ga
      (fun i _ => (C13_scalar hE.S b1 s1 i).symm) fun i _ => (C13_scalar hE.S b2 s2 i).symm⟩

/-- `mix_vec` with two ramped gains: the cross fade. -/
theorem C13_quad (t : Target) (E : Env α) (hE : E.Exact) (op : QuadOp) {m : Mem α} {out : Nat}
    {a c : SArg α} {n : BitVec 32} {x z : Nat → α} {b1 s1 b2 s2 : α} (hn : 0 < n.toNat)
    (hmul : t.perLine ∣ n.toNat) (hoal : t.align ∣ out) (hout : Allocated m out n.toNat)
    (ha : SimdSupplies (t.vec E) t.align m out n.toNat a x)
    (ga : ScalarSupplies E.S m out n.toNat a x)
    (hc : SimdSupplies (t.vec E) t.align m out n.toNat c z)
    (gc : ScalarSupplies E.S m out n.toNat c z) :
    op.vecSimd (t.vec E) out a (.ramp b1 s1) c (.ramp b2 s2) n m
      = .ok ((), overwrite m out n.toNat fun i =>
          op.f E.L (x i) (b1 + i * s1) (z i) (b2 + i * s2)) ∧
    op.vec E.S out a (.ramp b1 s1) c (.ramp b2 s2) n m
      = .ok ((), overwrite m out n.toNat fun i =>
          op.f E.S (x i) (b1 + i * s1) (z i) (b2 + i * s2)) :=
  ⟨C04_quad_simd t E op hn hmul hoal hout ha
      (fun i _ => (C13_simd t E hE b1 s1 i).symm) hc fun i _ => (C13_simd t E hE b2 s2 i).symm,
    C04_quad_scalar E.S op hn hout ga
      (fun i _ => (C13_scalar hE.S b1 s1 i).symm) gc fun i _ => (C13_scalar hE.S b2 s2 i).symm⟩

/-! ## The hypotheses are satisfiable -/
section examples
open Examples

theorem intArith_exact : intArith.Exact where
  zero := rfl
  one := rfl
  add _ _ := rfl
  sub _ _ := rfl
  mul _ _ := rfl
  madd _ _ _ := rfl
  square _ := rfl
  cube _ := rfl
  lit_nat k := by
    show (k : Rat).num / (k : Rat).den = _
    simp

theorem intEnv_exact : intEnv.Exact := ⟨intArith_exact, intArith_exact, fun _ => rfl⟩

/-- A fade-out on AVX: `times_vec_simd(out, in, slope_argument(100, -3), 32)`. -/
example : BinOp.times.vecSimd (Target.avxFloat.vec intEnv) 0 (.ptr 0) (.ramp 100 (-3)) 32#32 (ramp 32)
    = .ok ((), overwrite (ramp 32) 0 32 fun i => (10 * (i : Int) - 100) * (100 + i * (-3))) :=
  (C13_binary .avxFloat intEnv intEnv_exact .times (a := .ptr 0) (m := ramp 32) (out := 0)
    (n := 32#32) (x := fun i => 10 * (i : Int) - 100)
    (by decide) (by decide) (by decide) (by unfold Allocated; decide)
    ⟨by decide, by unfold Holds; decide, Or.inl (by decide)⟩
    ⟨by unfold Holds; decide, Or.inl (by decide)⟩).1

end examples

end Nova
