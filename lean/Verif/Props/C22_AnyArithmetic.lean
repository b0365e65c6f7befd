import Verif.Lemmas.Fades

/-!
# C22: pan2 with ramped gains in any arithmetic

The theorems of `C21_Pan` about slopes assume exact arithmetic.  Here the arithmetic is arbitrary: the gain at element `i`
is what the accumulation gives, `scalarRamp` (add the slope `i` times) in the scalar function and `panRamp` (lane `i mod size`
of the first register, then `i / size` additions of the increment that `set_slope` returns) in the SIMD functions.
-/

namespace Nova
open Spec
variable {α : Type}

/-- `pan2_vec` with slopes -/
theorem C22_any_scalar (E : Env α) {m : Mem α} {out0 out1 inp : Nat}
    {f0 s0 f1 s1 : α} {n : BitVec 32} {x : Nat → α} (hn : 0 < n.toNat)
    (hdis : Disjoint2 out0 out1 n.toNat) (hin : Holds m inp n.toNat x)
    (h0 : Allocated m out0 n.toNat) (h1 : Allocated m out1 n.toNat)
    (p0 : SafePlacement out0 inp n.toNat) (p1 : SafePlacement out1 inp n.toNat) :
    pan2VecRamp E out0 out1 inp f0 s0 f1 s1 n m
      = .ok ((), overwrite (overwrite m out0 n.toNat fun i => E.S.mul (x i) (scalarRamp E.S f0 s0 i)) out1 n.toNat
          fun i => E.S.mul (x i) (scalarRamp E.S f1 s1 i)) :=
  pan2_ramp_scalar_ok E hn hdis hin h0 h1 p0 p1

/-- `pan2_vec_simd` with slopes -/
theorem C22_any_simd (t : Target) (E : Env α) {m : Mem α} {out0 out1 inp : Nat} {x : Nat → α} {f0 s0 f1 s1 : α}
    {n : BitVec 32} (hn : 0 < n.toNat) (hmul : t.perLine ∣ n.toNat)
    (a0 : t.align ∣ out0) (a1 : t.align ∣ out1) (ai : t.align ∣ inp)
    (hdis : Disjoint2 out0 out1 n.toNat) (hin : Holds m inp n.toNat x)
    (h0 : Allocated m out0 n.toNat) (h1 : Allocated m out1 n.toNat)
    (p0 : SafePlacement out0 inp n.toNat) (p1 : SafePlacement out1 inp n.toNat) :
    pan2VecRampSimd (t.vec E) out0 out1 inp f0 s0 f1 s1 n m
      = .ok ((), overwrite (overwrite m out0 n.toNat fun i => E.L.mul (x i) (panRamp (t.vec E) f0 s0 i)) out1 n.toNat
          fun i => E.L.mul (x i) (panRamp (t.vec E) f1 s1 i)) :=
  pan2_ramp_simd_ok t E hn hmul a0 a1 ai hdis hin h0 h1 p0 p1

/-- `pan2_vec_simd<N>` with slopes -/
theorem C22_any_simd_n (t : Target) (E : Env α) {m : Mem α} {out0 out1 inp N : Nat} {x : Nat → α} {f0 s0 f1 s1 : α}
    (hmul : t.size ∣ N) (a0 : t.align ∣ out0) (a1 : t.align ∣ out1) (ai : t.align ∣ inp)
    (hdis : Disjoint2 out0 out1 N) (hin : Holds m inp N x)
    (h0 : Allocated m out0 N) (h1 : Allocated m out1 N)
    (p0 : SafePlacement out0 inp N) (p1 : SafePlacement out1 inp N) :
    pan2VecRampSimdN (t.vec E) N out0 out1 inp f0 s0 f1 s1 m
      = .ok ((), overwrite (overwrite m out0 N fun i => E.L.mul (x i) (panRamp (t.vec E) f0 s0 i)) out1 N
          fun i => E.L.mul (x i) (panRamp (t.vec E) f1 s1 i)) :=
  pan2_ramp_simd_n_ok t E hmul a0 a1 ai hdis hin h0 h1 p0 p1

section examples
open Examples

/-- In place on the left: `pan2_vec_simd(p, q, p, 1, 2, 10, -1, 8)` with AVX doubles. -/
example : pan2VecRampSimd (Target.avxDouble.vec intEnv) 8 24 8 1 2 10 (-1) 8#32 (ramp 60)
    = .ok ((), overwrite (overwrite (ramp 60) 8 8
        fun i => (10 * ((8 + i : Nat) : Int) - 100) * panRamp (Target.avxDouble.vec intEnv) 1 2 i) 24 8
        fun i => (10 * ((8 + i : Nat) : Int) - 100) * panRamp (Target.avxDouble.vec intEnv) 10 (-1) i) :=
  C22_any_simd .avxDouble intEnv (n := 8#32) (by decide) (by decide) (by decide) (by decide) (by decide)
    (by unfold Disjoint2; decide) (by unfold Holds; decide) (by unfold Allocated; decide) (by unfold Allocated; decide)
    (by unfold SafePlacement; decide) (by unfold SafePlacement; decide)

end examples
end Nova
