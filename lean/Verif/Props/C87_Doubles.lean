import Verif.Props.C79_Sums
import Verif.Props.C87_ExactRamps

/-!
# C79, C87: maxsum and crossfades of doubles
-/

namespace Nova
open FP Spec Finset

/-- The sum that `horizontal_maxsum_vec` returns. -/
theorem C79_maxsum_double (b : Build64) (P : Platform 64) (lim : Limits (BitVec 64)) {m : Mem (BitVec 64)} {inp : Nat}
    {n : BitVec 32} {x : ℕ → BitVec 64} (hn : 0 < n.toNat) (hx : Holds m inp n.toNat x)
    (hf : ∀ i < n.toNat, IsFin binary64 (x i)) (hr : SumOk binary64 n.toNat (fun i => binary64.toReal (x i)) n.toNat) :
    ∃ p r, horizontalMaxsumVec (b.env P) lim inp n m = .ok ((p, r), m) ∧
      IsSum binary64 n.toNat (fun i => binary64.toReal (x i)) n.toNat r :=
  ⟨_, _, (foldVec_ok hn hx).trans (by rw [foldSeq_prod (Neon.stdMax (b.env P).S) (b.env P).S.add]),
    sum_scalar (b.adds P) hf hr⟩

/-- The sum that `horizontal_maxsum_vec_simd` returns. -/
theorem C79_maxsum_simd_double (b : Build64) (P : Platform 64) (lim : Limits (BitVec 64)) {m : Mem (BitVec 64)} {inp : Nat}
    {n : BitVec 32} {x : ℕ → BitVec 64} (h : SimdInput b.target m inp n x) (hf : ∀ i < n.toNat, IsFin binary64 (x i))
    (hr : SumOk binary64 (n.toNat / b.target.size + b.target.size) (fun i => binary64.toReal (x i)) n.toNat) :
    ∃ p r, horizontalMaxsumVecSimd (b.env P) (b.vec P) lim inp n m = .ok ((p, r), m) ∧
      IsSum binary64 (n.toNat / b.target.size + b.target.size) (fun i => binary64.toReal (x i)) n.toNat r := by
  refine ⟨(b.vec P).horizontalMax (foldSeq (VecImpl.zip (b.vec P).lane.max_) ((b.vec P).setVec lim.min)
    (fun j l => x (j * (b.vec P).size + l)) (n.toNat / (b.vec P).size)), _, ?_, sum_simd (b.adds P) b.target h hf hr⟩
  unfold horizontalMaxsumVecSimd Build64.vec
  rw [Exec.bind_ok (h.fold (b.env P) _ _), foldSeq_prod (VecImpl.zip (b.target.vec (b.env P)).lane.max_)
    (VecImpl.zip (b.target.vec (b.env P)).lane.add)]
  rfl

/-- Crossfades of `double`s: both versions give the same numbers. -/
theorem C87_crossfade_double (b : Build64) (P : Platform 64) {m : Mem (BitVec 64)} {out : Nat}
    {a c : SArg (BitVec 64)} {n : BitVec 32} {x x' : ℕ → BitVec 64} {g s g' s' : BitVec 64} (hn : 0 < n.toNat)
    (hmul : b.target.perLine ∣ n.toNat) (hoal : b.target.align ∣ out) (hout : Allocated m out n.toNat)
    (ha : SimdSupplies (b.vec P) b.target.align m out n.toNat a x)
    (ga : ScalarSupplies (b.env P).S m out n.toNat a x)
    (hc : SimdSupplies (b.vec P) b.target.align m out n.toNat c x')
    (gc : ScalarSupplies (b.env P).S m out n.toNat c x')
    (hg : IsFin binary64 g) (hs : IsFin binary64 s) (hg' : IsFin binary64 g') (hs' : IsFin binary64 s')
    (hx : ∀ i < n.toNat, IsFin binary64 (x i)) (hx' : ∀ i < n.toNat, IsFin binary64 (x' i))
    (hf : Representable binary32 (b.target.size * binary64.toReal s))
    (hf' : Representable binary32 (b.target.size * binary64.toReal s'))
    (hr : RampRepresentable binary64 (binary64.toReal g) (binary64.toReal s) n.toNat)
    (hr' : RampRepresentable binary64 (binary64.toReal g') (binary64.toReal s') n.toNat) :
    ∃ y z : ℕ → BitVec 64,
      QuadOp.mix.vecSimd (b.vec P) out a (.ramp g s) c (.ramp g' s') n m = .ok ((), overwrite m out n.toNat y) ∧
      QuadOp.mix.vec (b.env P).S out a (.ramp g s) c (.ramp g' s') n m = .ok ((), overwrite m out n.toNat z) ∧
      ∀ i < n.toNat, Same binary64 (y i) (z i) := by
  refine ⟨_, _, C04_quad_simd b.target (b.env P) .mix hn hmul hoal hout ha (fun i _ => rfl) hc fun i _ => rfl,
    C04_quad_scalar (b.env P).S .mix hn hout ga (fun i _ => rfl) gc fun i _ => rfl, fun i hi => ?_⟩
  obtain ⟨⟨f1, v1⟩, f2, v2⟩ := C87_ramp_double b P hg hs i hf (hr.mono hi.le)
  obtain ⟨⟨f1', v1'⟩, f2', v2'⟩ := C87_ramp_double b P hg' hs' i hf' (hr'.mono hi.le)
  have e : (b.env P).L.mul = binary64.mul := by cases b <;> rfl
  show Same binary64 ((b.env P).L.add ((b.env P).L.mul _ _) ((b.env P).L.mul _ _))
    (binary64.add (binary64.mul _ _) (binary64.mul _ _))
  rw [e, (b.adds P).L]
  exact same_add (same_mul (hx i hi) f1 f2 (same_of_real binary64 f1 f2 (v1.trans v2.symm)))
    (same_mul (hx' i hi) f1' f2' (same_of_real binary64 f1' f2' (v1'.trans v2'.symm)))

/-- The hypotheses on the ramps hold of the crossfade from 1 to 0 in 64 steps of -1/64, on every target. -/
example (b : Build64) : Representable binary32 (b.target.size * (-(1 : ℝ) / 64)) := by
  have h : ∀ t : Target, t.size ≤ 64 := by intro t; cases t <;> (simp only [Target.size]; decide)
  have := (C87_which_float 0 (-1) 6 64 (by decide) (by norm_num) _ (h b.target)).2
  norm_num at this ⊢
  exact this

end Nova
