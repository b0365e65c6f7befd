import Verif.Model.Pan
import Verif.Props.C15_Memory

/-!
# C21, C22: stereo panning (simd_pan.hpp)

The result is described by two nested `overwrite`s: `out0[i] = in[i]*gain0(i)`,
`out1[i] = in[i]*gain1(i)`, nothing else changes.  The input may be one of the outputs.
-/

namespace Nova
open Spec
variable {α : Type}

/-- Two buffers of `n` elements do not overlap. -/
def Disjoint2 (p q n : Nat) : Prop := p + n ≤ q ∨ q + n ≤ p

theorem overwrite_comm {m : Mem α} {p q n k : Nat} {y z : Nat → α} (h : p + n ≤ q ∨ q + k ≤ p) :
    overwrite (overwrite m p n y) q k z = overwrite (overwrite m q k z) p n y := by
  funext a
  unfold overwrite
  by_cases h1 : q ≤ a ∧ a < q + k
  · rw [if_pos h1, if_neg (by omega), if_pos h1]
  · rw [if_neg h1, if_neg h1]

/-- The memory after `k` elements of both outputs are written. -/
def panMem (m : Mem α) (out0 out1 k : Nat) (y0 y1 : Nat → α) : Mem α :=
  overwrite (overwrite m out0 k y0) out1 k y1

theorem panMem_outside {m : Mem α} {out0 out1 k a : Nat} {y0 y1 : Nat → α}
    (h0 : a < out0 ∨ out0 + k ≤ a) (h1 : a < out1 ∨ out1 + k ≤ a) :
    panMem m out0 out1 k y0 y1 a = m a := by
  unfold panMem
  rw [overwrite_outside h1, overwrite_outside h0]

/-! ## Scalar functions -/

section scalar
variable {E : Env α} {m : Mem α} {out0 out1 inp k n : Nat} {x y0 y1 : Nat → α} {g0 g1 : α}

theorem pan_scalar_step (hdis : Disjoint2 out0 out1 n) (hin : Holds m inp n x)
    (h0 : Allocated m out0 n) (h1 : Allocated m out1 n)
    (s0 : SafePlacement out0 inp n) (s1 : SafePlacement out1 inp n) (hk : k < n)
    (e0 : y0 k = E.S.mul (x k) g0) (e1 : y1 k = E.S.mul (x k) g1)
    {β : Type} (next : Exec α β) :
    (do
      let sig ← read (inp + k)
      write (out0 + k) (E.S.mul sig g0)
      write (out1 + k) (E.S.mul sig g1)
      next : Exec α β) (panMem m out0 out1 k y0 y1)
      = next (panMem m out0 out1 (k + 1) y0 y1) := by
  unfold Disjoint2 at hdis
  unfold SafePlacement at s0 s1
  have r : panMem m out0 out1 k y0 y1 (inp + k) = some (x k) := by
    rw [panMem_outside (by omega) (by omega)]; exact hin k hk
  rw [Exec.bind_ok (read_ok r)]
  have w0 : write (out0 + k) (E.S.mul (x k) g0) (panMem m out0 out1 k y0 y1)
      = .ok ((), overwrite (overwrite m out0 (k + 1) y0) out1 k y1) := by
    unfold panMem
    rw [overwrite_comm (by omega), write_overwrite (y := y0) (overwrite_alloc (h0 k hk)) e0.symm,
      overwrite_comm (by omega)]
  rw [Exec.bind_ok w0]
  have w1 : write (out1 + k) (E.S.mul (x k) g1)
      (overwrite (overwrite m out0 (k + 1) y0) out1 k y1)
      = .ok ((), panMem m out0 out1 (k + 1) y0 y1) :=
    write_overwrite (y := y1) (overwrite_alloc (h1 k hk)) e1.symm
  rw [Exec.bind_ok w1]

end scalar

/-- `pan2_vec(out0, out1, in, factor0, factor1, n)` -/
theorem C21_pan2_scalar (E : Env α) {m : Mem α} {out0 out1 inp : Nat} {f0 f1 : α} {n : BitVec 32}
    {x : Nat → α} (hn : 0 < n.toNat) (hdis : Disjoint2 out0 out1 n.toNat)
    (hin : Holds m inp n.toNat x) (h0 : Allocated m out0 n.toNat) (h1 : Allocated m out1 n.toNat)
    (s0 : SafePlacement out0 inp n.toNat) (s1 : SafePlacement out1 inp n.toNat) :
    pan2Vec E out0 out1 inp f0 f1 n m
      = .ok ((), overwrite (overwrite m out0 n.toNat fun i => E.S.mul (x i) f0) out1 n.toNat
          fun i => E.S.mul (x i) f1) := by
  unfold pan2Vec
  rw [doWhile_eq_iterM, tripCount_of_pos hn]
  have := iterM_seq (body := fun (s : Nat × Nat × Nat) => do
      let (out0, out1, inp) := s
      let sig ← read inp
      write out0 (E.S.mul sig f0)
      write out1 (E.S.mul sig f1)
      pure (out0 + 1, out1 + 1, inp + 1)) (fun k => (out0 + k, out1 + k, inp + k))
      (fun k => panMem m out0 out1 k (fun i => E.S.mul (x i) f0) fun i => E.S.mul (x i) f1) n.toNat (by
        intro k hk
        simp only
        rw [pan_scalar_step hdis hin h0 h1 s0 s1 hk rfl rfl]
        rfl)
  simp only [panMem, overwrite_zero, Nat.add_zero] at this
  rw [Exec.bind_ok this]
  rfl

/-- `pan2_vec(out0, out1, in, factor0, slope0, factor1, slope1, n)` -/
theorem C22_pan2_ramp_scalar [CommRing α] (E : Env α) (hE : E.Exact) {m : Mem α} {out0 out1 inp : Nat}
    {f0 s0 f1 s1 : α} {n : BitVec 32} {x : Nat → α} (hn : 0 < n.toNat)
    (hdis : Disjoint2 out0 out1 n.toNat) (hin : Holds m inp n.toNat x)
    (h0 : Allocated m out0 n.toNat) (h1 : Allocated m out1 n.toNat)
    (p0 : SafePlacement out0 inp n.toNat) (p1 : SafePlacement out1 inp n.toNat) :
    pan2VecRamp E out0 out1 inp f0 s0 f1 s1 n m
      = .ok ((), overwrite (overwrite m out0 n.toNat fun i => x i * (f0 + i * s0)) out1 n.toNat
          fun i => x i * (f1 + i * s1)) := by
  unfold pan2VecRamp
  rw [doWhile_eq_iterM, tripCount_of_pos hn]
  have := iterM_seq (body := fun (s : (Nat × Nat × Nat) × α × α) => do
      let ((out0, out1, inp), f0, f1) := s
      let sig ← read inp
      write out0 (E.S.mul sig f0)
      write out1 (E.S.mul sig f1)
      pure ((out0 + 1, out1 + 1, inp + 1), E.S.add f0 s0, E.S.add f1 s1))
      (fun k => ((out0 + k, out1 + k, inp + k), f0 + k * s0, f1 + k * s1))
      (fun k => panMem m out0 out1 k (fun i => x i * (f0 + i * s0)) fun i => x i * (f1 + i * s1))
      n.toNat (by
        intro k hk
        simp only
        rw [pan_scalar_step hdis hin h0 h1 p0 p1 hk (hE.S.mul _ _).symm (hE.S.mul _ _).symm]
        simp only [Exec.pure_run, hE.S.add]
        push_cast
        simp only [add_mul, one_mul, add_assoc])
  simp only [panMem, overwrite_zero, Nat.cast_zero, zero_mul, add_zero] at this
  rw [Exec.bind_ok this]
  rfl

/-! ## SIMD functions -/

section simd
variable (t : Target) (E : Env α) {m : Mem α} {out0 out1 inp j n : Nat} {x y0 y1 : Nat → α}
  {g0 g1 : (t.vec E).V}

theorem pan_simd_step (a0 : t.align ∣ out0) (a1 : t.align ∣ out1) (ai : t.align ∣ inp)
    (hdis : Disjoint2 out0 out1 n) (hin : Holds m inp n x)
    (h0 : Allocated m out0 n) (h1 : Allocated m out1 n)
    (s0 : SafePlacement out0 inp n) (s1 : SafePlacement out1 inp n)
    (hj : (j + 1) * (t.vec E).size ≤ n)
    (e0 : ∀ l : Fin (t.vec E).size, y0 (j * (t.vec E).size + l)
      = E.L.mul (x (j * (t.vec E).size + l)) (g0 l))
    (e1 : ∀ l : Fin (t.vec E).size, y1 (j * (t.vec E).size + l)
      = E.L.mul (x (j * (t.vec E).size + l)) (g1 l))
    {β : Type} (next : Exec α β) :
    (do
      let vin ← (t.vec E).loadAligned (inp + j * (t.vec E).size)
      (t.vec E).storeAligned (VecImpl.zip (t.vec E).lane.mul vin g0) (out0 + j * (t.vec E).size)
      (t.vec E).storeAligned (VecImpl.zip (t.vec E).lane.mul vin g1) (out1 + j * (t.vec E).size)
      next : Exec α β) (panMem m out0 out1 (j * (t.vec E).size) y0 y1)
      = next (panMem m out0 out1 ((j + 1) * (t.vec E).size) y0 y1) := by
  unfold Disjoint2 at hdis
  unfold SafePlacement at s0 s1
  have hL := t.lawful E
  have e : (j + 1) * (t.vec E).size = j * (t.vec E).size + (t.vec E).size := Nat.succ_mul _ _
  have r : (t.vec E).loadAligned (inp + j * (t.vec E).size)
      (panMem m out0 out1 (j * (t.vec E).size) y0 y1)
      = .ok (fun l => x (j * (t.vec E).size + l), panMem m out0 out1 (j * (t.vec E).size) y0 y1) := by
    rw [hL.loadAligned _ (aligned_reg hL ai)]
    apply readVec_ok
    intro l
    have hl := l.isLt
    rw [panMem_outside (by omega) (by omega), Nat.add_assoc]
    exact hin _ (by omega)
  rw [Exec.bind_ok r]
  have w0 : (t.vec E).storeAligned
      (VecImpl.zip (t.vec E).lane.mul (fun l => x (j * (t.vec E).size + l)) g0)
      (out0 + j * (t.vec E).size) (panMem m out0 out1 (j * (t.vec E).size) y0 y1)
      = .ok ((), overwrite (overwrite m out0 ((j + 1) * (t.vec E).size) y0) out1
          (j * (t.vec E).size) y1) := by
    unfold panMem
    rw [overwrite_comm (by omega)]
    rw [storeReg (y := y0) (hL.storeAligned _ _ (aligned_reg hL a0))
      (fun i hi => overwrite_alloc (h0 i hi)) hj (fun l => by
        unfold VecImpl.zip; rw [t.vec_lane, e0 l])]
    rw [overwrite_comm (by omega)]
  rw [Exec.bind_ok w0]
  have w1 : (t.vec E).storeAligned
      (VecImpl.zip (t.vec E).lane.mul (fun l => x (j * (t.vec E).size + l)) g1)
      (out1 + j * (t.vec E).size)
      (overwrite (overwrite m out0 ((j + 1) * (t.vec E).size) y0) out1 (j * (t.vec E).size) y1)
      = .ok ((), panMem m out0 out1 ((j + 1) * (t.vec E).size) y0 y1) :=
    storeReg (y := y1) (hL.storeAligned _ _ (aligned_reg hL a1))
      (fun i hi => overwrite_alloc (h1 i hi)) hj (fun l => by
        unfold VecImpl.zip; rw [t.vec_lane, e1 l])
  rw [Exec.bind_ok w1]

end simd

section
variable (t : Target) (E : Env α) {m : Mem α} {out0 out1 inp : Nat} {x : Nat → α} {f0 f1 : α}

theorem pan2Body_ok {n : Nat} (a0 : t.align ∣ out0) (a1 : t.align ∣ out1) (ai : t.align ∣ inp)
    (hdis : Disjoint2 out0 out1 n) (hin : Holds m inp n x)
    (h0 : Allocated m out0 n) (h1 : Allocated m out1 n)
    (s0 : SafePlacement out0 inp n) (s1 : SafePlacement out1 inp n)
    (j : Nat) (hj : (j + 1) * (t.vec E).size ≤ n) :
    pan2Body (t.vec E) out0 out1 inp ((t.vec E).setVec f0) ((t.vec E).setVec f1)
      (j * (t.vec E).size) ()
      (panMem m out0 out1 (j * (t.vec E).size) (fun i => E.L.mul (x i) f0) fun i => E.L.mul (x i) f1)
      = .ok ((), panMem m out0 out1 ((j + 1) * (t.vec E).size) (fun i => E.L.mul (x i) f0)
          fun i => E.L.mul (x i) f1) := by
  have hL := t.lawful E
  have := pan_simd_step t E a0 a1 ai hdis hin h0 h1 s0 s1 hj
    (g0 := (t.vec E).setVec f0) (g1 := (t.vec E).setVec f1)
    (y0 := fun i => E.L.mul (x i) f0) (y1 := fun i => E.L.mul (x i) f1)
    (fun l => by rw [hL.setVec]) (fun l => by rw [hL.setVec]) (pure ())
  simp only [bind_pure_unit] at this
  exact this

/-- `pan2_vec_simd(out0, out1, in, factor0, factor1, n)` -/
theorem C21_pan2_simd {n : BitVec 32} (hn : 0 < n.toNat) (hmul : t.perLine ∣ n.toNat)
    (a0 : t.align ∣ out0) (a1 : t.align ∣ out1) (ai : t.align ∣ inp)
    (hdis : Disjoint2 out0 out1 n.toNat) (hin : Holds m inp n.toNat x)
    (h0 : Allocated m out0 n.toNat) (h1 : Allocated m out1 n.toNat)
    (s0 : SafePlacement out0 inp n.toNat) (s1 : SafePlacement out1 inp n.toNat) :
    pan2VecSimd (t.vec E) out0 out1 inp f0 f1 n m
      = .ok ((), overwrite (overwrite m out0 n.toNat fun i => E.L.mul (x i) f0) out1 n.toNat
          fun i => E.L.mul (x i) f1) := by
  have hmul' : (t.vec E).perLine ∣ n.toNat := by rw [t.vec_perLine]; exact hmul
  have := cacheline_unroll (t.lawful E)
    (body := pan2Body (t.vec E) out0 out1 inp ((t.vec E).setVec f0) ((t.vec E).setVec f1))
    (R := fun _ => ())
    (W := fun j => panMem m out0 out1 (j * (t.vec E).size) (fun i => E.L.mul (x i) f0)
      fun i => E.L.mul (x i) f1) hn hmul'
    (fun j hj => pan2Body_ok t E a0 a1 ai hdis hin h0 h1 s0 s1 j hj)
  simp only [panMem, Nat.zero_mul, overwrite_zero,
    div_mul_size (line_size_dvd (t.lawful E) hmul')] at this
  exact this

/-- `pan2_vec_simd<N>(out0, out1, in, factor0, factor1)` -/
theorem C21_pan2_simd_n {N : Nat} (hmul : t.size ∣ N)
    (a0 : t.align ∣ out0) (a1 : t.align ∣ out1) (ai : t.align ∣ inp)
    (hdis : Disjoint2 out0 out1 N) (hin : Holds m inp N x)
    (h0 : Allocated m out0 N) (h1 : Allocated m out1 N)
    (s0 : SafePlacement out0 inp N) (s1 : SafePlacement out1 inp N) :
    pan2VecSimdN (t.vec E) N out0 out1 inp f0 f1 m
      = .ok ((), overwrite (overwrite m out0 N fun i => E.L.mul (x i) f0) out1 N
          fun i => E.L.mul (x i) f1) := by
  have hmul' : (t.vec E).size ∣ N := by rw [t.vec_size]; exact hmul
  have := unroll_all
    (body := pan2Body (t.vec E) out0 out1 inp ((t.vec E).setVec f0) ((t.vec E).setVec f1))
    (R := fun _ => ())
    (W := fun j => panMem m out0 out1 (j * (t.vec E).size) (fun i => E.L.mul (x i) f0)
      fun i => E.L.mul (x i) f1) hmul'
    (fun j hj => pan2Body_ok t E a0 a1 ai hdis hin h0 h1 s0 s1 j hj)
  simp only [panMem, Nat.zero_mul, overwrite_zero, div_mul_size hmul'] at this
  exact this

end

section ring
variable [CommRing α] (t : Target) (E : Env α) (hE : E.Exact) {m : Mem α} {out0 out1 inp : Nat}
  {x : Nat → α} {f0 s0 f1 s1 : α}
include hE

theorem pan2RampBody_ok {n : Nat} (a0 : t.align ∣ out0) (a1 : t.align ∣ out1) (ai : t.align ∣ inp)
    (hdis : Disjoint2 out0 out1 n) (hin : Holds m inp n x)
    (h0 : Allocated m out0 n) (h1 : Allocated m out1 n)
    (p0 : SafePlacement out0 inp n) (p1 : SafePlacement out1 inp n)
    (j : Nat) (hj : (j + 1) * (t.vec E).size ≤ n) :
    pan2RampBody (t.vec E) out0 out1 inp ((t.vec E).setVec (t.size * s0))
      ((t.vec E).setVec (t.size * s1)) (j * (t.vec E).size)
      (fun l => f0 + ((j * (t.vec E).size + l : Nat) : α) * s0,
        fun l => f1 + ((j * (t.vec E).size + l : Nat) : α) * s1)
      (panMem m out0 out1 (j * (t.vec E).size) (fun i => x i * (f0 + i * s0))
        fun i => x i * (f1 + i * s1))
      = .ok ((fun l => f0 + (((j + 1) * (t.vec E).size + l : Nat) : α) * s0,
          fun l => f1 + (((j + 1) * (t.vec E).size + l : Nat) : α) * s1),
          panMem m out0 out1 ((j + 1) * (t.vec E).size) (fun i => x i * (f0 + i * s0))
            fun i => x i * (f1 + i * s1)) := by
  have hL := t.lawful E
  unfold pan2RampBody
  simp only
  rw [pan_simd_step t E a0 a1 ai hdis hin h0 h1 p0 p1 hj
    (y0 := fun i => x i * (f0 + i * s0)) (y1 := fun i => x i * (f1 + i * s1))
    (fun l => by rw [hE.L.mul]) (fun l => by rw [hE.L.mul])]
  simp only [Exec.pure_run]
  congr 2
  apply Prod.ext
  · funext l
    simp only [VecImpl.zip]
    rw [hL.setVec, t.vec_lane, hE.L.add, ← t.vec_size E]
    push_cast; ring
  · funext l
    simp only [VecImpl.zip]
    rw [hL.setVec, t.vec_lane, hE.L.add, ← t.vec_size E]
    push_cast; ring

theorem setSlope_pair (f s : α) : (t.vec E).setSlope f s
    = (fun (l : Fin (t.vec E).size) => f + ((0 * (t.vec E).size + l : Nat) : α) * s, t.size * s) := by
  obtain ⟨h1, h2⟩ := C31_set_slope t E hE f s
  apply Prod.ext
  · funext l
    rw [h1 l]; simp
  · exact h2

/-- `pan2_vec_simd(out0, out1, in, factor0, slope0, factor1, slope1, n)` -/
theorem C22_pan2_ramp_simd {n : BitVec 32} (hn : 0 < n.toNat) (hmul : t.perLine ∣ n.toNat)
    (a0 : t.align ∣ out0) (a1 : t.align ∣ out1) (ai : t.align ∣ inp)
    (hdis : Disjoint2 out0 out1 n.toNat) (hin : Holds m inp n.toNat x)
    (h0 : Allocated m out0 n.toNat) (h1 : Allocated m out1 n.toNat)
    (p0 : SafePlacement out0 inp n.toNat) (p1 : SafePlacement out1 inp n.toNat) :
    pan2VecRampSimd (t.vec E) out0 out1 inp f0 s0 f1 s1 n m
      = .ok ((), overwrite (overwrite m out0 n.toNat fun i => x i * (f0 + i * s0)) out1 n.toNat
          fun i => x i * (f1 + i * s1)) := by
  have hmul' : (t.vec E).perLine ∣ n.toNat := by rw [t.vec_perLine]; exact hmul
  unfold pan2VecRampSimd
  rw [setSlope_pair t E hE, setSlope_pair t E hE]
  have := cacheline_unroll (t.lawful E)
    (body := pan2RampBody (t.vec E) out0 out1 inp ((t.vec E).setVec (t.size * s0))
      ((t.vec E).setVec (t.size * s1)))
    (R := fun j => (fun l => f0 + ((j * (t.vec E).size + l : Nat) : α) * s0,
        fun l => f1 + ((j * (t.vec E).size + l : Nat) : α) * s1))
    (W := fun j => panMem m out0 out1 (j * (t.vec E).size) (fun i => x i * (f0 + i * s0))
      fun i => x i * (f1 + i * s1)) hn hmul'
    (fun j hj => pan2RampBody_ok t E hE a0 a1 ai hdis hin h0 h1 p0 p1 j hj)
  simp only [panMem, Nat.zero_mul, overwrite_zero,
    div_mul_size (line_size_dvd (t.lawful E) hmul')] at this ⊢
  rw [Exec.bind_ok this]
  rfl

/-- `pan2_vec_simd<N>(out0, out1, in, factor0, slope0, factor1, slope1)` -/
theorem C22_pan2_ramp_simd_n {N : Nat} (hmul : t.size ∣ N)
    (a0 : t.align ∣ out0) (a1 : t.align ∣ out1) (ai : t.align ∣ inp)
    (hdis : Disjoint2 out0 out1 N) (hin : Holds m inp N x)
    (h0 : Allocated m out0 N) (h1 : Allocated m out1 N)
    (p0 : SafePlacement out0 inp N) (p1 : SafePlacement out1 inp N) :
    pan2VecRampSimdN (t.vec E) N out0 out1 inp f0 s0 f1 s1 m
      = .ok ((), overwrite (overwrite m out0 N fun i => x i * (f0 + i * s0)) out1 N
          fun i => x i * (f1 + i * s1)) := by
  have hmul' : (t.vec E).size ∣ N := by rw [t.vec_size]; exact hmul
  unfold pan2VecRampSimdN
  rw [setSlope_pair t E hE, setSlope_pair t E hE]
  have := unroll_all
    (body := pan2RampBody (t.vec E) out0 out1 inp ((t.vec E).setVec (t.size * s0))
      ((t.vec E).setVec (t.size * s1)))
    (R := fun j => (fun l => f0 + ((j * (t.vec E).size + l : Nat) : α) * s0,
        fun l => f1 + ((j * (t.vec E).size + l : Nat) : α) * s1))
    (W := fun j => panMem m out0 out1 (j * (t.vec E).size) (fun i => x i * (f0 + i * s0))
      fun i => x i * (f1 + i * s1)) hmul'
    (fun j hj => pan2RampBody_ok t E hE a0 a1 ai hdis hin h0 h1 p0 p1 j hj)
  simp only [panMem, Nat.zero_mul, overwrite_zero, div_mul_size hmul'] at this ⊢
  rw [Exec.bind_ok this]
  rfl

end ring

/-! ## The hypotheses are satisfiable -/
section examples
open Examples

/-- The left output may be the input. -/
example : pan2VecRampSimd (Target.avxFloat.vec intEnv) 0 16 0 100 (-1) 0 1 16#32 (ramp 32)
    = .ok ((), overwrite (overwrite (ramp 32) 0 16 fun i => (10 * (i : Int) - 100) * (100 + i * (-1)))
        16 16 fun i => (10 * (i : Int) - 100) * (0 + i * 1)) :=
  C22_pan2_ramp_simd .avxFloat intEnv intEnv_exact (x := fun i => 10 * (i : Int) - 100)
    (by decide) (by decide) (by decide) (by decide) (by decide) (by unfold Disjoint2; decide)
    (by unfold Holds; decide) (by unfold Allocated; decide) (by unfold Allocated; decide)
    (Or.inl (by decide)) (Or.inr (by decide))

end examples

end Nova
