import Verif.Model.SimdMemory

/-!
# simd_pan.hpp
-/

namespace Nova
variable {α : Type}

/-- `pan2_vec(out0, out1, in, factor0, factor1, n)` (simd_pan.hpp:34-43) -/
def pan2Vec (E : Env α) (out0 out1 inp : Nat) (f0 f1 : α) (n : BitVec 32) : Exec α Unit := do
  let _ ← doWhile (fun (s : Nat × Nat × Nat) => do
      let (out0, out1, inp) := s
      let sig ← read inp
      write out0 (E.S.mul sig f0)
      write out1 (E.S.mul sig f1)
      pure (out0 + 1, out1 + 1, inp + 1)) n (out0, out1, inp)
  pure ()

/-- `pan2_vec(out0, out1, in, factor0, slope0, factor1, slope1, n)` (simd_pan.hpp:45-56) -/
def pan2VecRamp (E : Env α) (out0 out1 inp : Nat) (f0 s0 f1 s1 : α) (n : BitVec 32) :
    Exec α Unit := do
  let _ ← doWhile (fun (s : (Nat × Nat × Nat) × α × α) => do
      let ((out0, out1, inp), f0, f1) := s
      let sig ← read inp
      write out0 (E.S.mul sig f0)
      write out1 (E.S.mul sig f1)
      pure ((out0 + 1, out1 + 1, inp + 1), E.S.add f0 s0, E.S.add f1 s1)) n ((out0, out1, inp), f0, f1)
  pure ()

/-- `detail::pan2::mp_iteration`, constant gains (simd_pan.hpp:66-78) -/
def pan2Body (I : VecImpl α) (out0 out1 inp : Nat) (f0 f1 : I.V) (off : Nat) (_ : Unit) :
    Exec α Unit := do
  let vin ← I.loadAligned (inp + off)
  let vout0 := VecImpl.zip I.lane.mul vin f0
  let vout1 := VecImpl.zip I.lane.mul vin f1
  I.storeAligned vout0 (out0 + off)
  I.storeAligned vout1 (out1 + off)

/-- `detail::pan2::mp_iteration`, ramped gains (simd_pan.hpp:80-95) -/
def pan2RampBody (I : VecImpl α) (out0 out1 inp : Nat) (s0 s1 : I.V) (off : Nat) (f : I.V × I.V) :
    Exec α (I.V × I.V) := do
  let (f0, f1) := f
  let vin ← I.loadAligned (inp + off)
  let vout0 := VecImpl.zip I.lane.mul vin f0
  let vout1 := VecImpl.zip I.lane.mul vin f1
  I.storeAligned vout0 (out0 + off)
  I.storeAligned vout1 (out1 + off)
  pure (VecImpl.zip I.lane.add f0 s0, VecImpl.zip I.lane.add f1 s1)

/-- `pan2_vec_simd(out0, out1, in, factor0, factor1, n)` (simd_pan.hpp:112-123) -/
def pan2VecSimd (I : VecImpl α) (out0 out1 inp : Nat) (f0 f1 : α) (n : BitVec 32) : Exec α Unit :=
  cachelineLoop I (unrollTmpl I (pan2Body I out0 out1 inp (I.setVec f0) (I.setVec f1)) I.perLine) n ()

/-- `pan2_vec_simd<n>(out0, out1, in, factor0, factor1)` (simd_pan.hpp:125-131) -/
def pan2VecSimdN (I : VecImpl α) (N out0 out1 inp : Nat) (f0 f1 : α) : Exec α Unit :=
  unrollTmpl I (pan2Body I out0 out1 inp (I.setVec f0) (I.setVec f1)) N 0 ()

/-- `pan2_vec_simd(out0, out1, in, factor0, slope0, factor1, slope1, n)` (simd_pan.hpp:133-147) -/
def pan2VecRampSimd (I : VecImpl α) (out0 out1 inp : Nat) (f0 s0 f1 s1 : α) (n : BitVec 32) :
    Exec α Unit := do
  let (vf0, d0) := I.setSlope f0 s0
  let (vf1, d1) := I.setSlope f1 s1
  let _ ← cachelineLoop I
    (unrollTmpl I (pan2RampBody I out0 out1 inp (I.setVec d0) (I.setVec d1)) I.perLine) n (vf0, vf1)
  pure ()

/-- `pan2_vec_simd<n>(out0, out1, in, factor0, slope0, factor1, slope1)` (simd_pan.hpp:149-157) -/
def pan2VecRampSimdN (I : VecImpl α) (N out0 out1 inp : Nat) (f0 s0 f1 s1 : α) : Exec α Unit := do
  let (vf0, d0) := I.setSlope f0 s0
  let (vf1, d1) := I.setSlope f1 s1
  let _ ← unrollTmpl I (pan2RampBody I out0 out1 inp (I.setVec d0) (I.setVec d1)) N 0 (vf0, vf1)
  pure ()

end Nova
