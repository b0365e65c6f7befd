import Verif.Model.Args

/-!
# Loops: `detail/math.hpp:33-162` and `detail/unroll_helpers.hpp`
-/

namespace Nova
variable {α : Type}

/-! ## Scalar loops with run-time size -/

/-- `apply_on_vector(out, in, n, f)` (detail/math.hpp:100-109):
`do *out++ = f(*in++); while (--n);` -/
def applyOnVector1 (f : α → Except Fault α) (out inp : Nat) (n : BitVec 32) : Exec α Unit := do
  let _ ← doWhile (fun (s : Nat × Nat) => do
      let x ← read s.2
      let y ← Exec.lift (f x)
      write s.1 y
      pure (s.1 + 1, s.2 + 1)) n (out, inp)
  pure ()

/-- `apply_on_vector(out, in1, in2, n, f)` (detail/math.hpp:111-125) -/
def applyOnVector2 (A : Arith α) (f : α → α → α) (out : Nat) (in1 in2 : SArg α) (n : BitVec 32) :
    Exec α Unit := do
  let _ ← doWhile (fun (s : Nat × SArg α × SArg α) => do
      let (out, in1, in2) := s
      let x1 ← in1.get
      let x2 ← in2.get
      write out (f x1 x2)
      pure (out + 1, in1.increment A, in2.increment A)) n (out, in1, in2)
  pure ()

/-- `apply_on_vector(out, in1, in2, in3, n, f)` (detail/math.hpp:127-143) -/
def applyOnVector3 (A : Arith α) (f : α → α → α → α) (out : Nat) (in1 in2 in3 : SArg α)
    (n : BitVec 32) : Exec α Unit := do
  let _ ← doWhile (fun (s : Nat × SArg α × SArg α × SArg α) => do
      let (out, in1, in2, in3) := s
      let x1 ← in1.get
      let x2 ← in2.get
      let x3 ← in3.get
      write out (f x1 x2 x3)
      pure (out + 1, in1.increment A, in2.increment A, in3.increment A)) n (out, in1, in2, in3)
  pure ()

/-- `apply_on_vector(out, in1, in2, in3, in4, n, f)` (detail/math.hpp:145-163) -/
def applyOnVector4 (A : Arith α) (f : α → α → α → α → α) (out : Nat) (in1 in2 in3 in4 : SArg α)
    (n : BitVec 32) : Exec α Unit := do
  let _ ← doWhile (fun (s : Nat × SArg α × SArg α × SArg α × SArg α) => do
      let (out, in1, in2, in3, in4) := s
      let x1 ← in1.get
      let x2 ← in2.get
      let x3 ← in3.get
      let x4 ← in4.get
      write out (f x1 x2 x3 x4)
      pure (out + 1, in1.increment A, in2.increment A, in3.increment A, in4.increment A))
      n (out, in1, in2, in3, in4)
  pure ()

/-! ## The compile-time unroller -/

/-- Using a register object; an object that was declared but not assigned is `none`
(`loaded_next`, detail/unroll_helpers.hpp:91-93). -/
def initialised {β : Type} : Option β → Exec α β
  | some v => pure v
  | none => Exec.fail .uninit

section unroller
variable (I : VecImpl α)

/-- `vec_type loaded_next; if (N != offset) loaded_next = in.consume();`
(detail/unroll_helpers.hpp:91-93 and the seven further copies up to line 170) -/
def prefetch (N : Nat) (arg : VArg α I.size) : Exec α (Option I.V × VArg α I.size) :=
  if N ≠ I.size then do
    let (v, arg) ← arg.consume I
    pure (some v, arg)
  else pure (none, arg)

/-- `compile_time_unroller<F,N>::mp_iteration_1` (detail/unroll_helpers.hpp:86-98, and 186-191 for
`N = 0`).  `in1` is a reference, so its final state is returned.  The template argument decreases by
`size`; it misses `0` when `N` is not a multiple of `size`, and then the program does not compile. -/
def mpIteration1 (f : I.V → Except Fault I.V) (N out : Nat) (loaded1 : Option I.V)
    (in1 : VArg α I.size) : Exec α (VArg α I.size) :=
  if N = 0 then pure in1
  else if _hN : N < I.size then Exec.fail .illFormed
  else do
    let (next1, in1) ← prefetch I N in1
    let x1 ← initialised loaded1
    let result ← Exec.lift (f x1)
    I.storeAligned result out
    mpIteration1 f (N - I.size) (out + I.size) next1 in1
termination_by N
decreasing_by have := I.size_pos; omega

/-- `mp_iteration_2` (detail/unroll_helpers.hpp:100-118, 193-200) -/
def mpIteration2 (f : I.V → I.V → I.V) (N out : Nat) (loaded1 : Option I.V)
    (in1 : VArg α I.size) (loaded2 : Option I.V) (in2 : VArg α I.size) :
    Exec α (VArg α I.size × VArg α I.size) :=
  if N = 0 then pure (in1, in2)
  else if _hN : N < I.size then Exec.fail .illFormed
  else do
    let (next1, in1) ← prefetch I N in1
    let (next2, in2) ← prefetch I N in2
    let x1 ← initialised loaded1
    let x2 ← initialised loaded2
    I.storeAligned (f x1 x2) out
    mpIteration2 f (N - I.size) (out + I.size) next1 in1 next2 in2
termination_by N
decreasing_by have := I.size_pos; omega

/-- `mp_iteration_3` (detail/unroll_helpers.hpp:120-145, 202-208) -/
def mpIteration3 (f : I.V → I.V → I.V → I.V) (N out : Nat) (loaded1 : Option I.V)
    (in1 : VArg α I.size) (loaded2 : Option I.V) (in2 : VArg α I.size)
    (loaded3 : Option I.V) (in3 : VArg α I.size) :
    Exec α (VArg α I.size × VArg α I.size × VArg α I.size) :=
  if N = 0 then pure (in1, in2, in3)
  else if _hN : N < I.size then Exec.fail .illFormed
  else do
    let (next1, in1) ← prefetch I N in1
    let (next2, in2) ← prefetch I N in2
    let (next3, in3) ← prefetch I N in3
    let x1 ← initialised loaded1
    let x2 ← initialised loaded2
    let x3 ← initialised loaded3
    I.storeAligned (f x1 x2 x3) out
    mpIteration3 f (N - I.size) (out + I.size) next1 in1 next2 in2 next3 in3
termination_by N
decreasing_by have := I.size_pos; omega

/-- `mp_iteration_4` (detail/unroll_helpers.hpp:147-177, 210-219) -/
def mpIteration4 (f : I.V → I.V → I.V → I.V → I.V) (N out : Nat) (loaded1 : Option I.V)
    (in1 : VArg α I.size) (loaded2 : Option I.V) (in2 : VArg α I.size)
    (loaded3 : Option I.V) (in3 : VArg α I.size) (loaded4 : Option I.V) (in4 : VArg α I.size) :
    Exec α (VArg α I.size × VArg α I.size × VArg α I.size × VArg α I.size) :=
  if N = 0 then pure (in1, in2, in3, in4)
  else if _hN : N < I.size then Exec.fail .illFormed
  else do
    let (next1, in1) ← prefetch I N in1
    let (next2, in2) ← prefetch I N in2
    let (next3, in3) ← prefetch I N in3
    let (next4, in4) ← prefetch I N in4
    let x1 ← initialised loaded1
    let x2 ← initialised loaded2
    let x3 ← initialised loaded3
    let x4 ← initialised loaded4
    I.storeAligned (f x1 x2 x3 x4) out
    mpIteration4 f (N - I.size) (out + I.size) next1 in1 next2 in2 next3 in3 next4 in4
termination_by N
decreasing_by have := I.size_pos; omega

/-- `compile_time_unroller<F,N>::run(out, in1, f)` (detail/unroll_helpers.hpp:42-48).  `run` is only a
member of the primary template, so `N = 0` does not compile. -/
def run1 (f : I.V → Except Fault I.V) (N out : Nat) (in1 : VArg α I.size) :
    Exec α (VArg α I.size) :=
  if N = 0 then Exec.fail .illFormed else do
    let (v1, in1) ← in1.consume I
    mpIteration1 I f N out (some v1) in1

/-- `run(out, in1, in2, f)` (detail/unroll_helpers.hpp:50-57) -/
def run2 (f : I.V → I.V → I.V) (N out : Nat) (in1 in2 : VArg α I.size) :
    Exec α (VArg α I.size × VArg α I.size) :=
  if N = 0 then Exec.fail .illFormed else do
    let (v1, in1) ← in1.consume I
    let (v2, in2) ← in2.consume I
    mpIteration2 I f N out (some v1) in1 (some v2) in2

/-- `run(out, in1, in2, in3, f)` (detail/unroll_helpers.hpp:59-68) -/
def run3 (f : I.V → I.V → I.V → I.V) (N out : Nat) (in1 in2 in3 : VArg α I.size) :
    Exec α (VArg α I.size × VArg α I.size × VArg α I.size) :=
  if N = 0 then Exec.fail .illFormed else do
    let (v1, in1) ← in1.consume I
    let (v2, in2) ← in2.consume I
    let (v3, in3) ← in3.consume I
    mpIteration3 I f N out (some v1) in1 (some v2) in2 (some v3) in3

/-- `run(out, in1, in2, in3, in4, f)` (detail/unroll_helpers.hpp:70-81) -/
def run4 (f : I.V → I.V → I.V → I.V → I.V) (N out : Nat) (in1 in2 in3 in4 : VArg α I.size) :
    Exec α (VArg α I.size × VArg α I.size × VArg α I.size × VArg α I.size) :=
  if N = 0 then Exec.fail .illFormed else do
    let (v1, in1) ← in1.consume I
    let (v2, in2) ← in2.consume I
    let (v3, in3) ← in3.consume I
    let (v4, in4) ← in4.consume I
    mpIteration4 I f N out (some v1) in1 (some v2) in2 (some v3) in3 (some v4) in4

/-! ## SIMD loops with run-time size -/

/-- `generate_simd_loop(out, arg1, n, f)` (detail/unroll_helpers.hpp:223-235):
`n /= per_loop; do { run(out, arg1, f); out += per_loop; } while (--n);` -/
def simdLoop1 (f : I.V → Except Fault I.V) (out : Nat) (arg1 : VArg α I.size) (n : BitVec 32) :
    Exec α Unit := do
  let n := n / BitVec.ofNat 32 I.perLine
  let _ ← doWhile (fun (s : Nat × VArg α I.size) => do
      let (out, arg1) := s
      let arg1 ← run1 I f I.perLine out arg1
      pure (out + I.perLine, arg1)) n (out, arg1)
  pure ()

/-- `generate_simd_loop(out, arg1, arg2, n, f)` (detail/unroll_helpers.hpp:237-250) -/
def simdLoop2 (f : I.V → I.V → I.V) (out : Nat) (arg1 arg2 : VArg α I.size) (n : BitVec 32) :
    Exec α Unit := do
  let n := n / BitVec.ofNat 32 I.perLine
  let _ ← doWhile (fun (s : Nat × VArg α I.size × VArg α I.size) => do
      let (out, arg1, arg2) := s
      let (arg1, arg2) ← run2 I f I.perLine out arg1 arg2
      pure (out + I.perLine, arg1, arg2)) n (out, arg1, arg2)
  pure ()

/-- `generate_simd_loop(out, arg1, arg2, arg3, n, f)` (detail/unroll_helpers.hpp:252-266) -/
def simdLoop3 (f : I.V → I.V → I.V → I.V) (out : Nat) (arg1 arg2 arg3 : VArg α I.size)
    (n : BitVec 32) : Exec α Unit := do
  let n := n / BitVec.ofNat 32 I.perLine
  let _ ← doWhile (fun (s : Nat × VArg α I.size × VArg α I.size × VArg α I.size) => do
      let (out, arg1, arg2, arg3) := s
      let (arg1, arg2, arg3) ← run3 I f I.perLine out arg1 arg2 arg3
      pure (out + I.perLine, arg1, arg2, arg3)) n (out, arg1, arg2, arg3)
  pure ()

/-- `generate_simd_loop(out, arg1, arg2, arg3, arg4, n, f)` (detail/unroll_helpers.hpp:268-283) -/
def simdLoop4 (f : I.V → I.V → I.V → I.V → I.V) (out : Nat) (arg1 arg2 arg3 arg4 : VArg α I.size)
    (n : BitVec 32) : Exec α Unit := do
  let n := n / BitVec.ofNat 32 I.perLine
  let _ ← doWhile (fun (s : Nat × VArg α I.size × VArg α I.size × VArg α I.size × VArg α I.size) => do
      let (out, arg1, arg2, arg3, arg4) := s
      let (arg1, arg2, arg3, arg4) ← run4 I f I.perLine out arg1 arg2 arg3 arg4
      pure (out + I.perLine, arg1, arg2, arg3, arg4)) n (out, arg1, arg2, arg3, arg4)
  pure ()

end unroller

/-! ## `unary_functor` … `quarternary_functor` (detail/define_macros.hpp) -/

/-- `unary_functor::perform_vec` (detail/define_macros.hpp:38-42) -/
def performVec1 (f : α → Except Fault α) (out inp : Nat) (n : BitVec 32) : Exec α Unit :=
  applyOnVector1 f out inp n

/-- `unary_functor::perform_vec_simd(out, arg, n)` (detail/define_macros.hpp:44-48) -/
def performVecSimd1 (I : VecImpl α) (f : α → Except Fault α) (out inp : Nat) (n : BitVec 32) :
    Exec α Unit :=
  simdLoop1 I (VecImpl.mapM f) out (wrapVectorArg I (.ptr inp)) n

/-- `unary_functor::perform_vec_simd<n>(out, arg)` (detail/define_macros.hpp:50-55) -/
def performVecSimdN1 (I : VecImpl α) (f : α → Except Fault α) (N out inp : Nat) : Exec α Unit := do
  let _ ← run1 I (VecImpl.mapM f) N out (.ptr inp)
  pure ()

/-- `binary_functor::perform_vec` (detail/define_macros.hpp:61-65) -/
def performVec2 (A : Arith α) (f : α → α → α) (out : Nat) (arg1 arg2 : SArg α) (n : BitVec 32) :
    Exec α Unit :=
  applyOnVector2 A f out arg1 arg2 n

/-- `binary_functor::perform_vec_simd(out, arg1, arg2, n)` (detail/define_macros.hpp:67-74) -/
def performVecSimd2 (I : VecImpl α) (f : α → α → α) (out : Nat) (arg1 arg2 : SArg α)
    (n : BitVec 32) : Exec α Unit :=
  simdLoop2 I (fun a b i => f (a i) (b i)) out (wrapVectorArg I arg1) (wrapVectorArg I arg2) n

/-- `binary_functor::perform_vec_simd<n>(out, arg1, arg2)` (detail/define_macros.hpp:76-89) -/
def performVecSimdN2 (I : VecImpl α) (f : α → α → α) (N out : Nat) (arg1 arg2 : SArg α) :
    Exec α Unit := do
  let _ ← run2 I (fun a b i => f (a i) (b i)) N out (wrapVectorArg I arg1) (wrapVectorArg I arg2)
  pure ()

/-- `ternary_functor::perform_vec` (detail/define_macros.hpp:95-99) -/
def performVec3 (A : Arith α) (f : α → α → α → α) (out : Nat) (arg1 arg2 arg3 : SArg α)
    (n : BitVec 32) : Exec α Unit :=
  applyOnVector3 A f out arg1 arg2 arg3 n

/-- `ternary_functor::perform_vec_simd(…, n)` (detail/define_macros.hpp:101-109) -/
def performVecSimd3 (I : VecImpl α) (f : α → α → α → α) (out : Nat) (arg1 arg2 arg3 : SArg α)
    (n : BitVec 32) : Exec α Unit :=
  simdLoop3 I (fun a b c i => f (a i) (b i) (c i)) out (wrapVectorArg I arg1)
    (wrapVectorArg I arg2) (wrapVectorArg I arg3) n

/-- `ternary_functor::perform_vec_simd<n>(…)` (detail/define_macros.hpp:111-125) -/
def performVecSimdN3 (I : VecImpl α) (f : α → α → α → α) (N out : Nat) (arg1 arg2 arg3 : SArg α) :
    Exec α Unit := do
  let _ ← run3 I (fun a b c i => f (a i) (b i) (c i)) N out (wrapVectorArg I arg1)
    (wrapVectorArg I arg2) (wrapVectorArg I arg3)
  pure ()

/-- `quarternary_functor::perform_vec` (detail/define_macros.hpp:131-136) -/
def performVec4 (A : Arith α) (f : α → α → α → α → α) (out : Nat) (arg1 arg2 arg3 arg4 : SArg α)
    (n : BitVec 32) : Exec α Unit :=
  applyOnVector4 A f out arg1 arg2 arg3 arg4 n

/-- `quarternary_functor::perform_vec_simd(…, n)` (detail/define_macros.hpp:138-147) -/
def performVecSimd4 (I : VecImpl α) (f : α → α → α → α → α) (out : Nat)
    (arg1 arg2 arg3 arg4 : SArg α) (n : BitVec 32) : Exec α Unit :=
  simdLoop4 I (fun a b c d i => f (a i) (b i) (c i) (d i)) out (wrapVectorArg I arg1)
    (wrapVectorArg I arg2) (wrapVectorArg I arg3) (wrapVectorArg I arg4) n

/-- `quarternary_functor::perform_vec_simd<n>(…)` (detail/define_macros.hpp:149-164) -/
def performVecSimdN4 (I : VecImpl α) (f : α → α → α → α → α) (N out : Nat)
    (arg1 arg2 arg3 arg4 : SArg α) : Exec α Unit := do
  let _ ← run4 I (fun a b c d i => f (a i) (b i) (c i) (d i)) N out (wrapVectorArg I arg1)
    (wrapVectorArg I arg2) (wrapVectorArg I arg3) (wrapVectorArg I arg4)
  pure ()

end Nova
