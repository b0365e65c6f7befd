import Verif.Model.Contract
import Verif.Model.Functors
import Verif.Model.Meters

/-!
# Contraction in the mixing functions and the meters

`peak_rms_vec` and `peak_rms_vec_simd` when the compiler may evaluate a square and the addition which uses it with one
rounding (see `Verif.Model.Contract`).  The additions are parameters, which may depend on the number of the iteration (and on
the lane): an unrolled loop may decide differently in each copy of its body.
-/

namespace Nova.Contract
open FP
variable {α : Type} {w : Nat}

/-- The possible results of a function of three arguments for one element, `float` or `double`, scalar or SIMD: that of the
text (`TerOp.f`), or those with fused products -/
def mix3 (F : Fmt w) (c : Bool) (A : Arith (BitVec w)) (op : TerOp) (x y z : BitVec w) : List (BitVec w) :=
  op.f A x y z ::
    if c then
      match op with
      -- simd_ternary_arithmetic.hpp:50-63
      | .muladd => F.sums true (.prod x y) (.reg z)
      -- simd_ternary_arithmetic.hpp:65-73
      | .ampmod => (F.sums true (.reg A.one) (.prod y z)).map fun g => A.mul x g
      | _ => []
    else []

/-- The possible results of a function of four arguments for one element -/
def mix4 (F : Fmt w) (c : Bool) (A : Arith (BitVec w)) (op : QuadOp) (x y z u : BitVec w) : List (BitVec w) :=
  op.f A x y z u ::
    if c then
      match op with
      -- simd_mix.hpp:38-45
      | .mix => F.sums true (.prod x y) (.prod z u)
      | _ => []
    else []

/-- The possible results of `local_squared_sum + in_sample * in_sample` (simd_peakmeter.hpp:102) -/
def squareAdd (F : Fmt w) (c : Bool) (sum x : BitVec w) : List (BitVec w) := F.sums c (.reg sum) (.prod x x)

/-- The possible results of `sqr0 + sqr1 + sqr2 + sqr3` in one lane (simd_peakmeter.hpp:129-141), where
`square(x)` is `x * x` (vec/vec_base.hpp:322, vec/vec_neon.hpp:378-381, vec/vec_sse.hpp:452-455, vec/vec_sse2.hpp:322-325) -/
def fourSquares (F : Fmt w) (c : Bool) (x0 x1 x2 x3 : BitVec w) : List (BitVec w) :=
  (F.sums c (.prod x0 x0) (.prod x1 x1)).flatMap fun s =>
  (F.sums c (.reg s) (.prod x2 x2)).flatMap fun s =>
  F.sums c (.reg s) (.prod x3 x3)

/-- `peak_rms_vec` (simd_peakmeter.hpp:91-107); `squareAdd k` is what iteration `k` computes for
`local_squared_sum += in_sample * in_sample`. -/
def peakRmsVec (E : Env α) (squareAdd : Nat → α → α → α) (inp peak squaredSum : Nat) (n : BitVec 32) : Exec α Unit := do
  let localPeak ← read peak
  let localSum ← read squaredSum
  let (_, _, localPeak, localSum) ← doWhile (fun (s : Nat × Nat × α × α) => do
      let (k, inp, localPeak, localSum) := s
      let inSample ← read inp
      let last := E.S.abs inSample
      pure (k + 1, inp + 1, Neon.stdMax E.S localPeak last, squareAdd k localSum inSample)) n (0, inp, localPeak, localSum)
  write peak localPeak
  write squaredSum localSum

/-- One iteration of the loop of `peak_rms_vec_simd` (simd_peakmeter.hpp:123-142); `fourSquares l` is what lane `l` computes
for `sqr0 + sqr1 + sqr2 + sqr3`. -/
def peakRmsStep (I : VecImpl α) (fourSquares : Nat → α → α → α → α → α) (inp : Nat) (maximum localSum : I.V) :
    Exec α (I.V × I.V) := do
  let in0 ← I.loadAligned inp
  let in1 ← I.loadAligned (inp + I.size)
  let in2 ← I.loadAligned (inp + 2 * I.size)
  let in3 ← I.loadAligned (inp + 3 * I.size)
  let abs0 := VecImpl.map I.lane.abs in0
  let abs1 := VecImpl.map I.lane.abs in1
  let abs2 := VecImpl.map I.lane.abs in2
  let abs3 := VecImpl.map I.lane.abs in3
  let localMax := VecImpl.zip I.lane.max_ (VecImpl.zip I.lane.max_ abs0 abs1)
    (VecImpl.zip I.lane.max_ abs2 abs3)
  let squares : I.V := fun l => fourSquares l (in0 l) (in1 l) (in2 l) (in3 l)
  pure (VecImpl.zip I.lane.max_ maximum localMax, VecImpl.zip I.lane.add localSum squares)

/-- `peak_rms_vec_simd` (simd_peakmeter.hpp:109-150); `fourSquares k l` is what lane `l` computes for
`sqr0 + sqr1 + sqr2 + sqr3` in iteration `k`. -/
def peakRmsVecSimd (I : VecImpl α) (fourSquares : Nat → Nat → α → α → α → α → α) (inp peak squaredSum : Nat)
    (n : BitVec 32) : Exec α Unit := do
  let maximum ← I.loadFirst peak
  let localSum ← I.loadFirst squaredSum
  let unroll := 4 * I.size
  let (_, _, maximum, localSum) ← doWhile (fun (s : Nat × Nat × I.V × I.V) => do
      let (k, inp, maximum, localSum) := s
      let (maximum, localSum) ← peakRmsStep I (fourSquares k) inp maximum localSum
      pure (k + 1, inp + unroll, maximum, localSum)) (n / BitVec.ofNat 32 unroll) (0, inp, maximum, localSum)
  write peak (I.horizontalMax maximum)
  write squaredSum (I.horizontalSum localSum)

end Nova.Contract
