import Verif.Model.Backends
import Verif.Model.Unroll

/-!
# simd_peakmeter.hpp and simd_horizontal_functions.hpp
-/

namespace Nova
variable {α : Type}

/-! ## Peak meters -/

/-- `peak_vec` (simd_peakmeter.hpp:38-52).  `last` is uninitialised before the loop; the loop assigns
it in its first iteration, so the model starts with the absolute value of the first element read
(`none` before). -/
def peakVec (E : Env α) (inp peak : Nat) (n : BitVec 32) : Exec α α := do
  let localPeak ← read peak
  let (_, last, localPeak) ← doWhile (fun (s : Nat × Option α × α) => do
      let (inp, _, localPeak) := s
      let x ← read inp
      let last := E.S.abs x
      pure (inp + 1, some last, Neon.stdMax E.S localPeak last)) n (inp, none, localPeak)
  write peak localPeak
  initialised last

/-- One iteration of the loop of `peak_vec_simd` (simd_peakmeter.hpp:65-79): the maximum so far and
`abs3` -/
def peakStep (I : VecImpl α) (inp : Nat) (maximum : I.V) : Exec α (I.V × I.V) := do
  let in0 ← I.loadAligned inp
  let in1 ← I.loadAligned (inp + I.size)
  let in2 ← I.loadAligned (inp + 2 * I.size)
  let in3 ← I.loadAligned (inp + 3 * I.size)
  let abs0 := VecImpl.map I.lane.abs in0
  let abs1 := VecImpl.map I.lane.abs in1
  let abs2 := VecImpl.map I.lane.abs in2
  let abs3 := VecImpl.map I.lane.abs in3
  let localMax := VecImpl.zip I.lane.max_ (VecImpl.zip I.lane.max_ abs0 abs1)
    (VecImpl.zip I.lane.max_ abs2 abs3)
  pure (VecImpl.zip I.lane.max_ maximum localMax, abs3)

/-- `peak_vec_simd` (simd_peakmeter.hpp:54-88).  The constructor of `vec` leaves `abs3` uninitialised. -/
def peakVecSimd (I : VecImpl α) (inp peak : Nat) (n : BitVec 32) : Exec α α := do
  let maximum ← I.loadFirst peak
  let unroll := 4 * I.size
  let (_, maximum, abs3) ← doWhile (fun (s : Nat × I.V × Option I.V) => do
      let (inp, maximum, _) := s
      let (maximum, abs3) ← peakStep I inp maximum
      pure (inp + unroll, maximum, some abs3)) (n / BitVec.ofNat 32 unroll) (inp, maximum, none)
  write peak (I.horizontalMax maximum)
  let abs3 ← initialised abs3
  Exec.lift (I.get abs3 (I.size - 1))

/-- `peak_rms_vec` (simd_peakmeter.hpp:91-107) -/
def peakRmsVec (E : Env α) (inp peak squaredSum : Nat) (n : BitVec 32) : Exec α Unit := do
  let localPeak ← read peak
  let localSum ← read squaredSum
  let (_, localPeak, localSum) ← doWhile (fun (s : Nat × α × α) => do
      let (inp, localPeak, localSum) := s
      let inSample ← read inp
      let last := E.S.abs inSample
      pure (inp + 1, Neon.stdMax E.S localPeak last,
        E.S.add localSum (E.S.mul inSample inSample))) n (inp, localPeak, localSum)
  write peak localPeak
  write squaredSum localSum

/-- One iteration of the loop of `peak_rms_vec_simd` (simd_peakmeter.hpp:123-142) -/
def peakRmsStep (I : VecImpl α) (inp : Nat) (maximum localSum : I.V) : Exec α (I.V × I.V) := do
  let in0 ← I.loadAligned inp
  let in1 ← I.loadAligned (inp + I.size)
  let in2 ← I.loadAligned (inp + 2 * I.size)
  let in3 ← I.loadAligned (inp + 3 * I.size)
  let abs0 := VecImpl.map I.lane.abs in0
  let sqr0 := VecImpl.map I.lane.square in0
  let abs1 := VecImpl.map I.lane.abs in1
  let sqr1 := VecImpl.map I.lane.square in1
  let abs2 := VecImpl.map I.lane.abs in2
  let sqr2 := VecImpl.map I.lane.square in2
  let abs3 := VecImpl.map I.lane.abs in3
  let sqr3 := VecImpl.map I.lane.square in3
  let localMax := VecImpl.zip I.lane.max_ (VecImpl.zip I.lane.max_ abs0 abs1)
    (VecImpl.zip I.lane.max_ abs2 abs3)
  let add := VecImpl.zip I.lane.add
  pure (VecImpl.zip I.lane.max_ maximum localMax, add localSum (add (add (add sqr0 sqr1) sqr2) sqr3))

/-- `peak_rms_vec_simd` (simd_peakmeter.hpp:109-150) -/
def peakRmsVecSimd (I : VecImpl α) (inp peak squaredSum : Nat) (n : BitVec 32) : Exec α Unit := do
  let maximum ← I.loadFirst peak
  let localSum ← I.loadFirst squaredSum
  let unroll := 4 * I.size
  let (_, maximum, localSum) ← doWhile (fun (s : Nat × I.V × I.V) => do
      let (inp, maximum, localSum) := s
      let (maximum, localSum) ← peakRmsStep I inp maximum localSum
      pure (inp + unroll, maximum, localSum)) (n / BitVec.ofNat 32 unroll) (inp, maximum, localSum)
  write peak (I.horizontalMax maximum)
  write squaredSum (I.horizontalSum localSum)

/-! ## Horizontal functions -/

/-- `std::numeric_limits<F>::min()` (the smallest positive normal number for floating point types) and
`std::numeric_limits<F>::max()` (simd_horizontal_functions.hpp:39, 142-143) -/
structure Limits (α : Type) where
  min : α
  max : α

/-- The scalar loop `do { current = f(current, *in++); } while(--n);` common to
simd_horizontal_functions.hpp:42-44, 77-79, 111-113 (and, with a pair as state, 146-149, 185-188) -/
def foldVec {σ : Type} (f : σ → α → σ) (init : σ) (inp : Nat) (n : BitVec 32) : Exec α σ := do
  let (_, current) ← doWhile (fun (s : Nat × σ) => do
      let (inp, current) := s
      let x ← read inp
      pure (inp + 1, f current x)) n (inp, init)
  pure current

/-- The SIMD loop `n /= vec_size; do { val.load_aligned(in); current = f(current, val); in += vec_size;
} while(--n);` common to simd_horizontal_functions.hpp:55-64, 90-99, 123-132, 161-171, 200-210 -/
def foldVecSimd {σ : Type} (I : VecImpl α) (f : σ → I.V → σ) (init : σ) (inp : Nat) (n : BitVec 32) :
    Exec α σ := do
  let (_, current) ← doWhile (fun (s : Nat × σ) => do
      let (inp, current) := s
      let val ← I.loadAligned inp
      pure (inp + I.size, f current val)) (n / BitVec.ofNat 32 I.size) (inp, init)
  pure current

/-- `horizontal_max_vec` (simd_horizontal_functions.hpp:36-47) -/
def horizontalMaxVec (E : Env α) (lim : Limits α) (inp : Nat) (n : BitVec 32) : Exec α α :=
  foldVec (fun current x => Neon.stdMax E.S current x) lim.min inp n

/-- `horizontal_max_vec_simd` (simd_horizontal_functions.hpp:49-67) -/
def horizontalMaxVecSimd (I : VecImpl α) (lim : Limits α) (inp : Nat) (n : BitVec 32) : Exec α α := do
  let current ← foldVecSimd I (VecImpl.zip I.lane.max_) (I.setVec lim.min) inp n
  pure (I.horizontalMax current)

/-- `horizontal_min_vec` (simd_horizontal_functions.hpp:71-82): also starts from `min()` -/
def horizontalMinVec (E : Env α) (lim : Limits α) (inp : Nat) (n : BitVec 32) : Exec α α :=
  foldVec (fun current x => Neon.stdMin E.S current x) lim.min inp n

/-- `horizontal_min_vec_simd` (simd_horizontal_functions.hpp:84-102) -/
def horizontalMinVecSimd (I : VecImpl α) (lim : Limits α) (inp : Nat) (n : BitVec 32) : Exec α α := do
  let current ← foldVecSimd I (VecImpl.zip I.lane.min_) (I.setVec lim.min) inp n
  pure (I.horizontalMin current)

/-- `horizontal_sum_vec` (simd_horizontal_functions.hpp:105-116) -/
def horizontalSumVec (E : Env α) (inp : Nat) (n : BitVec 32) : Exec α α :=
  foldVec (fun current x => E.S.add current x) E.S.zero inp n

/-- `horizontal_sum_vec_simd` (simd_horizontal_functions.hpp:118-135) -/
def horizontalSumVecSimd (E : Env α) (I : VecImpl α) (inp : Nat) (n : BitVec 32) : Exec α α := do
  let current ← foldVecSimd I (VecImpl.zip I.lane.add) (I.setVec E.S.zero) inp n
  pure (I.horizontalSum current)

/-- `horizontal_minmax_vec` (simd_horizontal_functions.hpp:139-153): the results go through references;
the model returns `(rmin, rmax)` -/
def horizontalMinmaxVec (E : Env α) (lim : Limits α) (inp : Nat) (n : BitVec 32) : Exec α (α × α) := do
  let (currentMax, currentMin) ← foldVec (fun (s : α × α) x =>
    (Neon.stdMax E.S s.1 x, Neon.stdMin E.S s.2 x)) (lim.min, lim.max) inp n
  pure (currentMin, currentMax)

/-- `horizontal_minmax_vec_simd` (simd_horizontal_functions.hpp:155-175) -/
def horizontalMinmaxVecSimd (I : VecImpl α) (lim : Limits α) (inp : Nat) (n : BitVec 32) :
    Exec α (α × α) := do
  let (currentMax, currentMin) ← foldVecSimd I (fun (s : I.V × I.V) val =>
    (VecImpl.zip I.lane.max_ s.1 val, VecImpl.zip I.lane.min_ s.2 val))
    (I.setVec lim.min, I.setVec lim.max) inp n
  pure (I.horizontalMin currentMin, I.horizontalMax currentMax)

/-- `horizontal_maxsum_vec` (simd_horizontal_functions.hpp:178-192): returns `(rmax, rsum)` -/
def horizontalMaxsumVec (E : Env α) (lim : Limits α) (inp : Nat) (n : BitVec 32) : Exec α (α × α) :=
  foldVec (fun (s : α × α) x => (Neon.stdMax E.S s.1 x, E.S.add s.2 x)) (lim.min, E.S.zero) inp n

/-- `horizontal_maxsum_vec_simd` (simd_horizontal_functions.hpp:194-214) -/
def horizontalMaxsumVecSimd (E : Env α) (I : VecImpl α) (lim : Limits α) (inp : Nat) (n : BitVec 32) :
    Exec α (α × α) := do
  let (currentMax, currentSum) ← foldVecSimd I (fun (s : I.V × I.V) val =>
    (VecImpl.zip I.lane.max_ s.1 val, VecImpl.zip I.lane.add s.2 val))
    (I.setVec lim.min, I.setVec E.S.zero) inp n
  pure (I.horizontalMax currentMax, I.horizontalSum currentSum)

/-! ## simd_utils.hpp -/
namespace SseUtils

/-- `detail::extract_0` (simd_utils.hpp:102-107) -/
def extract0 (v : Vec α 4) : α := v 0

/-- `detail::extract_3` (simd_utils.hpp:109-115) -/
def extract3 (v : Vec α 4) : α := shufflePs v v 2 1 0 3 0

/-- `detail::horizontal_min(__m128)` (simd_utils.hpp:117-126) -/
def horizontalMin (min_ : α → α → α) (args : Vec α 4) : α :=
  let xmm1 := shufflePs args args 2 2 2 2
  let xmm0 := VecImpl.zip min_ args xmm1
  let xmm1 := shufflePs xmm0 xmm0 1 1 1 1
  extract0 (opSs min_ xmm0 xmm1)

/-- `detail::horizontal_max(__m128)` (simd_utils.hpp:128-137) -/
def horizontalMax (max_ : α → α → α) (args : Vec α 4) : α :=
  let xmm1 := shufflePs args args 2 2 2 2
  let xmm0 := VecImpl.zip max_ args xmm1
  let xmm1 := shufflePs xmm0 xmm0 1 1 1 1
  extract0 (opSs max_ xmm0 xmm1)

end SseUtils

end Nova
