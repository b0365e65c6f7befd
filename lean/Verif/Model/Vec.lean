import Verif.Base

/-!
# The interface of `vec<F>` and of the element type

`Arith α` collects the functions that the functors of the library call on a `FloatType`.
The functors are templates: the same text is instantiated with a scalar type
(`float`, `double`) and with `vec<float>` / `vec<double>`.  All functions of `vec` that are
used by functors act lane by lane, so a vector class contributes the function computed by
one lane.  A call of the library therefore involves two records: the scalar one and
`VecImpl.lane`.  No law is assumed about either.
-/

namespace Nova

/-- The functions a functor may use on its argument type.
Models the overload sets of `detail/math.hpp:165-345` (scalars) and the members and friends of
`vec<F>` in `vec/*.hpp` (one lane). -/
structure Arith (α : Type) where
  zero : α
  one : α
  /-- a floating point literal of the source text, converted to the type -/
  lit : Rat → α
  add : α → α → α
  sub : α → α → α
  mul : α → α → α
  div : α → α → α
  /-- `madd(a,b,c)`; on scalars the text is `a * b + c` -/
  madd : α → α → α → α
  max_ : α → α → α
  min_ : α → α → α
  /-- relational operators, converted to the type: `FloatType(x < y)` -/
  lt : α → α → α
  le : α → α → α
  gt : α → α → α
  ge : α → α → α
  eq : α → α → α
  ne : α → α → α
  /-- `x < y` used as a condition (scalars only) -/
  less : α → α → Bool
  abs : α → α
  sign : α → α
  square : α → α
  cube : α → α
  reciprocal : α → α
  undenormalize : α → α
  round : α → α
  floor : α → α
  ceil : α → α
  frac : α → α
  /-- the scalar `trunc` goes through `long` and can fault -/
  trunc : α → Except Fault α
  sin : α → α
  cos : α → α
  tan : α → α
  asin : α → α
  acos : α → α
  atan : α → α
  tanh : α → α
  log : α → α
  log2 : α → α
  log10 : α → α
  exp : α → α
  signedSqrt : α → α
  pow : α → α → α
  signedPow : α → α → α
  softclip : α → α

/-- A vector class `vec<F>`: what the classes in vec/vec_generic.hpp:65-188 and its specialisations (vec/vec_sse.hpp,
vec/vec_sse2.hpp, vec/vec_avx_float.hpp, vec/vec_avx_double.hpp, vec/vec_neon.hpp, vec/vec_altivec.hpp) have in common. -/
structure VecImpl (α : Type) where
  /-- `vec<F>::size` -/
  size : Nat
  size_pos : 0 < size
  /-- `vec<F>::objects_per_cacheline` -/
  perLine : Nat
  /-- `load(p)` -/
  load : Nat → Exec α (Vec α size)
  /-- `load_aligned(p)` -/
  loadAligned : Nat → Exec α (Vec α size)
  /-- `load_first(p)` -/
  loadFirst : Nat → Exec α (Vec α size)
  /-- `store(p)` -/
  store : Vec α size → Nat → Exec α Unit
  /-- `store_aligned(p)` -/
  storeAligned : Vec α size → Nat → Exec α Unit
  /-- `clear()` -/
  clear : Vec α size
  /-- `set_vec(f)` and the constructor `vec(f)` -/
  setVec : α → Vec α size
  /-- `set_slope(start, slope)`: the new register and the return value -/
  setSlope : α → α → Vec α size × α
  /-- `set_exp(start, curve)`: the new register and the return value -/
  setExp : α → α → Vec α size × α
  /-- `get(index)` -/
  get : Vec α size → Nat → Except Fault α
  /-- `set(index, value)` -/
  set : Vec α size → Nat → α → Except Fault (Vec α size)
  horizontalMin : Vec α size → α
  horizontalMax : Vec α size → α
  horizontalSum : Vec α size → α
  /-- the function computed by one lane of the arithmetic members and friends -/
  lane : Arith α
  /-- the conversion `F → float → F`, done by `float vSlope = …` in
  `detail/wrap_argument_vector.hpp:94-95`; the identity when `F` is `float` -/
  viaFloat : α → α

namespace VecImpl
variable {α : Type}

/-- The register type of a vector class. -/
abbrev V (I : VecImpl α) : Type := Vec α I.size

/-- A lane-wise binary operation on registers (`vec_base::apply_binary`, vec/vec_base.hpp:192-203). -/
def zip {w : Nat} (f : α → α → α) (a b : Vec α w) : Vec α w := fun i => f (a i) (b i)

/-- A lane-wise unary operation on registers (`vec_base::apply_unary`, vec/vec_base.hpp:181-190). -/
def map {w : Nat} (f : α → α) (a : Vec α w) : Vec α w := fun i => f (a i)

/-- A lane-wise unary operation that may fault in a lane (`vec_base::apply_unary`,
`vec/vec_base.hpp:181-190`, with a functor that may be undefined). -/
def mapM {w : Nat} (f : α → Except Fault α) (a : Vec α w) : Except Fault (Vec α w) :=
  if h : ∀ i, (f (a i)).toOption.isSome then .ok fun i => ((f (a i)).toOption).get (h i)
  else .error .badConv

end VecImpl

end Nova
