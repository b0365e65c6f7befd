import Verif.Model.Vec

/-!
# The vector classes `vec<float>` and `vec<double>` of every instruction set

Registers, memory access, element access, slopes and horizontal functions.  The arithmetic of one
lane is the record `Env.L`; scalar arithmetic is `Env.S`.  The element type is abstract, so `float`
and `double` versions differ in sizes only.
-/

namespace Nova
variable {α : Type}

/-- What a build provides besides the text of the library: no code in /repo; `viaFloat` is the declaration `float vSlope`
in detail/wrap_argument_vector.hpp:94, `ndebug` controls the `assert`s. -/
structure Env (α : Type) where
  /-- scalar arithmetic of the C++ type -/
  S : Arith α
  /-- arithmetic of one lane -/
  L : Arith α
  /-- conversion through `float` -/
  viaFloat : α → α
  /-- contents of register lanes that the intrinsics leave undefined -/
  junk : Nat → α
  /-- `NDEBUG` is defined -/
  ndebug : Bool

/-! ## Intrinsics that move data -/

/-- `_mm_set_ps(e3,e2,e1,e0)` with the arguments in lane order; also `_mm256_set_pd` (vec/vec_sse.hpp:255, 264;
vec/vec_avx_double.hpp:182, 191) -/
def lanes4 (e0 e1 e2 e3 : α) : Vec α 4 := fun i =>
  match i with
  | 0 => e0 | 1 => e1 | 2 => e2 | 3 => e3

/-- `_mm_set_pd(e1,e0)` with the arguments in lane order (vec/vec_sse2.hpp:188, 195) -/
def lanes2 (e0 e1 : α) : Vec α 2 := fun i =>
  match i with
  | 0 => e0 | 1 => e1

/-- `_mm256_set_ps(e7,…,e0)` with the arguments in lane order (vec/vec_avx_float.hpp:197, 210) -/
def lanes8 (e0 e1 e2 e3 e4 e5 e6 e7 : α) : Vec α 8 := fun i =>
  match i with
  | 0 => e0 | 1 => e1 | 2 => e2 | 3 => e3 | 4 => e4 | 5 => e5 | 6 => e6 | 7 => e7

/-- `_mm_shuffle_ps(a, b, _MM_SHUFFLE(d, c, y, x))` = `[a x, a y, b c, b d]`
(vec/vec_sse.hpp:305-313, 635, 655) -/
def shufflePs (a b : Vec α 4) (d c y x : Fin 4) : Vec α 4 := lanes4 (a x) (a y) (b c) (b d)

/-- `_mm_movehl_ps(a, b)` = `[b 2, b 3, a 2, a 3]` (vec/vec_sse.hpp:633) -/
def movehlPs (a b : Vec α 4) : Vec α 4 := lanes4 (b 2) (b 3) (a 2) (a 3)

/-- `_mm_hadd_ps(a, b)` = `[a 0 + a 1, a 2 + a 3, b 0 + b 1, b 2 + b 3]` (vec/vec_sse.hpp:654) -/
def haddPs (add : α → α → α) (a b : Vec α 4) : Vec α 4 :=
  lanes4 (add (a 0) (a 1)) (add (a 2) (a 3)) (add (b 0) (b 1)) (add (b 2) (b 3))

/-- `_mm_OP_ss(a, b)`: the operation on lane 0, the other lanes of `a` (vec/vec_sse.hpp:637) -/
def opSs (op : α → α → α) (a b : Vec α 4) : Vec α 4 := lanes4 (op (a 0) (b 0)) (a 1) (a 2) (a 3)

/-- `_mm_unpackhi_pd(a, b)` = `[a 1, b 1]` (vec/vec_sse2.hpp:432) -/
def unpackhiPd (a b : Vec α 2) : Vec α 2 := lanes2 (a 1) (b 1)

/-- `_mm_OP_sd(a, b)` (vec/vec_sse2.hpp:433) -/
def opSd (op : α → α → α) (a b : Vec α 2) : Vec α 2 := lanes2 (op (a 0) (b 0)) (a 1)

/-- An access through `_mm_load_ps` and friends: general protection fault unless the address is a
multiple of the register size (vec/vec_sse.hpp:179-182, 194-202; vec/vec_sse2.hpp:145-148, 160-168;
vec/vec_avx_float.hpp:143-146, 159-167; vec/vec_avx_double.hpp:137-140, 153-161) -/
def alignedAt {β : Type} (w p : Nat) (x : Exec α β) : Exec α β :=
  if p % w = 0 then x else Exec.fail (.misaligned p)

/-! ## `vec_base` (vec/vec_base.hpp:79-177, 330-362) -/
namespace Base

/-- `load_first`: lane 0 from memory, zeros elsewhere (vec/vec_base.hpp:87-94) -/
def loadFirst (A : Arith α) (w p : Nat) : Exec α (Vec α w) := do
  let x ← read p
  pure fun i => if i.val = 0 then x else A.zero

/-- `get` (vec/vec_base.hpp:128-134): the `assert` is compiled in unless `NDEBUG` -/
def get (ndebug : Bool) {w : Nat} (v : Vec α w) (index : Nat) : Except Fault α :=
  if h : index < w then .ok (v ⟨index, h⟩)
  else .error (if ndebug then .badLane else .assertion)

/-- The register `v` with lane `index` replaced: `u.f[index] = arg` (vec/vec_base.hpp:138-141) -/
def setLane {w : Nat} (v : Vec α w) (index : Nat) (x : α) : Vec α w :=
  fun i => if i.val = index then x else v i

/-- `set` (vec/vec_base.hpp:136-142): no `assert` -/
def set {w : Nat} (v : Vec α w) (index : Nat) (x : α) : Except Fault (Vec α w) :=
  if index < w then .ok (setLane v index x) else .error .badLane

/-- The variable `diff` of `set_slope` before iteration `i` (vec/vec_base.hpp:154-161) -/
def diff (A : Arith α) (slope : α) : Nat → α
  | 0 => A.zero
  | i + 1 => A.add (diff A slope i) slope

/-- `set_slope` (vec/vec_base.hpp:152-164) -/
def setSlope (A : Arith α) (w : Nat) (start slope : α) : Vec α w × α :=
  (fun i => A.add start (diff A slope i), diff A slope w)

/-- The variable `value` of `set_exp` before iteration `i` (vec/vec_base.hpp:168-174) -/
def value (A : Arith α) (start curve : α) : Nat → α
  | 0 => start
  | i + 1 => A.mul (value A start curve i) curve

/-- `set_exp` (vec/vec_base.hpp:166-177) -/
def setExp (A : Arith α) (w : Nat) (start curve : α) : Vec α w × α :=
  (fun i => value A start curve i, value A start curve w)

/-- The lanes in order (`u.f`, vec/vec_base.hpp:53-56) -/
def toList {w : Nat} (v : Vec α w) : List α := List.ofFn v

/-- `*std::min_element` on a non-empty range: keeps the first smallest element, comparing with `<`
(vec/vec_base.hpp:335) -/
def minElement (A : Arith α) : α → List α → α
  | best, [] => best
  | best, x :: xs => minElement A (if A.less x best then x else best) xs

/-- `*std::max_element` (vec/vec_base.hpp:342) -/
def maxElement (A : Arith α) : α → List α → α
  | best, [] => best
  | best, x :: xs => maxElement A (if A.less best x then x else best) xs

/-- `horizontal_min` (vec/vec_base.hpp:331-336) -/
def horizontalMin (A : Arith α) {w : Nat} (hw : 0 < w) (v : Vec α w) : α :=
  minElement A (v ⟨0, hw⟩) (toList v).tail

/-- `horizontal_max` (vec/vec_base.hpp:338-343) -/
def horizontalMax (A : Arith α) {w : Nat} (hw : 0 < w) (v : Vec α w) : α :=
  maxElement A (v ⟨0, hw⟩) (toList v).tail

/-- `horizontal_sum` (vec/vec_base.hpp:345-353) -/
def horizontalSum (A : Arith α) {w : Nat} (v : Vec α w) : α := (toList v).foldl A.add A.zero

end Base

variable (E : Env α)

/-- `vec<F>` without an instruction set (vec/vec_generic.hpp:66-187, vec/vec_base.hpp:79-177, 330-362): everything from `vec_base`.
`perLine` is `64/sizeof(F)`: 16 for `float`, 8 for `double`. -/
def genericVec (perLine : Nat) : VecImpl α where
  size := 4
  size_pos := by decide
  perLine := perLine
  load := readVec 4
  loadAligned := readVec 4
  loadFirst := Base.loadFirst E.L 4
  store := writeVec
  storeAligned := writeVec
  clear := fun _ => E.L.zero
  setVec := fun c _ => c
  setSlope := Base.setSlope E.S 4
  setExp := Base.setExp E.S 4
  get := Base.get E.ndebug
  set := Base.set
  horizontalMin := Base.horizontalMin E.S (by decide)
  horizontalMax := Base.horizontalMax E.S (by decide)
  horizontalSum := Base.horizontalSum E.S
  lane := E.L
  viaFloat := E.viaFloat

/-! ## SSE -/
namespace Sse

/-- `set_slope` (vec/vec_sse.hpp:249-257) -/
def setSlope (A : Arith α) (start slope : α) : Vec α 4 × α :=
  let slope2 := A.add slope slope
  let v1 := A.add start slope
  let v2 := A.add start slope2
  let v3 := A.add (A.add start slope2) slope
  (lanes4 start v1 v2 v3, A.add slope2 slope2)

/-- `set_exp` (vec/vec_sse.hpp:259-266) -/
def setExp (A : Arith α) (start curve : α) : Vec α 4 × α :=
  let v1 := A.mul start curve
  let v2 := A.mul v1 curve
  let v3 := A.mul v2 curve
  (lanes4 start v1 v2 v3, A.mul v3 curve)

/-- `get` (vec/vec_sse.hpp:268-319): a `switch` without default, so an index above 3 returns an
uninitialised variable -/
def get (v : Vec α 4) (index : Nat) : Except Fault α :=
  match index with
  | 0 => .ok (v 0)
  | 1 => .ok (shufflePs v v 1 1 1 1 0)
  | 2 => .ok (shufflePs v v 2 2 2 2 0)
  | 3 => .ok (shufflePs v v 3 3 3 3 0)
  | _ => .error .uninit

/-- `set` with SSE4.1 (vec/vec_sse.hpp:218-241): `_mm_insert_ps` in a `switch` without default -/
def set41 (v : Vec α 4) (index : Nat) (x : α) : Except Fault (Vec α 4) :=
  match index with
  | 0 => .ok (lanes4 x (v 1) (v 2) (v 3))
  | 1 => .ok (lanes4 (v 0) x (v 2) (v 3))
  | 2 => .ok (lanes4 (v 0) (v 1) x (v 3))
  | 3 => .ok (lanes4 (v 0) (v 1) (v 2) x)
  | _ => .ok v

/-- `HORIZONTAL_OP` (vec/vec_sse.hpp:631-638) -/
def horizontalOp (op : α → α → α) (data : Vec α 4) : α :=
  let low := movehlPs data data
  let lowAccum := VecImpl.zip op low data
  let elem1 := shufflePs lowAccum lowAccum 1 1 1 1
  let accum := opSs op lowAccum elem1
  accum 0

/-- `horizontal_sum` with SSE3 (vec/vec_sse.hpp:651-659) -/
def horizontalSum3 (add : α → α → α) (data : Vec α 4) : α :=
  let accum1 := haddPs add data data
  let elem1 := shufflePs accum1 accum1 1 1 1 1
  let result := VecImpl.zip add accum1 elem1
  result 0

end Sse

/-- `vec<float>` with SSE (vec/vec_sse.hpp:56-58, 146-334, 630-666) -/
def sseVec (sse3 sse41 : Bool) : VecImpl α where
  size := 4
  size_pos := by decide
  perLine := 16
  load := readVec 4
  loadAligned := fun p => alignedAt 4 p (readVec 4 p)
  loadFirst := fun p => do
    let x ← read p
    pure (lanes4 x E.L.zero E.L.zero E.L.zero)
  store := writeVec
  storeAligned := fun v p => alignedAt 4 p (writeVec v p)
  clear := fun _ => E.L.zero
  setVec := fun c _ => c
  setSlope := Sse.setSlope E.S
  setExp := Sse.setExp E.S
  get := Sse.get
  set := if sse41 then Sse.set41 else Base.set
  horizontalMin := Sse.horizontalOp E.L.min_
  horizontalMax := Sse.horizontalOp E.L.max_
  horizontalSum := if sse3 then Sse.horizontalSum3 E.L.add else Sse.horizontalOp E.L.add
  lane := E.L
  viaFloat := E.viaFloat

/-! ## SSE2 -/
namespace Sse2

/-- `set_slope` (vec/vec_sse2.hpp:185-190) -/
def setSlope (A : Arith α) (start slope : α) : Vec α 2 × α :=
  let v1 := A.add start slope
  (lanes2 start v1, A.add slope slope)

/-- `set_exp` (vec/vec_sse2.hpp:192-197) -/
def setExp (A : Arith α) (start curve : α) : Vec α 2 × α :=
  let v1 := A.mul start curve
  (lanes2 start v1, A.mul v1 curve)

/-- `get` (vec/vec_sse2.hpp:199-214) -/
def get (v : Vec α 2) (index : Nat) : Except Fault α :=
  match index with
  | 0 => .ok (v 0)
  | 1 => .ok (lanes2 (v 1) (v 1) 0)
  | _ => .error .uninit

/-- `HORIZONTAL_OP` (vec/vec_sse2.hpp:430-434) -/
def horizontalOp (op : α → α → α) (data : Vec α 2) : α :=
  let high := unpackhiPd data data
  let accum := opSd op data high
  accum 0

end Sse2

/-- `vec<double>` with SSE2 (vec/vec_sse2.hpp:106-215, 428-453); `set` comes from `vec_base` -/
def sse2Vec : VecImpl α where
  size := 2
  size_pos := by decide
  perLine := 8
  load := readVec 2
  loadAligned := fun p => alignedAt 2 p (readVec 2 p)
  loadFirst := fun p => do
    let x ← read p
    pure (lanes2 x E.L.zero)
  store := writeVec
  storeAligned := fun v p => alignedAt 2 p (writeVec v p)
  clear := fun _ => E.L.zero
  setVec := fun c _ => c
  setSlope := Sse2.setSlope E.S
  setExp := Sse2.setExp E.S
  get := Sse2.get
  set := Base.set
  horizontalMin := Sse2.horizontalOp E.L.min_
  horizontalMax := Sse2.horizontalOp E.L.max_
  horizontalSum := Sse2.horizontalOp E.L.add
  lane := E.L
  viaFloat := E.viaFloat

/-! ## AVX -/
namespace Avx

/-- `set_slope` (vec/vec_avx_float.hpp:188-199) -/
def setSlope8 (A : Arith α) (start slope : α) : Vec α 8 × α :=
  let v1 := A.add start slope
  let v2 := A.add v1 slope
  let v3 := A.add v2 slope
  let v4 := A.add v3 slope
  let v5 := A.add v4 slope
  let v6 := A.add v5 slope
  let v7 := A.add v6 slope
  (lanes8 start v1 v2 v3 v4 v5 v6 v7, A.mul slope (A.lit 8))

/-- `set_exp` (vec/vec_avx_float.hpp:201-212) -/
def setExp8 (A : Arith α) (start curve : α) : Vec α 8 × α :=
  let v1 := A.mul start curve
  let v2 := A.mul v1 curve
  let v3 := A.mul v2 curve
  let v4 := A.mul v3 curve
  let v5 := A.mul v4 curve
  let v6 := A.mul v5 curve
  let v7 := A.mul v6 curve
  (lanes8 start v1 v2 v3 v4 v5 v6 v7, A.mul v7 curve)

/-- `set_slope` (vec/vec_avx_double.hpp:177-184) -/
def setSlope4 (A : Arith α) (start slope : α) : Vec α 4 × α :=
  let v1 := A.add start slope
  let v2 := A.add v1 slope
  let v3 := A.add v2 slope
  (lanes4 start v1 v2 v3, A.add (A.add (A.add slope slope) slope) slope)

/-- `set_exp` (vec/vec_avx_double.hpp:186-193) -/
def setExp4 (A : Arith α) (start curve : α) : Vec α 4 × α :=
  let v1 := A.mul start curve
  let v2 := A.mul v1 curve
  let v3 := A.mul v2 curve
  (lanes4 start v1 v2 v3, A.mul v3 curve)

/-- `load_first` (vec/vec_avx_float.hpp:148-152): `_mm256_castps128_ps256` leaves the upper half
undefined; the preceding `clear()` is overwritten -/
def loadFirst8 (E : Env α) (p : Nat) : Exec α (Vec α 8) := do
  let x ← read p
  pure (lanes8 x E.L.zero E.L.zero E.L.zero (E.junk 4) (E.junk 5) (E.junk 6) (E.junk 7))

/-- `load_first` (vec/vec_avx_double.hpp:142-146) -/
def loadFirst4 (E : Env α) (p : Nat) : Exec α (Vec α 4) := do
  let x ← read p
  pure (lanes4 x E.L.zero (E.junk 2) (E.junk 3))

end Avx

/-- `vec<float>` with AVX (vec/vec_avx_float.hpp:110-213); element access and horizontal functions come from
`vec_base` -/
def avxFloatVec : VecImpl α where
  size := 8
  size_pos := by decide
  perLine := 16
  load := readVec 8
  loadAligned := fun p => alignedAt 8 p (readVec 8 p)
  loadFirst := Avx.loadFirst8 E
  store := writeVec
  storeAligned := fun v p => alignedAt 8 p (writeVec v p)
  clear := fun _ => E.L.zero
  setVec := fun c _ => c
  setSlope := Avx.setSlope8 E.S
  setExp := Avx.setExp8 E.S
  get := Base.get E.ndebug
  set := Base.set
  horizontalMin := Base.horizontalMin E.S (by decide)
  horizontalMax := Base.horizontalMax E.S (by decide)
  horizontalSum := Base.horizontalSum E.S
  lane := E.L
  viaFloat := E.viaFloat

/-- `vec<double>` with AVX (vec/vec_avx_double.hpp:99-194) -/
def avxDoubleVec : VecImpl α where
  size := 4
  size_pos := by decide
  perLine := 8
  load := readVec 4
  loadAligned := fun p => alignedAt 4 p (readVec 4 p)
  loadFirst := Avx.loadFirst4 E
  store := writeVec
  storeAligned := fun v p => alignedAt 4 p (writeVec v p)
  clear := fun _ => E.L.zero
  setVec := fun c _ => c
  setSlope := Avx.setSlope4 E.S
  setExp := Avx.setExp4 E.S
  get := Base.get E.ndebug
  set := Base.set
  horizontalMin := Base.horizontalMin E.S (by decide)
  horizontalMax := Base.horizontalMax E.S (by decide)
  horizontalSum := Base.horizontalSum E.S
  lane := E.L
  viaFloat := E.viaFloat

/-! ## NEON -/
namespace Neon

/-- `set_slope` (vec/vec_neon.hpp:209-217) -/
def setSlope (A : Arith α) (start slope : α) : Vec α 4 × α :=
  (lanes4 start (A.add start slope) (A.add (A.add start slope) slope)
    (A.add (A.add (A.add start slope) slope) slope),
   A.add (A.add (A.add slope slope) slope) slope)

/-- `set_exp` (vec/vec_neon.hpp:219-227) -/
def setExp (A : Arith α) (start curve : α) : Vec α 4 × α :=
  (lanes4 start (A.mul start curve) (A.mul (A.mul start curve) curve)
    (A.mul (A.mul (A.mul start curve) curve) curve),
   A.mul (A.mul (A.mul (A.mul start curve) curve) curve) curve)

/-- `get` (vec/vec_neon.hpp:229-242): after the `switch`, `assert(false)`, then the function ends
without a `return` -/
def get (ndebug : Bool) (v : Vec α 4) (index : Nat) : Except Fault α :=
  match index with
  | 0 => .ok (v 0)
  | 1 => .ok (v 1)
  | 2 => .ok (v 2)
  | 3 => .ok (v 3)
  | _ => .error (if ndebug then .uninit else .assertion)

/-- `set` (vec/vec_neon.hpp:185-202) -/
def set (ndebug : Bool) (v : Vec α 4) (index : Nat) (x : α) : Except Fault (Vec α 4) :=
  match index with
  | 0 => .ok (lanes4 x (v 1) (v 2) (v 3))
  | 1 => .ok (lanes4 (v 0) x (v 2) (v 3))
  | 2 => .ok (lanes4 (v 0) (v 1) x (v 3))
  | 3 => .ok (lanes4 (v 0) (v 1) (v 2) x)
  | _ => if ndebug then .ok v else .error .assertion

/-- `std::min(a, b)` (vec/vec_neon.hpp:501) -/
def stdMin (A : Arith α) (a b : α) : α := if A.less b a then b else a

/-- `std::max(a, b)` (vec/vec_neon.hpp:513) -/
def stdMax (A : Arith α) (a b : α) : α := if A.less a b then b else a

/-- `horizontal_min` (vec/vec_neon.hpp:492-502): `vmin_f32` of the halves, then `std::min` -/
def horizontalMin (E : Env α) (v : Vec α 4) : α :=
  let high := lanes2 (v 2) (v 3)
  let low := lanes2 (v 0) (v 1)
  let pmin := VecImpl.zip E.L.min_ low high
  stdMin E.S (pmin 0) (pmin 1)

/-- `horizontal_max` (vec/vec_neon.hpp:504-514) -/
def horizontalMax (E : Env α) (v : Vec α 4) : α :=
  let high := lanes2 (v 2) (v 3)
  let low := lanes2 (v 0) (v 1)
  let pmax := VecImpl.zip E.L.max_ low high
  stdMax E.S (pmax 0) (pmax 1)

/-- `horizontal_sum` (vec/vec_neon.hpp:516-523): `vpadd_f32(low, high)` = `[low 0 + low 1, high 0 +
high 1]` -/
def horizontalSum (E : Env α) (v : Vec α 4) : α :=
  let high := lanes2 (v 2) (v 3)
  let low := lanes2 (v 0) (v 1)
  let psum := lanes2 (E.L.add (low 0) (low 1)) (E.L.add (high 0) (high 1))
  E.S.add (psum 0) (psum 1)

end Neon

/-- `vec<float>` with NEON (vec/vec_neon.hpp:116-243, 492-523); `load_first` comes from `vec_base` -/
def neonVec : VecImpl α where
  size := 4
  size_pos := by decide
  perLine := 16
  load := readVec 4
  loadAligned := readVec 4
  loadFirst := Base.loadFirst E.L 4
  store := writeVec
  storeAligned := writeVec
  clear := fun _ => E.L.zero
  setVec := fun c _ => c
  setSlope := Neon.setSlope E.S
  setExp := Neon.setExp E.S
  get := Neon.get E.ndebug
  set := Neon.set E.ndebug
  horizontalMin := Neon.horizontalMin E
  horizontalMax := Neon.horizontalMax E
  horizontalSum := Neon.horizontalSum E
  lane := E.L
  viaFloat := E.viaFloat

/-! ## Altivec -/
namespace Altivec

/-- `vec_ld(0, p)` / `vec_st(v, 0, p)`: the low four address bits are ignored (vec/vec_altivec.hpp:154-183) -/
def trunc (p : Nat) : Nat := p / 4 * 4

/-- `set_slope` (vec/vec_altivec.hpp:204-211) -/
def setSlope (A : Arith α) (start slope : α) : Vec α 4 × α :=
  let v1 := A.add start slope
  let v2 := A.add (A.add start slope) slope
  let v3 := A.add (A.add (A.add start slope) slope) slope
  (lanes4 start v1 v2 v3, A.add (A.add (A.add slope slope) slope) slope)

end Altivec

/-- `vec<float>` with Altivec (vec/vec_altivec.hpp:127-221); `get`, `set` and the horizontal functions come from
`vec_base` -/
def altivecVec : VecImpl α where
  size := 4
  size_pos := by decide
  perLine := 16
  load := fun p => readVec 4 (Altivec.trunc p)
  loadAligned := fun p => readVec 4 (Altivec.trunc p)
  loadFirst := fun p => do
    let x ← read p
    Exec.lift (Base.set (fun _ => E.L.zero) 0 x)
  store := fun v p => writeVec v (Altivec.trunc p)
  storeAligned := fun v p => writeVec v (Altivec.trunc p)
  clear := fun _ => E.L.zero
  setVec := fun c _ => c
  setSlope := Altivec.setSlope E.S
  setExp := Sse.setExp E.S
  get := Base.get E.ndebug
  set := Base.set
  horizontalMin := Base.horizontalMin E.S (by decide)
  horizontalMax := Base.horizontalMax E.S (by decide)
  horizontalSum := Base.horizontalSum E.S
  lane := E.L
  viaFloat := E.viaFloat

/-! ## All of them -/

/-- The vector classes selected by `vec.hpp:23-43` for `float` and `double`. -/
inductive Target where
  /-- no instruction set, `float` -/
  | genericFloat
  /-- no instruction set, or `double` on a build without SSE2 -/
  | genericDouble
  /-- `float`, SSE -/
  | sse (sse3 sse41 : Bool)
  /-- `double`, SSE2 -/
  | sse2
  /-- `float`, AVX -/
  | avxFloat
  /-- `double`, AVX -/
  | avxDouble
  /-- `float`, NEON -/
  | neon
  /-- `float`, Altivec -/
  | altivec
deriving DecidableEq, Repr

/-- The vector class of a target (vec.hpp:23-43) -/
def Target.vec (t : Target) (E : Env α) : VecImpl α :=
  match t with
  | genericFloat => genericVec E 16
  | genericDouble => genericVec E 8
  | sse sse3 sse41 => sseVec E sse3 sse41
  | sse2 => sse2Vec E
  | avxFloat => avxFloatVec E
  | avxDouble => avxDoubleVec E
  | neon => neonVec E
  | altivec => altivecVec E

/-- Number of lanes of a target: `size` (vec/vec_generic.hpp:74, vec/vec_sse.hpp:147, vec/vec_sse2.hpp:108,
vec/vec_avx_float.hpp:112, vec/vec_avx_double.hpp:101, vec/vec_neon.hpp:118, vec/vec_altivec.hpp:129) -/
def Target.size : Target → Nat
  | avxFloat => 8
  | sse2 => 2
  | _ => 4

/-- Number of elements per cache line (64 bytes): the granularity of the run-time sized loops;
`objects_per_cacheline` (vec/vec_generic.hpp:75, vec/vec_sse.hpp:148, vec/vec_sse2.hpp:109, vec/vec_avx_float.hpp:113,
vec/vec_avx_double.hpp:102, vec/vec_neon.hpp:119, vec/vec_altivec.hpp:130) -/
def Target.perLine : Target → Nat
  | genericDouble => 8
  | sse2 => 8
  | avxDouble => 8
  | _ => 16

/-- The alignment, in elements, that the aligned accesses of a target need: that of the intrinsics behind
`load_aligned` and `store_aligned` (see `alignedAt`, `Altivec.trunc`) -/
def Target.align : Target → Nat
  | genericFloat => 1
  | genericDouble => 1
  | sse _ _ => 4
  | sse2 => 2
  | avxFloat => 8
  | avxDouble => 4
  | neon => 1
  | altivec => 4

end Nova
