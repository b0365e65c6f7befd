# Formal model of nova-simd: design

All modelling is in Lean 4 under `lean/Verif`.  This file says what is modelled,
how every property of `properties.jsonl` is stated and proved, and what is trusted.

## 1. Shape of the model

The library is a header-only C++ template library.  A call such as
`plus_vec_simd(out, in1, in2, n)` is composed of

1. argument wrappers (`detail/wrap_arguments.hpp`, `detail/wrap_argument_vector.hpp`),
2. loops (`detail/math.hpp`, `detail/unroll_helpers.hpp`, and the bespoke loops of
   `simd_memory.hpp`, `simd_pan.hpp`, `simd_peakmeter.hpp`, `simd_horizontal_functions.hpp`),
3. a vector class `vec<F>` (one per instruction set in `vec/`),
4. functors, i.e. templates used both with scalars and with vectors.

The model follows these layers.

* **Memory** (`Verif/Base.lean`).  A memory is a partial function from element
  addresses to element values; a cell outside every live buffer is `none`.  A program is
  a state transformer that returns a value and a memory, or a `Fault` (out of bounds
  access, misaligned access, overlapping `memcpy`, read of an uninitialised object, lane
  index out of range, impossible float-to-integer conversion, failed assertion,
  template recursion that never ends).  All C++ undefined behaviour that the code can
  reach is such a fault, never a default value.  `unsigned int n` is a `BitVec 32`, and
  `do {...} while (--n)` is modelled with wrap-around.
* **Element arithmetic** is a record `Arith α` of functions (add, sub, mul, ...,
  max, min, comparisons, abs, sin, ...).  A call has two of them: the scalar one (used by
  the `foo_vec` functions) and the lane one (what one lane of `vec<F>` does).  Nothing is
  assumed about them in the layer-A theorems, so these are bit exact and hold under
  every rounding mode.
* **Vector classes** are records `VecImpl α` (size, objects per cacheline, loads, stores,
  `set_slope`, horizontal reductions, lane access, lane arithmetic).  One definition for each back end:
  generic, SSE float, SSE2 double, AVX float, AVX double, NEON, Altivec.
* **Bit level** (`Verif/Float`, `Verif/Model/{Hw,Lanes,VecMath,Scalar,Builds}`): IEEE-754 binary32/binary64 on `BitVec 32` / `BitVec 64` with
  round-to-nearest-even `add, sub, mul, div, sqrt, fma`, comparisons and conversions defined on
  integers, executable in the kernel, and with a proof that rounding is correct.
* **Exact arithmetic**: ramps, sums, pans etc. are proved in an arbitrary commutative ring;
  order properties in an arbitrary linear order; unit conversions and polynomial error
  bounds over ℝ.

Specifications (`Verif/Spec.lean`) are short and do not use the model's helpers: "memory `m` with
`out[0..n)` overwritten by `y`", "largest element", "lies in the interval", and so on.

## 2. Properties

| id | modelled as | proof |
|----|-------------|-------|
| C01-C04 | `performVecSimd1..4`, `performVec1..4` = memory overwritten with lane/scalar function | loop invariant over do-while and over the unroller recursion |
| C05 | compile-time unroller `run N` vs the run-time loop | same invariant, both equal the specification |
| C06 | the equations of C01-C04 hold in memories where only the buffers are allocated and give the whole final memory | corollary |
| C07 | no disjointness hypothesis in C01-C04 beyond "out <= in or disjoint" | invariant carries original input values |
| C08 | concrete overlapping placement, evaluated | `decide` on the model (existence claim) |
| C09 | same programs, `n` not a multiple | loop count = n / per_loop |
| C10 | loop count 2^32, first unallocated cell faults | induction to the first failing iteration |
| C11 | loads/stores of the x86 back ends fault on misaligned addresses | first access of the loop |
| C12 | two runs of the same program with scalar and filled buffer | corollary of C02 |
| C13 | ramp arguments in a commutative ring | closed form of the iterated addition |
| C14 | binary64 ramps; false of the code (`float vSlope`); exact when the slope is a float, an error bound otherwise | evaluation for the witness; rounding-error induction |
| C15-C17, C20-C22 | the bespoke loops of simd_memory / simd_pan | loop invariants |
| C18, C19 | copyvec loops; C19 is false of the code (over-read), refuted for every source that ends at unallocated memory; partial: no fault if one more vector is readable | loop invariant / first failing access |
| C23-C26 | peak meters over a linear order; C24 false on AVX and generic double because the step is 4 vectors; C26 false on AVX because of `load_first` | invariants, concrete witnesses |
| C27-C30 | reductions; C28 false (initial value `numeric_limits::min()`) | fold lemmas, concrete witnesses |
| C31, C32 | vec members per back end | case analysis, ring |
| C33-C40 | bit-level lane functions of every build (`Build32`, `Build64`) | bit-vector reasoning and the integer semantics of IEEE numbers |
| C41, C42, C57, C58 | the rounding functions on bit patterns, compared with the integer nearest / below / above the rational value | lemmas on correct rounding, witnesses where false |
| C43 | bit level, square root is the correctly rounded one | case split on comparison outcomes |
| C44 | bit-field reasoning | BitVec/Nat arithmetic |
| C45 | symbolic: arithmetic uninterpreted | bit-vector algebra of sign masks |
| C46, C60 | `vec_exp` on bit patterns against `Real.exp` | rounding errors tracked step by step (`Float/Track`), Taylor bounds, the NaN witness by evaluation |
| C47 | select chains with uninterpreted arithmetic | case analysis |
| C48 | bit-level equality; real-analysis facts over R | case analysis, field arithmetic |
| C49 | over R with the literal constants of the code | logarithm algebra and bounds |
| C50 | 64-bit addresses | BitVec/Nat arithmetic; false for generic double |
| C51 | sizes of every back end; template recursion fault | arithmetic |
| C52, C59 | Newton steps in exact arithmetic, and with rounding errors for every admissible hardware estimate | ring; error tracking |
| C53 | the polynomials over R with the literal coefficients | Taylor bounds from Mathlib, interval checks by `decide` on rational polynomials (`Analysis/Poly`) |
| C54, C67 | bytes at 64-bit addresses, `malloc` arbitrary | omega on the address arithmetic |
| C55 | halves of an 8-lane vector | bit by bit |
| C75 | the three classes with four lanes as instances of one interface | lane by lane; witnesses by evaluation |
| C76 | the table `SpecAccuracy`, all lanes and calls of a build | every row from the accuracy theorem of its function (C41 … C77), then C01-C05 for calls; assumes `GoodLogs` and the documented error of `rcpps` (`GoodRcp`) |
| C77 | the functors of the eight conversions with the bit-level lanes | error of literals and argument through `pow_near` and `log_scaled`; the constants 1/log 2, 1/log 10 are assumed to be correctly rounded (`GoodLogs`) |
| C78 | the table `SpecSame`, bit-level lanes and scalars of every build | lane = scalar function by function (equal terms, or the same real value after rounding), then C01-C05 for calls; a witness for the fused `muladd` |
| C79 | bit-level sums, meters and ramps of every build; `SpecSums` | an accumulator invariant `Acc` (depth of additions, sum of magnitudes) kept by every addition, for the loops, the horizontal reductions and `set_slope` |
| C80 | bit-level `set_slope_vec`, `set_exp_vec` and their SIMD versions of every build; `SpecSums` | the ramp invariant of C79 and a relative-error invariant `Prd` for chains of multiplications, over the run of the loops |
| C81 | bit-level horizontal functions and meters of every build; `SpecExtrema` | `Best`: selection with respect to the preorder of values, kept by loops, lanes and reductions; predicates for the NaN witness |
| C82 | calls on blocks of a buffer; `SpecBlocks` (partition, calls in the order of a list, advanced arguments) | `Agree`: outside the blocks already done the memory is the initial one; induction over the list |
| C83 | calls as trees of single-element accesses, threads that take turns; `SpecThreads`. Memory is sequentially consistent, with one access per element (tearing of vector accesses is included) | `Does`: the tree of a call by its loop structure; `Going`: every thread is at a state of its own sequential run |
| C84 | `Model/AllocPlatforms`: the preprocessor's choice of vector class and allocator, the five allocators over arbitrary system functions; `SpecAlloc`: what their documentation promises | case analysis over macros and branches; witness for Apple with AVX |
| C85 | `SpecNaN`: which functions of which builds keep NaNs, and what a C library that keeps them is; the functions' bit patterns as before | one lemma per operation (NaN operand, NaN result), comparisons with NaN, composition through the templates of `VecMath`; witnesses for all NaNs on AVX |
| C86 | `SpecFades`: the product with the real ramp and its error bound; the calls as before | the ramp's bound (C79), one more rounding per product, `pan2` for an arbitrary arithmetic (`Lemmas/Fades`) |
| C87 | `RampRepresentable`: every value and multiple is a number of the format | a sum or product whose real value is representable is not rounded (`Lemmas/ExactRamps`); induction over registers; equal values give `Same` results |
| C88 | `SpecPolarity`: `Opposite`, the tables of odd and even functions and of the arguments to negate | negation commutes with rounding to nearest, so with each operation (`Lemmas/Polarity`); the templates by their sign masks (`Lemmas/PolarityLanes`) |
| C89 | `Model/Flush`: instructions with the flags (`Hw.Flushing`), the lanes on them (`laneOn`); `SpecFlush`: `Clear`, which functions are arithmetic | each lane operation is the flushed operation on flushed operands (`FlushOps`); errors from those of rounding (`Float/Error`) |
| C90 | `SpecOrder`: moves of arguments by which each function rises | every operation rounds the exact result in the extended reals (`IsRndE`, `Lemmas/Order`), and rounding preserves the order; magnitudes of square roots, rounding to integers; the softclip subtracts exactly below 2^22 |
| C91 | `SpecBuilds`: functions and arguments for which two builds agree; two builds and two platforms side by side | both classes satisfy `LaneOps.Ieee`; every template unfolds to the same instructions (`Lemmas/Alike`), where comparisons see numbers and `round` sees numbers below 2^23; calls by C01-C04 |
| C92 | `SpecExact`: the steps of each function in real arithmetic | rounding a representable value returns it (monotone rounding, both ways); every class adds, subtracts and multiplies with one rounding (`OrderOps`), fused or not; roots by the integer square root; calls by C01-C04 |
| C93 | `SpecNeutral`: neutral arguments, functions that are idempotent | the steps of neutral arguments are representable (C92); results of rounding, limiting and signs are neutral arguments |
| C94 | `Model/Cxx98`: the `#else` branch of log2 | the constant is computed from a correctly rounded log(2.f); a product with one rounding; the logarithm of a double other than 1 is not too small for a relative error (`LogRange`) |
| C95 | `SpecExchange`: mirrored and opposite functions | commutativity of the rounded operations on numbers; comparisons and extrema by their meaning (C35, C37); calls by C02-C04 |
| C96 | `SpecRoundTrip`: the eight round trips, their ranges and tolerances | the accuracy of each conversion (C76, C77) and bounds of exp and log near 0 and 1; calls by composing C76 |
| C97 | `SpecScale`: exponents of arguments and results, the products that must not underflow | rounding to nearest commutes with multiplication by 2^k in the normal range and for sums, which are integral multiples of the smallest subnormal (`Float/Scale`); functions by their operations (`Lemmas/Scale`), sums of buffers by a relation that additions preserve; square roots (`Float/SqrtScale`): rounding needs only the integer part and whether there is a remainder, both of which survive a factor 4^k |
| C98 | `SpecNumbers`: for each function the arguments for which a number is promised, and what is assumed of the C library | operations of finite numbers round to numbers (`Lemmas/Numbers`), lane by lane (`Lemmas/NumberLanes`); own transcendental functions by their error bounds (C46, C61–C73, C77); sums by a predicate (a number of one sign) that additions preserve |
| C99 | `Model/Contract`: the list of all results of a function when each sum or difference with a product as an operand may or may not be fused | the error analyses of C60–C77 repeated for every member of the lists (`Lemmas/Contract*`), with the exact product in place of the rounded one; whole calls through the loop theorems for an arbitrary element function |
| C100 | `Model/Contract` (all fused variants of the wave shapers) | the correction of third order is less than a quarter of a unit in the last place, and a number is the only rounding of a value that close to it (`Float/Near`, `Lemmas/Quiet`); below 2^-100 the square underflows to zero |
| C101 | `Model/Lanes` (`sqrt` of `Neon` and `Altivec`, `Altivec.rsqrt`), the estimate instruction a parameter of the platform bounded by `GoodRoot` (`SpecRoot`) | one Newton step in reals with the rounding of each of its four fused operations (`Lemmas/RootNewton`), then the product with the argument (`Lemmas/RootFinal`) |
| C102 | `Model/Contract` (all fused variants), two or three calls with the same or chained arguments | from the accuracy of each call (C99) and the real identity; the bound of sin and cos by one (C64, `Lemmas/FullScale`) |
| C103 | `Model/ContractMeters`: every possible result of the mixing functors and of the meters' additions | `Acc` (Float/Sum) extended by a fused product (`Acc.fma_mul`) and a product with a computed factor (`Acc.mul`); loops by induction; registers as in C79 |
| C104 | `SpecRange`: the ranges; the model is that of C99 | the last operations are monotone (`IsRnd.real_le`), and a result within half a unit above the end of the range is the end itself (`le_of_next`); the sign of exp from the exponent field of the scaled polynomial (`exp_sign_of`); atan near its limit in two cases, below and above 10^6 |
| C105 | `SpecSpecial`, `SpecPolarity`, `SpecNaN`; the model is that of C99, whose list of results has one place for each choice | the magnitude of the argument and the choice determine the magnitude of the result (list equalities, `List.Forall₂ Opposite`); a fused operation with a NaN is a NaN (`Contract.add_nan`); the selections at the end of each function |
| C106 | `SpecReference`: a table of arguments and values; the C library is assumed exact at them (`Libm.Reference`) | own functions: evaluation in the kernel at the single patterns, for each of the instruction sets, from a platform-independence lemma; powers: the logarithm is finite for every base, so its product with zero is a zero (`own_pow_one`); conversions: exact differences and products |
| C107 | `SpecRounded`: nearest of all finite numbers, ties to an even last bit, stated in the reals and independently of how the model rounds | the integer rounding `rne` puts the exact value into a cell between neighbouring codes (`Cell`), and codes are ordered like values (`Cell.nearest`); square roots: twice the integer root and a sticky bit compare with all midpoints like the real root (`root_cell`) |
| C56 | every generated function name computes what the name says | per-operator table, composed with C01-C04 |
| C61-C66 | sin, cos, tan, log on bit patterns against the real functions | exact argument reduction (Sterbenz-like grid lemma), C53, error tracking |
| C70-C72 | atan, asin, acos on bit patterns against the real functions; C72 is false at -0.5 | Taylor bounds by derivatives, interval checks on rational polynomials, error tracking, exactness of 1 - x |
| C73-C74 | tanh, pow, signed_pow on bit patterns against the real functions | quotient of Taylor polynomials of sinh and cosh, exactness of doubling, C60 and C63; witness 2^120 by the grid of the floats next to 83 |
| C68 | histories of smart pointers as lists of operations | invariant by induction on the history |
| C69 | histories of arrays, loops over the elements; refinement of a specification in which arrays are values | simulation, induction on the history and on the loops |

## 3. Where the code does not have the property

Each of these is a theorem about the model with a concrete witness (names in `MANIFEST.json`), beside a theorem that says
where the property does hold.

* C08: forward overlapping buffers give other results than the scalar loop.
* C10: size 0 (or below one loop) runs 2^32 iterations; with real buffers it leaves them.
* C14: ramps of double narrow the slope of the vector ramp to float.
* C15: Altivec `load`/`store` of unaligned addresses silently use the aligned address.
* C19: `copyvec_simd` reads one vector behind the source.
* C24-C26: the SIMD meters step by 4 vectors although `samples_per_loop` promises a cache line (AVX, generic double);
  AVX `load_first` leaves the upper lanes undefined and they reach the result.
* C28: horizontal max starts from `numeric_limits::min()`, the smallest *positive* number.
* C30: two of the helper reductions of simd_utils.hpp ignore lane 3.
* C35: `>` and `>=` of AVX are true for NaN operands.
* C36: `select` of NEON exchanges its operands.
* C37: which of two zeros, and what happens to NaN, differs between back ends.
* C41, C42, C57, C58: rounding by adding 2^23 is wrong from 2^23 on; ceil(-0.25) is +0; ties differ from the scalar
  version; the scalar version is undefined outside `long`; Altivec trunc of negative numbers is 0; frac(-2^-30) is 1.
* C43: NEON signed_sqrt(0) is NaN.
* C45: tanh(-0) is +0.
* C46: exp(88.72283935546875) is NaN.
* C47: signed_pow and asin outside the domain.
* C48: softclip(inf) is NaN.
* C50: `is_aligned` of the generic double class tests the alignment of floats.
* C54, C67: sizes close to 2^64 wrap around; allocators are never equal, not even to themselves.
* C59: division on NEON and Altivec is not correctly rounded.
* C64: sin(1e10) and cos(1e10) are infinite.
* C65: log of every bit pattern is a finite number, also of 0, negative numbers, infinity and NaN.
* C66: cos misses the documented 5e-7 already at 4.712389, the float next to 3 pi / 2 (1.03e-6); sin has a relative error of 5e-5 next to 161 pi; pow(2, 120) one of more than 3e-6.  Away from the zeros the bound does hold (`C66_trig_partial`): the error of the reduced argument is half a unit in its last place plus 6.2e-15 for each multiple of pi / 2.
* C72: acos(-0.5) is 4 pi/3: the argument reduction is applied to |x| > 0.5, the formula that relies on it to x <= -0.5.
* C75: `andnot` of the NEON and Altivec integer vectors complements the other operand, their comparisons are unsigned; with
  these classes `vec_cos_float` would return infinity for 0 (`C75_cos_altivec`), which is what the FIXME in vec_altivec.hpp is about.
* C81: with actual floats the maximum of negative numbers is 2^-126; a NaN makes the SSE peak meter forget the old peak,
  whereas the scalar one ignores NaNs.
* C83: `copyvec_simd` reads one vector behind its source, so it races with a thread that writes there.
* C84: on Apple's systems with AVX memory from `malloc_aligned` need not be aligned enough for the aligned functions;
  the TBB branch allocates eight times the size and throws instead of returning null.
* C85: with AVX exp and pow turn every NaN into FLT_MAX, asin and acos into 0, tanh into 1 or -1, because `>` is
  compiled to "not less or equal"; the SSE2 and AVX logarithms turn NaNs into finite numbers.
* C87: with slope 0.1 the scalar and the SSE ramps differ from the fifth element on (1.4000001 and 1.4); with slopes
  and gains on a common binary grid they agree.
* C88: `round` without C99 is not symmetric (0.5 gives 1, -0.5 gives 0); the scalar `spow(0, 0)` is -1 for both zeros.
* C89: with flushed operands `equal` takes a positive subnormal for zero and 2^-127 times 2^127 gives 0; the scalar functions on ARMv7 (VFP) keep subnormals that NEON flushes, so `_vec` and `_vec_simd` differ there.
* C90: `softclip` is not monotone beyond 2^22: softclip(4194304) = 0.99999994, softclip(4194304.5) = 0.9999999.
* C91: builds differ in `muladd` (FMA or not), in the sign of the zeros of `ceil` and `trunc`, and in `round` of ties for `double` (0.5 becomes 0 with SSE4.1 and 1 without).
* C93: mixing a channel that holds an infinity at gain 0 gives a NaN; without C99 `round` changes the whole number 8388609 to 8388610.
* C94: before C++11, log2 of doubles multiplies with a `float` constant and loses half of the digits for every argument but 1; the `__STDC_VERSION__` test that should select `::log2` is never true in C++.
* C95: on AVX `a > b` and `b < a` differ when one of them is a NaN.
* C98: finite numbers give a NaN in five places. `cos` of all arguments from 2^64 on, and no others (the quadrant in `vec_cos` does not fit into an integer, so the argument stays as it is and its square overflows; sin evaluates the other polynomial and returns an infinity); `midi2ratio(1536)`, `midi2freq(1605)` and `oct2freq(132.75)` (128 octaves reach the single argument at which `exp` fails) and `db2amp(770.63671875)`, each of them the only finite argument of that function that fails; `ampmod(0, m, a)` if m·a overflows (0 times infinity); the SIMD sum of MAX, -MAX, 0, 0, MAX, -MAX, 0, 0, since lanes overflow to opposite infinities, while the scalar sum is 0. The SIMD reciprocal of a subnormal number such as 2^-127 on x86: `rcpps` estimates infinity, and the Newton step subtracts infinities; the scalar version gives 2^127.
* C99: with contraction `mix(s, f, -s, f)` need not be zero (s = f = 1+2^-23 leaves 2^-46), since one product is rounded and the other is not. Nothing in CMakeLists.txt sets `-ffp-contract`, and `-march=native` (option NATIVE) makes GCC fuse.
* C100: `tanh(-0)` is `+0`: the polynomial for small arguments multiplies the signed argument, and the sum of two zeros of different sign is positive.  `sin`, `tan`, `asin` and `atan` work with the magnitude and keep the sign.
* C101: NEON's `sqrt` and `signed_sqrt` multiply by the reciprocal root estimate without a Newton step (the source has a TODO there): with an estimate of the documented quality 2^-8, `sqrt(4)` may be 2.0078125.  `sqrt(0)` is a NaN on NEON and AltiVec, since 0 is multiplied by an infinite estimate.
* C104: acos(-0.5) is outside the range of acos (a consequence of C72's finding); no other result of these functions leaves its range.
* C106: the own vector version of `pow(0, 0)` is 0, the scalar version 1, so `pow_vec` and `pow_vec_simd` differ.
* C69: the constructor of `aligned_array` does not notice that there is no memory.
* C68: copying a smart pointer, or resetting it to what it holds, frees a block twice.

Not expressible, because the code does not compile when it is used: the slope versions of `addvec` and `addvec_simd`
(assignment to a const parameter, `set` with one argument) and `undenormalize` of NEON and Altivec.

## 4. Modelled and not modelled

Modelled, with file and lines at each definition: all of detail/{math,unroll_helpers,vec_math,wrap_arguments,
wrap_argument_vector,define_macros}.hpp, simd_*.hpp, softclip.hpp, vec/*.hpp, benchmarks/malloc_aligned.hpp (all
platform branches, over arbitrary system functions) and benchmarks/cache_aligned_array.hpp.

Simplifications and assumptions:

* `std::size_t`, pointers and `long` have 64 bits, `unsigned int` 32.
* C++ arithmetic is IEEE binary32/binary64, round to nearest even, without excess precision or `-ffast-math`, and
  without contraction except in C99 (also C64, C66, C100, C102), which allows every contraction of the single-precision SIMD functions, and C103, which allows it in the mixing functions and meters of both precisions, scalar and SIMD.  libm functions
  are arbitrary functions (field of `Platform`), except `round`, `floor` and `ceil`, which ISO C specifies.
* The hardware estimates `rcp`, `rsqrt`, `vrecpe`, ... are arbitrary functions; theorems that need an accuracy
  assume the documented one.  `vrecps` and the Altivec estimates are modelled unfused.
* NEON and Altivec flush-to-zero of subnormals is modelled for the arithmetic functions, comparisons, `abs` and `undenormalize` only (`Model/Flush`, C89); all other theorems assume that subnormals are kept.
* Non-temporal stores are modelled as stores.
* An all-zero byte pattern is the number +0.
* Undefined upper lanes are arbitrary values (`junk`).
* benchmarks/*.cpp, perf_counter.hpp and the test suite are not modelled.
* `posix_memalign`, `_mm_malloc`, TBB's allocator and `malloc` are arbitrary functions that behave as documented
  (`Lib.Documented` in `SpecAlloc`).
* Threads (C83): sequentially consistent interleavings of single-element accesses.

## 5. Trusted base

* Lean's kernel and the axioms `propext`, `Classical.choice`, `Quot.sound`; the appendix lists them for every theorem.
  No `sorry`, no axiom of our own, no `native_decide`, no `bv_decide`.  `decide +kernel` is used for concrete
  witnesses and finite tables; it is checked by the kernel.
* The reading of the C++ text done by hand; each definition cites file and lines.
* The description of the intrinsics (`_mm_add_ps` adds lane by lane, `_mm_max_ps a b`
  is `a > b ? a : b`, ...), taken from the vendors' documentation.
* The definition of IEEE arithmetic in `Verif/Float/Format.lean`.  It is proved to round correctly
  (`Verif/Float/Round.lean`, `Error.lean`) and was compared with Lean's compiled `Float32`/`Float` on random patterns
  (`tools/softfloat_check.txt`); that comparison is not part of any proof.
* `tools/track.py`, `tools/manifest.py`, `tools/axioms.py` only generate text; every number they produce is checked by Lean.

## Appendix: axioms of every theorem in MANIFEST.json

Generated by `tools/axioms.py` from Lean's `#print axioms`.

**Classical.choice, Quot.sound, propext** (888):
C01_unary_scalar, C01_unary_simd, C01_unary_agree, C02_binary_scalar, C02_binary_simd, C03_ternary_scalar, C03_ternary_simd, C04_quad_scalar, C04_quad_simd, C05_unary_compileTime, C05_unary, C05_binary_compileTime, C05_binary, C05_ternary_compileTime, C05_ternary, C05_quad_compileTime, C05_quad, C06_unary, C06_binary, C06_ternary, C06_quad, C07_unary_inplace, C07_unary_backward, C07_binary, C07_ternary, C07_quad, C07_binary_scalar, C07_ternary_scalar, C07_quad_scalar, C08_simd_vs_scalar, C08_simd_vs_snapshot, C09_unary, C09_binary, C09_ternary, C09_quad, C10_unary_scalar, C10_binary_scalar, C10_ternary_scalar, C10_quad_scalar, C10_unary_simd, C10_binary_simd, C10_ternary_simd, C10_quad_simd, C10_setvec_scalar, C10_set_slope_scalar, C10_set_exp_scalar, C10_addvec_scalar, C10_addvec_const_scalar, C10_pan2_scalar, C10_pan2_ramp_scalar, C10_horizontal_scalar, C10_peak_scalar, C10_peak_rms_scalar, C10_set_slope_small, C10_set_exp_small, C10_zerovec_small, C10_addvec_const_small, C10_pan2_small, C10_pan2_ramp_small, C10_copyvec_small, C10_horizontal_small, C10_peak_small, C10_peak_rms_small, C10_fill_small, C10_addvec_small, C11_unary_input, C11_unary, C11_anyPlacement, C11_anyPlacement_binary, C11_anyPlacement_ternary, C11_anyPlacement_quad, C12_binary_1, C12_binary_2, C12_ternary_1, C12_ternary_2, C12_ternary_3, C12_quad_1, C12_quad_2, C12_quad_3, C12_quad_4, C12_binary_scalarLoop, C12_ternary_scalarLoop, C12_quad_scalarLoop, C13_binary, C13_ternary, C13_quad, C13_binary_first, C13_ternary_first, C13_quad_first, C14_exact, C14_error_partial, C14_float_slope_partial, C14_negation, C15_setvec, C15_setvec_simd, C15_setvec_simd_n, C15_zerovec_simd, C15_zerovec_simd_n, C16_scalar, C16_simd, C17_scalar, C17_simd, C18_copyvec_simd_partial, C18_copyvec_simd_n_partial, C18_variants_partial, C18_variants_n_partial, C19_footprint_partial, C19_overread, C19_false, C20_addvec, C20_addvec_const, C20_addvec_simd, C20_addvec_simd_n, C20_addvec_const_simd, C20_addvec_const_simd_n, C21_pan2_scalar, C21_pan2_simd, C21_pan2_simd_n, C22_pan2_ramp_scalar, C22_pan2_ramp_simd, C22_pan2_ramp_simd_n, C22_any_scalar, C22_any_simd, C22_any_simd_n, C23_peak, C24_exact, C24_equal_partial, C24_short, C24_tail_false, C24_short_false, C24_short_generic_false, C25_scalar, C25_exact, C25_equal_partial, C26_avx_false, C27_scalar, C27_simd, C28_maxsum, C29_max, C29_min, C29_minmax, C29_maxsum, C29_sum, C30_sum, C30_max, C30_min, C32_get, C32_set, C32_get_set, C32_load_store, C32_load_first_partial, C32_load_first_avx, C32_load_first_false, C33_abs_float, C33_abs_double, C33_abs_value_float, C33_abs_value_double, C34_sse, C34_avx_float, C34_double, C34_simd_utils, C34_patterns, C35_relational_scalar_float, C35_relational_scalar_double, C35_relational_float, C35_relational_double, C35_relational_avx_float_partial, C35_relational_avx_double_partial, C35_avx_greater_nan_float, C35_avx_greater_nan_double, C36_select_float, C36_select_double, C36_vec_select_bits, C36_neon_select_swapped, C37_max_float, C37_min_float, C37_max_double, C37_min_double, C37_ties_and_nan_float, C37_ties_and_nan_double, C38_clip_float, C38_clip_double, C38_clip2_float, C38_clip2_double, C38_clip_nan_float, C38_clip2_nan_float, C38_clip_call_float, C39_sign_float, C39_sign_double, C39_sign_same_number, C39_sign_nan_differs, C40_undenormalize_float, C40_undenormalize_double, C40_undenormalize_value, C41_round_partial, C41_floor_partial, C41_ceil_partial, C41_double, C41_negation_round, C41_negation_floor_ceil, C41_negation_ceil_zero, C42_round_partial, C42_round_double_partial, C42_negation_ties, C42_negation_scalar, C43_signed_sqrt_float, C43_signed_sqrt_double, C43_negation_neon, C44_frexp, C44_ldexp, C44_roundtrip, C45_sin_odd, C45_tan_odd, C45_atan_odd, C45_cos_even, C45_any_hardware, C45_negation_tanh, C46_saturates, C46_number_partial, C46_negation, C47_asin_acos, C47_pow_zero, C47_signed_pow_zero, C47_any_hardware, C47_negation_signed_pow, C48_softclip_float, C48_softclip_double, C48_softclip_finite_float, C48_softclip_finite_double, C48_softclip_inf, C48_softclip_real, C49_midi_freq_midi, C49_freq_midi_freq, C49_midi_ratio_midi, C49_ratio_midi_ratio, C49_oct_freq_oct, C49_freq_oct_freq, C49_db_amp_db, C49_amp_db_amp, C50_is_aligned_partial, C50_generic, C50_predicts, C51_unary, C52_below, C52_reciprocal, C52_x86, C52_generic, C53_exp, C53_sin, C53_cos, C53_tan, C53_log, C54_malloc, C54_free, C54_calloc, C55_binary, C55_sse2, C56_unary_vec, C56_unary_simd, C56_binary_vec, C56_binary_simd, C56_ternary_vec, C56_ternary_simd, C56_quad_vec, C56_quad_simd, C56_unary, C56_binary, C56_ternary, C56_quad, C57_scalar, C57_scalar_undefined, C57_simd_partial, C57_simd_double, C57_negation_altivec, C58_frac_partial, C58_frac_double_partial, C58_negation_one, C59_accuracy, C59_negation, C59_exact, C59_double, C60_exp, C60_exp_tiny, C61_sin, C61_cos, C62_tan, C63_log, C63_log2, C63_log10, C64_range_partial, C64_negation, C64_contract_partial, C64_full_scale_partial, C64_calls_partial, C65_negation, C65_finite, C65_subnormal, C66_negation, C66_exp_log_partial, C66_inverse_trig_partial, C66_tanh_partial, C66_trig_contract_partial, C66_trig_partial, C66_trig_range_partial, C66_negation_cos, C66_negation_pow, C67_allocate, C69_values, C69_order, C70_atan, C70_atan_inf, C70_atan_range, C71_asin, C72_acos_partial, C72_negation, C73_tanh, C73_tanh_range, C73_tanh_inf, C74_pow_saturates_all, C74_signed_pow_saturates, C74_pow, C74_pow_saturates, C74_signed_pow, C75_andnot_partial, C75_cos_altivec, C77_midi2ratio, C77_midi2freq, C77_oct2freq, C77_db2amp, C77_ratio2midi, C77_amp2db, C77_freq2oct, C77_freq2midi, C76_unary, C76_binary, C76_ternary, C76_quad, C76_unary_simd, C76_unary_simdN, C76_binary_simd, C76_binary_simdN, C76_ternary_simd, C76_ternary_simdN, C76_quad_simd, C76_quad_simdN, C78_unary_float, C78_binary_float, C78_ternary_float, C78_quad_float, C78_unary_double, C78_binary_double, C78_ternary_double, C78_quad_double, C78_unary_calls_float, C78_unary_calls_double, C78_binary_calls_float, C78_ternary_calls_float, C78_quad_calls_float, C78_binary_calls_double, C78_ternary_calls_double, C78_quad_calls_double, C78_negation_muladd, C79_sum_float, C79_sum_double, C79_sum_simd_float, C79_sum_simd_double, C79_maxsum_float, C79_maxsum_simd_float, C79_in_numbers, C79_rms_float, C79_rms_simd_float_partial, C79_rms_double, C79_rms_simd_double_partial, C79_ramp_float, C79_ramp_double, C79_ramp_simd_float, C79_ramp_simd_double, C79_binary_ramp_float, C79_maxsum_double, C79_maxsum_simd_double, C80_slope_float, C80_slope_double, C80_slope_simd_float, C80_slope_simd_double, C80_exp_float, C80_exp_double, C80_exp_simd_float, C80_exp_simd_double, C80_exp_close, C81_max_float, C81_max_float_negative, C81_min_float, C81_min_float_positive, C81_minmax_float, C81_maxsum_float, C81_peak_float, C81_peak_simd_float_partial, C81_peak_equal_float_partial, C81_peak_rms_float_partial, C81_max_double, C81_max_double_negative, C81_min_double, C81_min_double_positive, C81_minmax_double, C81_maxsum_double, C81_peak_double, C81_peak_simd_double_partial, C81_peak_equal_double_partial, C81_peak_rms_double_partial, C81_nan_scalar_float, C81_nan_simd_float, C81_nan_disagree_float, C82_unary_scalar, C82_unary_simd, C82_binary_scalar, C82_binary_simd, C82_binary_exact, C82_ternary_scalar, C82_ternary_simd, C82_ternary_exact, C82_quad_scalar, C82_quad_simd, C82_quad_exact, C82_order_unary_scalar, C82_order_unary_simd, C82_order_binary_scalar, C82_order_binary_simd, C82_order_binary_exact, C82_order_ternary_scalar, C82_order_ternary_simd, C82_order_ternary_exact, C82_order_quad_scalar, C82_order_quad_simd, C82_order_quad_exact, C82_peak, C82_peak_simd, C82_order_zerovec, C82_order_setvec, C82_order_set_slope_vec, C82_order_set_exp_vec, C82_order_copyvec, C82_order_addvec, C82_order_addvec_const, C82_order_zerovec_simd, C82_order_setvec_simd, C82_order_set_slope_vec_simd, C82_order_set_exp_vec_simd, C82_order_addvec_simd, C82_order_addvec_const_simd, C82_order_pan2, C82_order_pan2_simd, C82_order_pan2_ramp, C82_order_pan2_ramp_simd, C82_peak_rms, C82_peak_rms_simd, C82_sum, C82_maxsum, C82_sum_simd, C82_max_simd, C82_min_simd, C82_minmax_simd, C82_maxsum_simd, C82_order_copyvec_simd_partial, C83_zerovec, C83_setvec, C83_set_slope_vec, C83_set_exp_vec, C83_copyvec, C83_addvec, C83_addvec_const, C83_zerovec_simd, C83_setvec_simd, C83_set_slope_vec_simd, C83_set_exp_vec_simd, C83_addvec_simd, C83_addvec_const_simd, C83_accesses_zerovec, C83_accesses_setvec, C83_accesses_set_slope_vec, C83_accesses_set_exp_vec, C83_accesses_copyvec, C83_accesses_addvec, C83_accesses_addvec_const, C83_accesses_pan2, C83_accesses_pan2_ramp, C83_accesses_peak, C83_accesses_peak_rms, C83_accesses_horizontal_max, C83_accesses_horizontal_min, C83_accesses_horizontal_sum, C83_accesses_horizontal_minmax, C83_accesses_horizontal_maxsum, C83_accesses_zerovec_simd, C83_accesses_setvec_simd, C83_accesses_set_slope_vec_simd, C83_accesses_set_exp_vec_simd, C83_accesses_copyvec_simd_partial, C83_negation_copyvec, C83_accesses_addvec_simd, C83_accesses_addvec_const_simd, C83_accesses_pan2_simd, C83_accesses_pan2_ramp_simd, C83_accesses_peak_simd, C83_accesses_peak_rms_simd, C83_accesses_horizontal_max_simd, C83_accesses_horizontal_min_simd, C83_accesses_horizontal_sum_simd, C83_accesses_horizontal_minmax_simd, C83_accesses_horizontal_maxsum_simd, C83_pan2, C83_pan2_simd, C83_pan2_ramp, C83_pan2_ramp_simd, C83_threads, C83_accesses_unary_scalar, C83_accesses_unary_simd, C83_accesses_binary_scalar, C83_accesses_binary_simd, C83_accesses_ternary_scalar, C83_accesses_ternary_simd, C83_accesses_quad_scalar, C83_accesses_quad_simd, C83_unary_scalar, C83_unary_simd, C83_binary_scalar, C83_binary_simd, C83_binary_exact, C83_ternary_scalar, C83_ternary_simd, C83_ternary_exact, C83_quad_scalar, C83_quad_simd, C83_quad_exact, C84_aligned, C84_suits_partial, C84_free_portable, C84_negation_apple, C85_unary_float_partial, C85_unary_scalar_float_partial, C85_unary_scalar_double_partial, C85_unary_double_partial, C85_binary_float_partial, C85_binary_scalar_float_partial, C85_binary_double_partial, C85_ternary_float_partial, C85_ternary_scalar_float_partial, C85_ternary_double_partial, C85_quad_float, C85_quad_double, C85_unary_call_partial, C85_binary_call_partial, C85_ternary_call_partial, C85_negation_avx, C85_negation_log, C85_pow, C85_sgn, C85_trunc, C86_fade_float, C86_fade_double, C86_crossfade_float, C86_crossfade_double, C86_pan_float, C86_pan_double, C86_in_numbers, C87_crossfade_double, C87_which_float, C87_which_double, C87_ramp_float, C87_ramp_double, C87_fade_float, C87_crossfade_float, C87_pan_float, C87_pan_double, C87_fade_double, C87_negation, C88_odd_float, C88_odd_double, C88_even_float, C88_even_double, C88_floor_float, C88_floor_double, C88_binary_float, C88_binary_double, C88_minmax, C88_clip, C88_unary_calls_float, C88_unary_scalar_float, C88_unary_calls_double, C88_binary_calls_float, C88_ternary_calls_float, C88_quad_calls_float, C88_negation_spow, C88_negation_round, C89_none_float, C89_same_float, C89_error_float, C89_bits_float, C89_compare_float, C89_none_double, C89_same_double, C89_error_double, C89_bits_double, C89_compare_double, C89_binary_calls_float, C89_ternary_calls_float, C89_quad_calls_float, C89_same_calls_float, C89_negation_sum, C89_negation_product, C89_negation_compare, C90_unary_float_partial, C90_unary_double_partial, C90_binary_float, C90_binary_double, C90_ternary_float, C90_ternary_double, C90_quad_float, C90_quad_double, C90_ampmod, C90_unary_calls_float_partial, C90_unary_scalar_float_partial, C90_unary_calls_double_partial, C90_binary_calls_float, C90_binary_calls_double, C90_ternary_calls_float, C90_quad_calls_float, C90_negation_softclip, C91_unary_partial, C91_binary, C91_ternary_partial, C91_quad, C91_unary_calls_partial, C91_binary_calls, C91_ternary_calls_partial, C91_quad_calls, C91_any_unary, C91_any_binary, C91_any_ternary, C91_any_quad, C91_double_partial, C91_zero_signs, C91_negation_muladd, C91_negation_ceil, C91_negation_round_double, C92_unary_float_partial, C92_unary_double, C92_binary_float_partial, C92_ternary_float, C92_quad_float, C92_binary_double, C92_ternary_double, C92_quad_double, C92_unary_calls_float_partial, C92_unary_scalar_float, C92_binary_calls_float_partial, C92_binary_scalar_float, C92_ternary_calls_float, C92_ternary_scalar_float, C92_quad_calls_float, C92_quad_scalar_float, C92_unary_calls_double, C92_unary_scalar_double, C92_binary_calls_double, C92_binary_scalar_double, C92_ternary_calls_double, C92_ternary_scalar_double, C92_quad_calls_double, C92_quad_scalar_double, C92_grid_float, C92_grid_double, C92_louder, C92_quieter, C92_power_of_two, C92_power_of_two_double, C93_unary_float_partial, C93_unary_double, C93_binary_float_partial, C93_binary_double, C93_ternary_float, C93_ternary_double, C93_quad_float, C93_quad_double, C93_once_float_partial, C93_once_double, C93_limits, C93_unary_calls_float_partial, C93_once_calls_float_partial, C93_binary_calls_float_partial, C93_ternary_calls_float, C93_quad_calls_float, C93_unary_calls_double, C93_once_calls_double, C93_binary_calls_double, C93_ternary_calls_double, C93_quad_calls_double, C93_negation_muted, C93_negation_round, C93_zero_sign, C94_log2_double, C94_log2_double_simd_partial, C94_negation_double_precision, C94_log2_float, C95_mirror_float, C95_mirror_double, C95_minus, C95_opposite_float, C95_opposite_double, C95_negation_avx_nan, C95_ternary_float, C95_ternary_double, C95_quad_float, C95_quad_double, C95_binary_calls_float, C95_binary_calls_double, C95_quad_calls_float, C95_quad_calls_double, C95_minmax_calls_float, C95_minmax_calls_double, C95_ternary_calls_float, C95_ternary_calls_double, C95_scalar_calls_float, C95_scalar_calls_double, C95_negation_min_zero, C96_roundtrip, C96_roundtrip_simd, C97_peak_float, C97_peak_simd_float, C97_max_float, C97_minmax_float, C97_peak_double, C97_peak_simd_double, C97_max_double, C97_minmax_double, C97_root_float, C97_root_double, C97_root_calls_float, C97_root_scalar_float, C97_root_calls_double, C97_root_two, C97_unary_float, C97_unary_double, C97_binary_float, C97_binary_double, C97_ternary_float, C97_ternary_double, C97_quad_float, C97_quad_double, C97_unary_calls_float, C97_unary_scalar_float, C97_unary_calls_double, C97_binary_calls_float, C97_binary_calls_double, C97_binary_scalar_float, C97_ternary_calls_float, C97_quad_calls_float, C97_sum_float, C97_sum_double, C97_pan2_float, C97_negation_tiny, C98_unary_scalar_float, C98_unary_double, C98_unary_float_partial, C98_binary_float_partial, C98_binary_scalar_float, C98_binary_double, C98_ternary_float, C98_ternary_double, C98_quad_float_partial, C98_quad_double_partial, C98_unary_call_partial, C98_unary_call_double, C98_binary_call_partial, C98_binary_call_double, C98_ternary_call_float, C98_ternary_call_double, C98_negation_cos, C98_negation_cos_witness, C98_negation_midi, C98_negation_db2amp, C98_negation_ampmod, C98_negation_quad, C98_reciprocal_partial, C98_quotient_partial, C98_negation_reciprocal, C98_sum_float_partial, C98_sum_double_partial, C98_rms_float, C98_rms_simd_float_partial, C98_rms_double, C98_rms_simd_double_partial, C98_pan2_float, C98_pan2_double, C98_negation_sum, C99_unary, C99_binary, C99_ternary, C99_quad, C99_off_unary, C99_off_binary, C99_off_ternary, C99_off_quad, C99_possible_unary, C99_possible_binary, C99_possible_ternary, C99_possible_quad, C99_unary_simd, C99_binary_simd, C99_ternary_simd, C99_quad_simd, C99_negation_cancel, C99_cancel, C100_shapers_partial, C100_element_partial, C100_negation_tanh, C100_cos, C100_calls_partial, C100_inplace_partial, C101_altivec, C101_altivec_documented, C101_neon_partial, C101_neon_signed_partial, C101_negation_neon, C101_exact, C101_negation_zero, C101_call_neon_partial, C101_negation_witness, C102_circle, C102_tan, C102_exp_log, C102_log_exp, C102_asin_acos, C102_sin_asin, C102_logs, C102_square_sqrt, C102_calls, C103_ternary_float, C103_ternary_double, C103_quad_float, C103_quad_double, C103_ternary_calls_float, C103_ternary_calls_double, C103_quad_calls_float, C103_quad_calls_double, C103_rms_float, C103_rms_simd_float, C103_rms_double, C103_rms_simd_double, C103_off_meter, C103_differs, C104_unary, C104_unary_lane, C104_acos_negation, C104_binary, C104_unary_calls, C104_binary_calls, C105_odd, C105_even, C105_spow, C105_nan_partial, C105_special, C105_power_of_zero, C105_odd_calls, C105_special_calls_partial, C106_unary_float, C106_unary_double, C106_binary_float_partial, C106_binary_scalar_float, C106_binary_double, C106_unary_call_float, C106_unary_call_double, C106_binary_call_float_partial, C106_binary_call_double, C106_negation_pow, C106_negation_spow, C107_unary_float, C107_unary_double, C107_binary_float, C107_binary_double, C107_muladd_float, C107_muladd_double, C107_muladd_twice, C107_unary_calls_float, C107_unary_calls_double, C107_unary_scalar_float, C107_binary_calls_float, C107_binary_scalar_float, C107_binary_calls_double, C107_muladd_calls_float

**Quot.sound, propext** (62):
C10_assertion, C10_mem_zero, C11_binary, C11_ternary, C11_quad, C11_altivec, C11_setvec, C11_zerovec, C11_set_slope, C11_set_exp, C11_addvec, C11_addvec_const, C11_pan2, C11_pan2_ramp, C11_copyvec, C11_copyvec_names, C11_horizontal, C11_peak, C11_peak_rms, C13_scalar, C13_simd, C13_simd_supplies, C13_scalar_supplies, C15_setvec_empty, C15_altivec_unaligned_false, C18_copyvec, C26_partial, C28_max_exact, C28_min_exact, C28_max_partial, C28_min_partial, C28_max_false, C28_min_false, C28_minmax, C31_set_slope, C31_set_exp, C32_get_out_of_range, C32_set_out_of_range, C50_negation, C51_granule, C51_recursion, C51_binary, C51_ternary, C51_quad, C51_memory, C52_square, C54_null, C54_negation, C55_shift, C68_ownership, C69_range, C69_negation, C75_lanes_partial, C75_negation, C82_max, C82_min, C82_minmax, C84_free, C84_calloc, C84_tbb_size, C84_failure, C103_off

**no axioms** (5):
C15_zerovec, C67_negation_equal, C68_unmanaged, C68_negation, C103_off_meter_simd

**propext** (7):
C30_utils_ignore_lane3, C30_extract, C30_utils_max_false, C30_utils_min_false, C34_generic_ones, C67_negation_size, C84_classes
