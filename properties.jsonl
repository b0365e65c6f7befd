{"id": "C01", "title": "Unary vector functions equal the scalar loop, element by element", "statement": "For every unary buffer function foo, foo_vec_simd(out,in,n) leaves in out[i] exactly the lane function of foo applied to the original in[i] for every i<n, and foo_vec(out,in,n) leaves the scalar function of foo applied to in[i]; if the two functions agree on the input values the two calls leave identical memory.", "quantifier": "all buffers and contents, all n that are positive multiples of samples_per_loop, all vector back ends, all functors", "why_tests_cant": "Tests use one size, one buffer placement and random contents; the claim is about every n, address and content.", "anchors": ["detail/define_macros.hpp:unary_functor", "detail/unroll_helpers.hpp:generate_simd_loop", "detail/math.hpp:apply_on_vector"]}
{"id": "C02", "title": "Binary vector functions equal the scalar loop, element by element", "statement": "For every binary buffer function and every mix of buffer and scalar arguments, the SIMD call leaves in out[i] the lane function of (arg1[i], arg2[i]) and the scalar call leaves the scalar function of them, for every i<n.", "quantifier": "all buffers, scalars, contents, positive n that are multiples of samples_per_loop, back ends and functors", "why_tests_cant": "Exponentially many combinations of placement, size, content and argument kind.", "anchors": ["detail/define_macros.hpp:binary_functor", "detail/unroll_helpers.hpp:compile_time_unroller::mp_iteration_2", "detail/wrap_argument_vector.hpp"]}
{"id": "C03", "title": "Ternary vector functions equal the scalar loop, element by element", "statement": "As C02 for the three-argument functions (clip, muladd, ampmod, sum_vec of three).", "quantifier": "all buffers, scalars, contents, positive n that are multiples of samples_per_loop, back ends and functors", "why_tests_cant": "Exponentially many combinations of placement, size, content and argument kind.", "anchors": ["detail/define_macros.hpp:ternary_functor", "simd_ternary_arithmetic.hpp", "simd_mix.hpp"]}
{"id": "C04", "title": "Four-argument vector functions equal the scalar loop, element by element", "statement": "As C02 for the four-argument functions (mix_vec, sum_vec of four).", "quantifier": "all buffers, scalars, contents, positive n that are multiples of samples_per_loop, back ends and functors", "why_tests_cant": "Exponentially many combinations of placement, size, content and argument kind.", "anchors": ["detail/define_macros.hpp:quarternary_functor", "simd_mix.hpp"]}
{"id": "C05", "title": "Compile-time sized versions equal the run-time sized ones", "statement": "foo_vec_simd<N>(out, args...) and foo_vec_simd(out, args..., N) leave identical memory and neither faults.", "quantifier": "all N that are positive multiples of samples_per_loop, all arities 1-4, all arguments and contents", "why_tests_cant": "Each N is a different template instantiation; a test instantiates one or two.", "anchors": ["detail/unroll_helpers.hpp:compile_time_unroller::run", "detail/define_macros.hpp"]}
{"id": "C06", "title": "No access outside the caller's buffers, and nothing else is modified", "statement": "When n is a positive multiple of samples_per_loop, a buffer function reads only in[0..n), writes only out[0..n), and leaves every other memory cell unchanged.", "quantifier": "all memories (with arbitrary cells unallocated), all n, back ends, arities", "why_tests_cant": "An out-of-bounds read normally goes unnoticed in a unit test.", "anchors": ["detail/unroll_helpers.hpp", "detail/math.hpp:apply_on_vector"]}
{"id": "C07", "title": "In-place and backward-overlapping calls are safe", "statement": "If the output buffer is an input buffer, or starts before an input buffer it overlaps, results are computed from the original input values, in the scalar and the SIMD versions alike.", "quantifier": "all relative placements with out <= in (or disjoint), all n, arities, back ends", "why_tests_cant": "The software-pipelined unroller reads ahead; tests use disjoint buffers.", "anchors": ["detail/unroll_helpers.hpp:mp_iteration_1", "simd_memory.hpp"]}
{"id": "C08", "title": "Forward-overlapping calls are not equivalent to the scalar loop", "statement": "There are forward-overlapping placements (in < out < in+n) for which the SIMD call, the scalar call and the snapshot semantics give different results; callers must not rely on them.", "quantifier": "existence claim, witnessed on a concrete placement, with the general safe region given by C07", "why_tests_cant": "Nobody tests overlapping buffers.", "anchors": ["detail/unroll_helpers.hpp:mp_iteration_1", "detail/math.hpp:apply_on_vector"]}
{"id": "C09", "title": "Sizes that are not a multiple of samples_per_loop leave the tail untouched", "statement": "For n >= samples_per_loop the SIMD call processes exactly the first floor(n/samples_per_loop)*samples_per_loop elements and changes nothing else.", "quantifier": "all n >= samples_per_loop, all buffers, back ends, arities", "why_tests_cant": "Tests always use multiples of the loop granule.", "anchors": ["detail/unroll_helpers.hpp:generate_simd_loop", "simd_unroll_constraints.hpp"]}
{"id": "C10", "title": "Size zero (or less than one loop granule) is not a no-op", "statement": "A scalar call with n = 0, or a SIMD call with fewer elements than one pass of its loop, runs 2^32 iterations because the counter is pre-decremented: whatever the buffers, the call accesses memory outside them (undefined behaviour) unless 2^32 iterations' worth of memory is mapped. This holds of the arithmetic functions, of filling, ramps, copying with SIMD, accumulating, panning, the meters and the horizontal functions. The scalar zerovec and copyvec do nothing with n = 0; with assertions enabled setvec, set_slope_vec and set_exp_vec stop.", "quantifier": "all buffers that do not extend over 2^32 loop iterations, all functions, all sizes below one pass", "why_tests_cant": "The failing run crashes the process, so it cannot be asserted in a unit test.", "anchors": ["detail/math.hpp:apply_on_vector", "detail/unroll_helpers.hpp:generate_simd_loop", "simd_memory.hpp:setvec", "simd_memory.hpp:copyvec_simd", "simd_pan.hpp:pan2_vec", "simd_peakmeter.hpp:peak_vec", "simd_horizontal_functions.hpp"]}
{"id": "C11", "title": "Alignment requirement of the SIMD entry points", "statement": "On back ends whose aligned accesses fault (SSE, SSE2, AVX), a SIMD call with a misaligned pointer faults; this holds of the arithmetic functions, filling, ramps, copying (for the pointers that the name of the copy function calls aligned), accumulating, panning, the horizontal functions and the meters. On back ends without the requirement (generic, NEON) any placement works.", "quantifier": "all misaligned addresses, all contents, functors and sizes >= samples_per_loop", "why_tests_cant": "Depends on heap placement; the tests force alignment.", "anchors": ["vec/vec_sse.hpp:load_aligned", "vec/vec_avx_float.hpp:load_aligned", "vec/vec_generic.hpp", "simd_memory.hpp:copyvec_simd", "simd_pan.hpp:pan2_vec_simd", "simd_peakmeter.hpp:peak_vec_simd"]}
{"id": "C12", "title": "A scalar argument behaves as a constant buffer", "statement": "Passing a scalar c to any binary, ternary or four-argument function gives the same result as passing a buffer of length n filled with c.", "quantifier": "all c, n, functors, positions of the scalar argument, back ends", "why_tests_cant": "Each wrapper combination is a separate template instantiation.", "anchors": ["detail/wrap_arguments.hpp:scalar_scalar_argument", "detail/wrap_argument_vector.hpp:vector_scalar_argument"]}
{"id": "C13", "title": "A ramp argument is base + i*slope", "statement": "In exact arithmetic a ramp argument (base, slope) takes the value base + i*slope at element i in both the scalar and the SIMD versions, for every back end.", "quantifier": "all bases, slopes, positions i, sizes, back ends; arithmetic in an arbitrary commutative ring", "why_tests_cant": "Ramps accumulate; the closed form must hold for every length.", "anchors": ["detail/wrap_arguments.hpp:scalar_ramp_argument", "detail/wrap_argument_vector.hpp:vector_ramp_argument", "vec/vec_sse.hpp:set_slope"]}
{"id": "C14", "title": "Double precision ramps keep double precision", "statement": "The per-vector increment of a double precision ramp argument is size*slope computed in double precision.", "quantifier": "all double slopes", "why_tests_cant": "The loss is below the tolerance of the tests.", "anchors": ["detail/wrap_argument_vector.hpp:vector_ramp_argument"]}
{"id": "C15", "title": "zerovec / setvec and all their SIMD variants fill exactly the buffer", "statement": "zerovec, zerovec_simd, zerovec_na_simd, setvec, setvec_simd, setvec_na_simd and the compile-time versions write the value to all n elements and nothing else; all variants agree.", "quantifier": "all n (positive multiples of the granule for the SIMD ones), addresses, values, back ends", "why_tests_cant": "All sizes and placements.", "anchors": ["simd_memory.hpp:setvec_simd", "simd_memory.hpp:zerovec"]}
{"id": "C16", "title": "set_slope_vec writes an arithmetic progression", "statement": "set_slope_vec and set_slope_vec_simd leave start + i*slope in out[i] (exact arithmetic) for every i<n and nothing else.", "quantifier": "all n, start, slope, back ends; arbitrary commutative ring", "why_tests_cant": "Accumulation over every length.", "anchors": ["simd_memory.hpp:set_slope_vec_simd", "vec/vec_base.hpp:set_slope"]}
{"id": "C17", "title": "set_exp_vec writes a geometric progression", "statement": "set_exp_vec and set_exp_vec_simd leave start * factor^i in out[i] (exact arithmetic) for every i<n and nothing else.", "quantifier": "all n, start, factor, back ends; arbitrary commutative ring", "why_tests_cant": "Accumulation over every length.", "anchors": ["simd_memory.hpp:set_exp_vec_simd", "simd_memory.hpp:pow_i", "vec/vec_base.hpp:set_exp"]}
{"id": "C18", "title": "copyvec copies", "statement": "copyvec, copyvec_simd and the aa/an/na/nn variants leave dest[i] = the original src[i] for every i<n and change nothing else.", "quantifier": "all n, contents, disjoint or safely overlapping placements, back ends, alignment variants", "why_tests_cant": "All sizes and placements.", "anchors": ["simd_memory.hpp:copyvec", "simd_memory.hpp:COPYVEC_FUNCTION"]}
{"id": "C19", "title": "copyvec reads only the source buffer", "statement": "The SIMD copy functions read only src[0..n).", "quantifier": "all n, placements, back ends", "why_tests_cant": "The over-read is silent unless the source ends at a page boundary.", "anchors": ["simd_memory.hpp:detail::copyvec::mp_iteration"]}
{"id": "C20", "title": "addvec accumulates a buffer or a constant", "statement": "addvec and addvec_simd leave out[i] = out0[i] + in[i] (or + c) in every out[i], i<n, and nothing else.", "quantifier": "all n, contents, back ends", "why_tests_cant": "All sizes and placements.", "anchors": ["simd_memory.hpp:addvec", "simd_memory.hpp:detail::addvec"]}
{"id": "C21", "title": "pan2 pans with constant gains", "statement": "pan2_vec and pan2_vec_simd leave out0[i] = in[i]*f0 and out1[i] = in[i]*f1 for all i<n and nothing else, for disjoint outputs.", "quantifier": "all n, gains, contents, back ends", "why_tests_cant": "All sizes and placements.", "anchors": ["simd_pan.hpp:pan2_vec_simd"]}
{"id": "C22", "title": "pan2 with ramped gains", "statement": "With slopes, output k holds in[i]*(f_k + i*s_k) in exact arithmetic, scalar and SIMD alike.", "quantifier": "all n, gains, slopes, back ends; arbitrary commutative ring", "why_tests_cant": "Accumulation over every length.", "anchors": ["simd_pan.hpp:pan2_vec_simd"]}
{"id": "C23", "title": "Peak meter: running maximum of absolute values", "statement": "peak_vec(in,&peak,n) leaves in *peak the maximum of its old value and all |in[i]|, returns |in[n-1]|, and changes nothing else.", "quantifier": "all n>0, all contents in a linear order", "why_tests_cant": "All contents and sizes.", "anchors": ["simd_peakmeter.hpp:peak_vec"]}
{"id": "C24", "title": "SIMD peak meter equals the scalar one", "statement": "peak_vec_simd gives the same *peak and return value as peak_vec for every n that is a multiple of samples_per_loop.", "quantifier": "all n, contents, back ends", "why_tests_cant": "The step of the SIMD loop differs per back end.", "anchors": ["simd_peakmeter.hpp:peak_vec_simd", "simd_unroll_constraints.hpp"]}
{"id": "C25", "title": "Peak/RMS meter accumulates the sum of squares", "statement": "peak_rms_vec and peak_rms_vec_simd add the sum of in[i]^2 to *squared_sum (exact arithmetic), update *peak as peak_vec does and change nothing else.", "quantifier": "all n, contents, back ends; ordered commutative ring", "why_tests_cant": "All contents and sizes.", "anchors": ["simd_peakmeter.hpp:peak_rms_vec", "simd_peakmeter.hpp:peak_rms_vec_simd"]}
{"id": "C26", "title": "The meters depend only on the arguments", "statement": "peak_vec_simd and peak_rms_vec_simd compute the same result on every execution with the same buffer and *peak.", "quantifier": "all back ends, including values of register lanes the code never initialises", "why_tests_cant": "Undefined register lanes are usually zero in tests.", "anchors": ["vec/vec_avx_float.hpp:load_first", "vec/vec_avx_double.hpp:load_first", "simd_peakmeter.hpp"]}
{"id": "C27", "title": "Horizontal sum", "statement": "horizontal_sum_vec and horizontal_sum_vec_simd return the sum of all n elements (exact arithmetic) and modify nothing.", "quantifier": "all n, contents, back ends", "why_tests_cant": "All contents and sizes.", "anchors": ["simd_horizontal_functions.hpp:horizontal_sum_vec_simd"]}
{"id": "C28", "title": "Horizontal maximum and minimum", "statement": "horizontal_max_vec / horizontal_min_vec return the largest / smallest element of the buffer.", "quantifier": "all n>0 and contents", "why_tests_cant": "Fails only for buffers without positive / with only positive elements.", "anchors": ["simd_horizontal_functions.hpp:horizontal_max_vec", "simd_horizontal_functions.hpp:horizontal_min_vec"]}
{"id": "C29", "title": "SIMD horizontal reductions equal the scalar ones", "statement": "horizontal_{max,min,sum,minmax,maxsum}_vec_simd return the same values as the scalar functions (exact arithmetic, totally ordered values) for n a multiple of the vector size.", "quantifier": "all n, contents, back ends", "why_tests_cant": "All contents and sizes; the reduction trees differ per back end.", "anchors": ["simd_horizontal_functions.hpp", "vec/vec_sse.hpp:HORIZONTAL_OP", "vec/vec_base.hpp:horizontal_sum"]}
{"id": "C30", "title": "In-register reductions", "statement": "horizontal_sum/min/max() of a vector object equal the sum/minimum/maximum of its lanes for every back end.", "quantifier": "all lane values, back ends", "why_tests_cant": "Shuffles are different per back end.", "anchors": ["vec/vec_sse.hpp:horizontal_sum", "vec/vec_sse2.hpp", "simd_utils.hpp:horizontal_max", "vec/vec_neon.hpp"]}
{"id": "C31", "title": "set_slope / set_exp chain", "statement": "set_slope(start,slope) puts start+i*slope in lane i and returns the increment to the next vector (size*slope); set_exp(start,f) puts start*f^i in lane i and returns the first value of the next vector (start*f^size) - for every back end.", "quantifier": "all start/slope/factor values; arbitrary commutative ring; all back ends", "why_tests_cant": "Separate hand-written code per back end.", "anchors": ["vec/vec_base.hpp:set_slope", "vec/vec_sse.hpp:set_slope", "vec/vec_avx_float.hpp:set_slope", "vec/vec_avx_double.hpp:set_slope"]}
{"id": "C32", "title": "Loads, stores and lane access are inverse", "statement": "load then store reproduces memory; set(i,v) then get(j) gives v if i=j and the old lane otherwise; load_first puts the value in lane 0 and zero elsewhere.", "quantifier": "all lanes, values, addresses, back ends", "why_tests_cant": "Separate code paths per instruction set.", "anchors": ["vec/vec_base.hpp:set", "vec/vec_sse.hpp:get", "vec/vec_sse.hpp:set", "vec/vec_sse.hpp:load_first"]}
{"id": "C33", "title": "Absolute value is exact", "statement": "abs of every bit pattern clears exactly the sign bit: on numbers it is the magnitude, on NaN it keeps the payload, and it never produces a negative number; SIMD and scalar agree bit for bit.", "quantifier": "all 2^32 / 2^64 bit patterns, all mask generation paths", "why_tests_cant": "2^64 inputs.", "anchors": ["vec/vec_sse.hpp:abs", "vec/vec_sse.hpp:gen_abs_mask", "vec/vec_sse2.hpp:gen_abs_mask"]}
{"id": "C34", "title": "Mask and constant generators", "statement": "gen_one, gen_05, gen_zero, gen_sign_mask, gen_abs_mask, gen_exp_mask, gen_exp_mask_1, gen_ones produce, on every x86 code path, the bit patterns of 1.0, 0.5, the sign bit, its complement, etc.", "quantifier": "all lanes; float and double; with and without SSE2", "why_tests_cant": "Each build configuration selects one path.", "anchors": ["vec/vec_sse.hpp:gen_one", "vec/vec_sse2.hpp:gen_one", "vec/vec_avx_float.hpp:gen_one"]}
{"id": "C35", "title": "Relational operators return exactly 0.0 or 1.0 and agree with the scalar operators", "statement": "less_vec_simd, less_equal, greater, greater_equal, equal_to, not_equal_to write 1.0 where the C++ comparison holds and +0.0 elsewhere, also for NaN operands.", "quantifier": "all pairs of bit patterns, all back ends", "why_tests_cant": "2^64 input pairs per operator.", "anchors": ["simd_binary_arithmetic.hpp:less", "vec/vec_sse.hpp:RELATIONAL_OPERATOR", "vec/vec_avx_float.hpp:operator>", "vec/vec_base.hpp:operator<"]}
{"id": "C36", "title": "select", "statement": "select(a,b,mask) returns b in the lanes whose mask is all ones and a in the lanes whose mask is zero, on every back end.", "quantifier": "all lane values; all back ends", "why_tests_cant": "NEON and Altivec are not built by the tests.", "anchors": ["vec/vec_sse.hpp:select", "vec/vec_neon.hpp:select", "vec/vec_generic.hpp:select", "detail/vec_math.hpp:vec_select"]}
{"id": "C37", "title": "min / max agree with std::min / std::max on numbers", "statement": "max_vec_simd / min_vec_simd return the same number as the scalar functions for all non-NaN operands; for NaN or zeros of different sign the SIMD version returns its second operand.", "quantifier": "all pairs of bit patterns", "why_tests_cant": "2^64 input pairs.", "anchors": ["vec/vec_sse.hpp:max_", "detail/math.hpp:max_", "vec.hpp:max_"]}
{"id": "C38", "title": "clip and clip2 stay inside the limits", "statement": "clip_vec results lie in [low, high] and equal the value when it lies inside; clip2_vec results lie in [-limit, limit], for ordered limits and all values; NaN handling is stated separately.", "quantifier": "all values and ordered limits, all lanes", "why_tests_cant": "All triples of floats.", "anchors": ["simd_ternary_arithmetic.hpp:clip", "simd_binary_arithmetic.hpp:clip2"]}
{"id": "C39", "title": "sign", "statement": "sgn_vec_simd returns 1 for positive, -1 for negative and zero for zero inputs, the same as the scalar function for every non-NaN input.", "quantifier": "all bit patterns", "why_tests_cant": "2^32 inputs.", "anchors": ["detail/vec_math.hpp:vec_sign", "detail/math.hpp:sign"]}
{"id": "C40", "title": "undenormalize flushes exactly the subnormals", "statement": "undenormalize returns 0 for every zero or subnormal input and the input itself, bit for bit, for every other input including infinities and NaN; scalar and SIMD agree.", "quantifier": "all bit patterns, float and double", "why_tests_cant": "2^64 inputs.", "anchors": ["detail/vec_math.hpp:vec_undenormalize", "detail/math.hpp:undenormalize"]}
{"id": "C41", "title": "round / floor / ceil without SSE4.1", "statement": "The pre-SSE4.1 round, floor and ceil return the correctly rounded integer (half to even for round) for every finite input, and the input itself when it is already integral.", "quantifier": "all finite float bit patterns", "why_tests_cant": "Fails only for magnitudes above 2^23.", "anchors": ["detail/vec_math.hpp:vec_round_float", "detail/vec_math.hpp:vec_floor_float", "detail/vec_math.hpp:vec_ceil_float"]}
{"id": "C42", "title": "round_vec and round_vec_simd agree", "statement": "round_vec_simd returns the same integer as round_vec for every input.", "quantifier": "all finite inputs", "why_tests_cant": "They differ exactly on ties, which random tests never hit.", "anchors": ["detail/math.hpp:round", "vec/vec_sse.hpp:round"]}
{"id": "C43", "title": "signed_sqrt", "statement": "signed_sqrt_vec_simd equals sign(x)*sqrt(|x|) bit for bit with the scalar version for every non-NaN input, and never produces NaN from a number.", "quantifier": "all non-NaN bit patterns, float and double", "why_tests_cant": "2^32 inputs.", "anchors": ["detail/vec_math.hpp:vec_signed_sqrt", "detail/math.hpp:signed_sqrt"]}
{"id": "C44", "title": "frexp/ldexp building blocks", "statement": "frexp_float splits every positive normal float x into m*2^e with 1/2 <= m < 1, ldexp_float(m,e) multiplies by 2^e exactly whenever the result is normal, and ldexp_float(frexp_float(x)) = x.", "quantifier": "all positive normal floats, all exponents with a normal result", "why_tests_cant": "All mantissa/exponent combinations.", "anchors": ["detail/vec_math.hpp:ldexp_float", "detail/vec_math.hpp:frexp_float"]}
{"id": "C45", "title": "sin, tan and atan are odd, cos is even, bit for bit", "statement": "For the SIMD approximations sin(-x) = -sin(x), tan(-x) = -tan(x), atan(-x) = -atan(x), tanh(-x) = -tanh(x) and cos(-x) = cos(x) hold bit for bit for every input, whatever the rounding mode or flush-to-zero setting.", "quantifier": "all bit patterns; arbitrary arithmetic hardware", "why_tests_cant": "2^32 inputs times every FPU mode.", "anchors": ["detail/vec_math.hpp:vec_sin_float", "detail/vec_math.hpp:vec_cos_float", "detail/vec_math.hpp:vec_tan_float", "detail/vec_math.hpp:vec_atan_float", "detail/vec_math.hpp:vec_tanh_float"]}
{"id": "C46", "title": "exp saturates and never returns NaN for a number", "statement": "exp_vec_simd returns FLT_MAX above its upper limit, 0 below its lower limit and a non-NaN value for every non-NaN input.", "quantifier": "all non-NaN bit patterns", "why_tests_cant": "One single bit pattern (88.72283935546875f) breaks it.", "anchors": ["detail/vec_math.hpp:vec_exp_float"]}
{"id": "C47", "title": "asin/acos/pow special cases", "statement": "asin and acos of |x|>1 return 0 for every such input; pow(0,y) = 0 for every y; signed pow of zero is zero.", "quantifier": "all bit patterns; arbitrary arithmetic hardware", "why_tests_cant": "2^64 input pairs.", "anchors": ["detail/vec_math.hpp:vec_asin_float", "detail/vec_math.hpp:vec_acos_float", "detail/vec_math.hpp:vec_pow", "detail/math.hpp:signed_pow"]}
{"id": "C48", "title": "softclip", "statement": "softclip_vec_simd equals softclip_vec bit for bit on every input including NaN and infinities; over the reals softclip is odd, continuous, monotone and bounded by 1.", "quantifier": "all bit patterns / all reals", "why_tests_cant": "2^32 inputs.", "anchors": ["softclip.hpp"]}
{"id": "C49", "title": "Unit conversions are mutually inverse", "statement": "midi2freq/freq2midi, midi2ratio/ratio2midi, oct2freq/freq2oct and amp2db/db2amp are inverse to each other in real arithmetic up to the truncated literal constants, with an explicit error bound.", "quantifier": "all real inputs in the domain", "why_tests_cant": "Uncountably many inputs.", "anchors": ["simd_unit_conversion.hpp"]}
{"id": "C50", "title": "is_aligned", "statement": "vec<F>::is_aligned(p) is true exactly when p is a multiple of the vector's byte size.", "quantifier": "all 64-bit addresses, all back ends", "why_tests_cant": "2^64 addresses; wrong only for generic double vectors.", "anchors": ["vec/vec_generic.hpp:is_aligned", "vec/vec_sse.hpp:is_aligned", "vec/vec_avx_double.hpp:is_aligned"]}
{"id": "C51", "title": "Loop granule is a multiple of the vector size", "statement": "On every back end samples_per_loop<F> is a positive multiple of vec<F>::size, so the unroller's recursion ends exactly, and N not a multiple of the size is rejected at compile time.", "quantifier": "all back ends, all N", "why_tests_cant": "A template recursion that does not end shows up only for the N that a caller uses.", "anchors": ["simd_unroll_constraints.hpp", "detail/unroll_helpers.hpp:compile_time_unroller"]}
{"id": "C52", "title": "Newton reciprocal", "statement": "The Newton refined reciprocal has residual 1 - x*r' = (1 - x*r)^2 in exact arithmetic, so the error of the hardware estimate is squared and x*r' <= 1; with the roundings of the code the residual of the bit pattern is at most e^2 + 5/2^24 for an estimate of residual e.", "quantifier": "all x between 2^-100 and 2^100 in magnitude, all estimates with residual at most 1/64, every float back end with an estimate instruction", "why_tests_cant": "All inputs.", "anchors": ["detail/vec_math.hpp:vec_reciprocal_newton"]}
{"id": "C53", "title": "Polynomial approximation error", "statement": "In real arithmetic the kernels used by exp, log, sin and cos stay within the documented relative error of the mathematical functions on their reduced intervals.", "quantifier": "all reals of the reduced interval", "why_tests_cant": "Uncountably many inputs; tests sample 10000 points at tolerance 5e-6.", "anchors": ["detail/vec_math.hpp:vec_exp_float", "detail/vec_math.hpp:vec_log_float", "detail/vec_math.hpp:vec_sin_float", "detail/vec_math.hpp:vec_cos_float"]}
{"id": "C54", "title": "Aligned allocation", "statement": "The portable malloc_aligned returns a 16-byte aligned block of the requested size inside the malloc'ed block, does not overlap its own bookkeeping, and free_aligned frees exactly the malloc'ed block, for every address malloc may return.", "quantifier": "all malloc return addresses and sizes", "why_tests_cant": "The system malloc of the test machine always returns 16-byte aligned blocks.", "anchors": ["benchmarks/malloc_aligned.hpp"]}
{"id": "C55", "title": "Integer vectors of the AVX back end", "statement": "The AVX integer vector operations, implemented on two 128-bit halves, act lane by lane on all eight lanes in order.", "quantifier": "all lane values and shift counts", "why_tests_cant": "2^256 inputs.", "anchors": ["vec/vec_int_avx.hpp"]}
{"id": "C56", "title": "Each function computes what its name says", "statement": "In real arithmetic every public buffer function computes the mathematical function of its name on every element (abs, sgn, floor, ceil, frac, trunc, trigonometric and logarithmic functions, relational operators, min/max, clip/clip2, pow, sums, mix, ampmod, muladd, unit conversions with their pitch reference A440 = note 69 = octave 4.75).", "quantifier": "all public functions, all real inputs of the domain, all sizes, back ends and placements", "why_tests_cant": "The test suite compares the SIMD function with the scalar function of the same functor, so a wrong functor passes; the domain is uncountable.", "anchors": ["simd_unary_arithmetic.hpp", "simd_binary_arithmetic.hpp", "simd_ternary_arithmetic.hpp", "simd_mix.hpp", "simd_math.hpp", "simd_unit_conversion.hpp", "softclip.hpp"]}
{"id": "C57", "title": "trunc returns the integer part", "statement": "trunc_vec and trunc_vec_simd return the integer part of every finite element, and agree with each other.", "quantifier": "all finite inputs, all back ends", "why_tests_cant": "Values out of the range of long are undefined behaviour in the scalar version; negative numbers fail on one back end only.", "anchors": ["detail/math.hpp:trunc", "simd_unary_arithmetic.hpp:trunc_vec", "vec/vec_altivec.hpp", "detail/vec_math.hpp"]}
{"id": "C58", "title": "frac is in [0, 1)", "statement": "frac_vec and frac_vec_simd return a number in [0, 1) for every finite element, the same in both versions, and the exact fractional part of nonnegative numbers.", "quantifier": "all finite inputs, all back ends", "why_tests_cant": "Fails only for tiny negative numbers, where the difference is rounded to 1.", "anchors": ["detail/math.hpp:frac", "simd_unary_arithmetic.hpp:frac_vec", "vec/vec_sse.hpp:frac"]}
{"id": "C59", "title": "Vector division", "statement": "The vector division (over_vec_simd and the functors using it) gives the same quotient as the scalar division; where a back end divides through the reciprocal, the quotient has a bounded relative error.", "quantifier": "all finite operands, all back ends", "why_tests_cant": "2^64 operand pairs; the two back ends with an inexact quotient are not the test machine's.", "anchors": ["vec/vec_neon.hpp:operator/", "vec/vec_altivec.hpp:operator/", "simd_binary_arithmetic.hpp:over_vec_simd"]}
{"id": "C60", "title": "exp accuracy", "statement": "For every finite float x from -87.33 up to (excluding) 88.72283935546875 exp_vec_simd returns a finite float whose relative error against the real exponential is at most 2^-21, rounding errors of the whole computation included; from -88 to -87.33 the absolute error is below 2^-125 and the result is not negative.", "quantifier": "all finite floats of the range, all SSE2/AVX builds with and without SSE4.1 and FMA", "why_tests_cant": "Tests compare 10000 sampled values at tolerance 5e-6; the bound is for every value and about ten times tighter.", "anchors": ["detail/vec_math.hpp:vec_exp_float", "simd_math.hpp:exp_vec_simd"]}
{"id": "C61", "title": "sin and cos accuracy", "statement": "For every finite float x with |x| <= 8192, sin_vec_simd and cos_vec_simd return a finite float within 2^-22 of the real sine and cosine, with all rounding errors of argument reduction and polynomial included.", "quantifier": "all finite floats up to 8192 in magnitude, all SSE2/AVX builds with and without SSE4.1 and FMA", "why_tests_cant": "Tests compare 10000 sampled values in a small interval.", "anchors": ["detail/vec_math.hpp:vec_sin_float", "detail/vec_math.hpp:vec_cos_float"]}
{"id": "C62", "title": "tan accuracy", "statement": "For every finite float x with |x| <= 8192 and |cos x| >= 2^-16, tan_vec_simd returns a finite float within 2^-21/cos(x)^2 of the real tangent.", "quantifier": "all such floats, all SSE2/AVX builds", "why_tests_cant": "Sampled tests avoid the poles and use a fixed tolerance.", "anchors": ["detail/vec_math.hpp:vec_tan_float"]}
{"id": "C63", "title": "log, log2 and log10 accuracy", "statement": "For every positive normal float log_vec_simd returns a finite float with relative error at most 2^-22 (so exactly 0 at 1); log2_vec_simd and log10_vec_simd have relative error at most 2^-21.", "quantifier": "all positive normal floats, all SSE2/AVX builds", "why_tests_cant": "Near 1 the logarithm is tiny, and sampled tests with absolute tolerance do not see relative errors there.", "anchors": ["detail/vec_math.hpp:vec_log_float", "detail/vec_math.hpp:vec_log2", "detail/vec_math.hpp:vec_log10"]}
{"id": "C64", "title": "sin and cos stay in range", "statement": "The results of sin_vec_simd and cos_vec_simd are numbers between -1 and 1 for every finite input: rounding never pushes them beyond full scale.", "quantifier": "all finite floats", "why_tests_cant": "Tests use small arguments; for large ones the reduction loses all precision.", "anchors": ["detail/vec_math.hpp:vec_sin_float", "detail/vec_math.hpp:vec_cos_float"]}
{"id": "C65", "title": "log outside its domain", "statement": "log_vec_simd reports an argument outside its domain like std::log: -inf for 0, NaN for negative numbers and NaN, +inf for +inf.", "quantifier": "all bit patterns that are not positive normal numbers", "why_tests_cant": "Tests only use positive samples.", "anchors": ["detail/vec_math.hpp:vec_log_float"]}
{"id": "C66", "title": "Documented relative error", "statement": "As documented in detail/vec_math.hpp, the approximations of the mathematical functions have a relative error below 5e-7.", "quantifier": "all floats of the domain", "why_tests_cant": "The bad inputs are isolated floats close to multiples of pi.", "anchors": ["detail/vec_math.hpp:31"]}
{"id": "C67", "title": "Aligned allocator", "statement": "allocate(n) of aligned_allocator<T> gives a 16-byte aligned block with room for n objects or throws std::bad_alloc, for every n up to max_size(); allocators compare equal, since any of them can free the memory of another.", "quantifier": "all n, object sizes and results of malloc", "why_tests_cant": "The overflowing sizes are never asked for in tests, and comparison matters only when containers are moved or spliced.", "anchors": ["benchmarks/malloc_aligned.hpp:157-231"]}
{"id": "C68", "title": "Ownership of aligned_storage_ptr", "statement": "For every history of constructing, resetting, assigning, swapping and destroying smart pointers that are given each block once, every block is freed exactly once: no block is freed twice, none is freed while another smart pointer holds it, none is leaked.", "quantifier": "all histories of any length, any number of objects and blocks", "why_tests_cant": "Ownership errors depend on the history; tests run a few.", "anchors": ["benchmarks/malloc_aligned.hpp:234-291"]}
{"id": "C69", "title": "Aligned arrays are values", "statement": "For every history of constructing, copying, assigning, indexing, filling, swapping and destroying aligned_arrays, each array has the contents that the history gives to it, independently of the others; memory is released exactly once; at() reports an index out of range; the comparison operators are those of the lexicographic order.", "quantifier": "all histories, sizes, element types with trivial destructor", "why_tests_cant": "Aliasing and ownership errors depend on the history.", "anchors": ["benchmarks/cache_aligned_array.hpp"]}
{"id": "C70", "title": "Accuracy of atan", "statement": "atan of a float has a relative error below 5e-7 for every finite argument, the sign of the argument, and stays within pi/2 up to that error; atan of an infinity is pi/2 rounded, with its sign.", "quantifier": "all 2^32 patterns of a lane, all SSE2/AVX builds", "why_tests_cant": "Tests compare a few thousand values with libm.", "anchors": ["detail/vec_math.hpp:vec_atan_float"]}
{"id": "C71", "title": "Accuracy of asin", "statement": "asin of every float of [-1, 1] has a relative error below 5e-7.", "quantifier": "all floats of [-1, 1], all SSE2/AVX builds", "why_tests_cant": "Tests compare a few thousand values with libm.", "anchors": ["detail/vec_math.hpp:vec_asin_float"]}
{"id": "C72", "title": "Accuracy of acos", "statement": "acos of every float of [-1, 1] has a relative error below 5e-7.", "quantifier": "all floats of [-1, 1], all SSE2/AVX builds", "why_tests_cant": "The one wrong value is at a boundary that a random test does not hit.", "anchors": ["detail/vec_math.hpp:vec_acos_float"]}
{"id": "C73", "title": "Accuracy of tanh", "statement": "tanh of every finite float has a relative error of at most 5e-7, lies in [-1, 1] and has the sign of its argument; tanh of an infinity is 1 with its sign.", "quantifier": "all 2^32 patterns of a lane, all SSE2/AVX builds", "why_tests_cant": "Tests compare a few thousand values with libm.", "anchors": ["detail/vec_math.hpp:vec_tanh_float"]}
{"id": "C74", "title": "Accuracy of pow and signed_pow", "statement": "pow(x, y) of a normal positive x has a relative error of at most 4e-7 + 3.1e-7 |y log x| where the power is a normal float, is FLT_MAX above that range and 0 below; signed_pow does the same with the magnitude of x and keeps the sign of x.", "quantifier": "all normal bases, all finite exponents, all SSE2/AVX builds", "why_tests_cant": "The domain has 2^64 points.", "anchors": ["detail/vec_math.hpp:vec_pow", "detail/vec_math.hpp:vec_signed_pow"]}
{"id": "C75", "title": "The integer vectors of the back ends are interchangeable", "statement": "The integer vector classes of SSE2, NEON and Altivec implement the same operations on the int in every lane: addition, subtraction, comparisons, bitwise and, andnot(a,b) = ~a & b, shifts that shift in zeros, conversion to float.", "quantifier": "all register contents, all shift counts, all lanes", "why_tests_cant": "Test machines have one back end; the classes differ only for negative numbers, unusual counts and in the operand order of andnot.", "anchors": ["vec/vec_int_sse2.hpp:int_vec_sse2", "vec/vec_int_neon.hpp:int_vec_neon", "vec/vec_int_altivec.hpp:int_vec_altivec"]}
{"id": "C77", "title": "Accuracy of the unit conversions", "statement": "midi2freq, midi2ratio, oct2freq and db2amp of single-precision numbers have a relative error of at most 5e-7 plus 3.7e-7 per octave (6e-8 per dB); ratio2midi and amp2db have a relative error of at most 5.5e-7; freq2midi and freq2oct have absolute errors of at most 6.5e-6 semitones and 5e-7 octaves plus 7.3e-6 and 5.4e-7 per octave of distance from 440 Hz. No result is infinite or NaN.", "quantifier": "all floats within 115 octaves (690 dB) of the reference, all frequencies of at least 2^-100 Hz in magnitude, all SSE2/AVX builds", "why_tests_cant": "The error of the argument is amplified by the power; tests compare a few values with the scalar code, which has the same literals.", "anchors": ["simd_unit_conversion.hpp:midi2freq", "simd_unit_conversion.hpp:freq2midi", "simd_unit_conversion.hpp:midi2ratio", "simd_unit_conversion.hpp:ratio2midi", "simd_unit_conversion.hpp:oct2freq", "simd_unit_conversion.hpp:freq2oct", "simd_unit_conversion.hpp:amp2db", "simd_unit_conversion.hpp:db2amp"]}
{"id": "C76", "title": "A whole call is as accurate as its table entry", "statement": "For every public vector function the _simd call and the compile-time-size call, given finite single-precision arguments in the documented range of that function, write n finite floats, each within that function's tolerance of the exact mathematical value at the corresponding argument(s), and change nothing else. The ranges and tolerances of all functions are one table that does not mention the implementation.", "quantifier": "all public unary, binary, ternary and four-argument functions, all lengths that are multiples of the block size, all pointers, numbers and ramps as arguments, all finite floats in range (acos without -0.5), all SSE2/AVX builds", "why_tests_cant": "Tests sample lengths and arguments; the accuracy of a call needs every argument value and every element of every length.", "anchors": ["simd_math.hpp", "simd_unary_arithmetic.hpp", "simd_binary_arithmetic.hpp", "simd_ternary_arithmetic.hpp", "simd_mix.hpp", "simd_unit_conversion.hpp", "softclip.hpp"]}
{"id": "C78", "title": "SIMD and scalar calls give the same numbers", "statement": "For every public vector function that does not use an approximation, f_vec_simd and f_vec called with the same arguments write the same numbers: bit for bit, except that the sign of a zero may differ. One table says for which builds and arguments this holds. For double it is everything except ties of round, trunc outside the range of long and a fused muladd. With a fused multiply-add muladd_vec_simd and muladd_vec differ for some arguments.", "quantifier": "all public unary, binary, ternary and four-argument functions, all finite floats and doubles the table allows, all builds, all lengths, all pointers and numbers as arguments", "why_tests_cant": "Tests compare the two versions on random numbers with a tolerance; equality of bit patterns needs every argument.", "anchors": ["simd_math.hpp", "simd_unary_arithmetic.hpp", "simd_binary_arithmetic.hpp", "simd_ternary_arithmetic.hpp", "simd_mix.hpp", "softclip.hpp"]}
{"id": "C79", "title": "Rounding error of sums, meters and ramps", "statement": "For finite arguments whose magnitudes do not add up to an overflow, the result of horizontal_sum_vec differs from the exact sum by at most ((1+u)^d - 1) times the sum of the magnitudes, with d = n; horizontal_sum_vec_simd satisfies this with the smaller d = n/size + size. The same holds for the sum of horizontal_maxsum, for the squared sum of peak_rms_vec(_simd), and for the values base + i*slope that a ramp argument stands for (d = i scalar, d = size + i/size SIMD). For double SIMD ramps a further error of i/size * (size*|slope|*2^-23) comes from the increment being passed as a float.", "quantifier": "all finite float and double arguments in range, all builds, all lengths, all bases and slopes", "why_tests_cant": "The worst rounding error over all arguments and lengths cannot be sampled; tests compare with a fixed tolerance on short buffers.", "anchors": ["simd_horizontal_functions.hpp: horizontal_sum_vec, horizontal_maxsum_vec", "simd_peakmeter.hpp: peak_rms_vec", "vec/vec_base.hpp: set_slope", "detail/wrap_arguments.hpp: slope_argument"]}
{"id": "C80", "title": "Rounding error of set_slope_vec and set_exp_vec", "statement": "set_slope_vec writes f + i*slope to element i with an error of at most ((1+u)^i - 1)(|f| + i|slope|) as long as the ramp stays in range; set_slope_vec_simd does so with at most size + i/size roundings, for float and double alike. set_exp_vec and set_exp_vec_simd write f*curve^i with a relative error of at most (1+u)^i - 1, provided the first and last element (and for SIMD curve and curve^size) stay normal numbers; the scalar and the SIMD version therefore agree within twice that bound.", "quantifier": "all finite starting values, slopes and curves in range, all lengths, all builds, float and double", "why_tests_cant": "The accumulated rounding error depends on the start value, the increment and the length; tests compare with a fixed tolerance for a few ramps.", "anchors": ["simd_memory.hpp: set_slope_vec, set_slope_vec_simd, set_exp_vec, set_exp_vec_simd", "vec/vec_base.hpp: set_slope, set_exp"]}
{"id": "C81", "title": "Extrema and peaks of actual floats and doubles", "statement": "For buffers of numbers (infinities included, NaNs excluded) horizontal_max_vec, horizontal_min_vec, horizontal_minmax_vec, horizontal_maxsum_vec and peak_vec, and their SIMD versions, return a bit pattern that is one of the elements (or the initial value), and none has a better value. Scalar and SIMD versions return the same pattern, except for the sign of a zero minimum. Because the initial value is numeric_limits::min(), the maximum of a buffer of negative numbers is reported as 2^-126, and the minimum of a buffer of larger numbers as well. NaNs: the scalar meter ignores them; in the SSE meter a NaN in lane 0 of the last register of a block makes the result independent of the old peak.", "quantifier": "all floats and doubles, all builds (SIMD meters: all but AVX), all lengths that are multiples of the step, all alignments and old peaks", "why_tests_cant": "Ties between zeros, infinities and NaNs at every position and in every combination cannot be enumerated; tests use random finite numbers.", "anchors": ["simd_horizontal_functions.hpp: horizontal_max_vec, horizontal_min_vec, horizontal_minmax_vec, horizontal_maxsum_vec", "simd_peakmeter.hpp: peak_vec, peak_vec_simd, peak_rms_vec, peak_rms_vec_simd"]}
{"id": "C82", "title": "Processing a buffer in blocks", "statement": "Cutting a buffer into blocks and calling an elementwise, fill, copy, accumulate or pan function once per block, in any order, leaves the same memory as one call on the whole buffer, for scalar calls and for aligned SIMD calls on any build. Pointers are advanced by the start of the block and a ramp argument is restarted with its value at the start of the block (in exact arithmetic base + start*slope). The peak and peak/RMS meters updated block after block end with the state of the whole buffer, and the sum, maximum and minimum of a buffer are those of the results of its blocks (SIMD and sums in exact arithmetic).", "quantifier": "all unary, binary, ternary and quaternary functions, fills, copies, accumulation, panning, meters and horizontal functions, all builds, all partitions of all lengths (SIMD: blocks of whole cache lines), all orders, in-place or disjoint buffers", "why_tests_cant": "The number of partitions and orders is exponential in the length; tests fix one block size.", "anchors": ["simd_unit_conversion.hpp", "simd_math.hpp", "simd_binary_arithmetic.hpp", "simd_ternary_arithmetic.hpp", "simd_mix.hpp: *_vec, *_vec_simd", "simd_peakmeter.hpp: peak_vec, peak_vec_simd", "simd_pan.hpp: pan2_vec, pan2_vec_simd", "simd_horizontal_functions.hpp", "simd_memory.hpp"]}
{"id": "C83", "title": "Calls in several threads", "statement": "Calls read only their input buffers and write only their output buffers, whatever the values, so calls in different threads on buffers of which no written one is shared do not interfere: under every schedule every thread returns, without fault, and the memory is the one that each call leaves alone. In particular a buffer may be divided among threads: every schedule leaves the memory of the single call. copyvec_simd is an exception: it also reads one vector behind its source.", "quantifier": "all elementwise, fill, copy, accumulate, pan, meter and horizontal functions, all builds, all numbers of threads, all partitions, all interleavings of single-element accesses", "why_tests_cant": "The number of schedules is exponential in the lengths of the calls.", "anchors": ["detail/define_macros.hpp: *_vec, *_vec_simd", "detail/unroll_helpers.hpp", "simd_memory.hpp: zerovec, setvec, set_slope_vec, set_exp_vec, copyvec, addvec and SIMD versions", "simd_pan.hpp: pan2_vec, pan2_vec_simd", "simd_peakmeter.hpp", "simd_horizontal_functions.hpp"]}
{"id": "C84", "title": "Aligned allocation on every platform", "statement": "Memory from malloc_aligned, calloc_aligned and aligned_allocator may be passed to the aligned SIMD functions for float and double of the same build, whichever implementation the platform selects (posix_memalign, Apple's malloc, _mm_malloc, TBB, the portable one); nbytes bytes are usable; free_aligned gives the system back what it returned; a failure gives a null pointer.", "quantifier": "all combinations of platform and instruction set macros, all systems whose functions behave as documented, all sizes", "why_tests_cant": "A test runs on one platform, and its malloc happens to return well aligned blocks.", "anchors": ["benchmarks/malloc_aligned.hpp:27-158", "vec.hpp:23-43"]}
{"id": "C85", "title": "NaN in, NaN out", "statement": "Where an argument of an arithmetic or mathematical function is a NaN, the result at that position is a NaN, in the scalar and in the SIMD functions, so that a broken signal is noticed and not turned into an ordinary number.", "quantifier": "all NaN bit patterns (quiet and signalling, both signs), all functions, all builds, float and double, all other arguments", "why_tests_cant": "There are 2^24 NaN patterns and dozens of functions and builds; the test programs contain no NaN at all.", "anchors": ["simd_math.hpp", "detail/vec_math.hpp", "vec/vec_sse.hpp", "vec/vec_avx_float.hpp", "vec/vec_neon.hpp", "vec/vec_altivec.hpp"]}
{"id": "C86", "title": "Fades are accurate", "statement": "Multiplying a signal with a gain that changes linearly, mixing two signals with two such gains, or panning with two such gains, gives at position i the product of the sample and gain + i*slope up to an explicit number of rounding errors, in the scalar and in the SIMD functions, however long the fade.", "quantifier": "all buffers of finite samples, all finite gains and slopes in range, all lengths and positions, all builds, float and double", "why_tests_cant": "The error grows with the position because the gain is accumulated; a test measures a few lengths and slopes, not every one.", "anchors": ["simd_binary_arithmetic.hpp: times_vec, times_vec_simd with slopes", "simd_mix.hpp: mix_vec", "simd_pan.hpp: pan2_vec", "vec/vec_sse.hpp: set_slope", "vec/vec_base.hpp: set_slope"]}
{"id": "C87", "title": "Ramps with exact values give the same numbers in scalar and SIMD code", "statement": "If the values of a ramp and the multiples of its slope are numbers of the format, for example a fade from 1 to 0 in 64 steps, the gain is computed exactly at every position, and the scalar and the SIMD functions give the same results with it.", "quantifier": "all gains a/2^q and slopes c/2^q with |a| + n|c| at most 2^24 (float) or 2^53 (double) and all other representable ramps, all lengths, all finite samples, all builds that multiply with one rounding", "why_tests_cant": "Whether the accumulation order matters depends on every slope and length; equality for the tested ones says nothing about others, and for most slopes it is false.", "anchors": ["simd_binary_arithmetic.hpp: times_vec, times_vec_simd with slopes", "simd_mix.hpp: mix_vec", "simd_pan.hpp: pan2_vec", "vec/vec_sse.hpp: set_slope", "vec/vec_base.hpp: set_slope"]}
{"id": "C88", "title": "Inverting the polarity of a signal", "statement": "Calling an odd function on a negated signal gives the negated result, with the same magnitude in every sample: sums, differences, products, quotients, clip2, muladd, ampmod, mix, sgn, cube, round, trunc, softclip, signed square root and the odd transcendental functions. Even functions give the same bit patterns. Negation exchanges min and max, floor and ceil, and the ends of the range of clip.", "quantifier": "all bit patterns for the arithmetic functions, all finite arguments (within the range of trunc and of rounding without a rounding instruction) for the others, all lengths, builds and both precisions", "why_tests_cant": "Polarity symmetry must hold for every sample value; rounding, fused operations, selection masks and polynomial cores could each break it for some values only.", "anchors": ["simd_binary_arithmetic.hpp", "simd_ternary_arithmetic.hpp", "simd_mix.hpp: mix_vec, sum_vec", "simd_math.hpp", "simd_unary_arithmetic.hpp", "softclip.hpp", "detail/vec_math.hpp"]}
{"id": "C89", "title": "Flushing subnormal numbers to zero", "statement": "On a processor that treats subnormal operands as zeros and flushes subnormal results to zero (MXCSR on x86, always for NEON on ARMv7, Altivec's non-Java mode), the arithmetic functions store no subnormal numbers; where neither operands nor intermediate results are subnormal (or the least normal number) they store the same bits as without these flags; sums, differences and products of any numbers differ from the exact ones by the rounding error and a small multiple of the least normal number; undenormalize and abs store the same bits with any flags.", "quantifier": "all combinations of the two flags, all ways to treat results rounded up to the least normal number, all bit patterns, lengths, argument kinds and vector classes, both precisions", "why_tests_cant": "Depends on processor state outside the program and on values around 1e-38 that tests with ordinary signals never produce.", "anchors": ["simd_binary_arithmetic.hpp", "simd_ternary_arithmetic.hpp", "simd_mix.hpp: mix_vec, sum_vec", "simd_unary_arithmetic.hpp: square_vec, cube_vec, undenormalize_vec", "vec/vec_neon.hpp", "vec/vec_sse.hpp", "vec/vec_altivec.hpp"]}
{"id": "C90", "title": "Order is preserved", "statement": "A function that rises with an argument in exact arithmetic never returns less for a larger argument, in spite of rounding: sums, differences, products with a gain of known sign, quotients by positive numbers, min, max, clip, clip2, muladd, ampmod, mix, sgn, cube, square and abs of magnitudes, floor, ceil, round, trunc, undenormalize, signed_sqrt, softclip, reciprocal. Two calls on buffers ordered element by element write buffers ordered element by element.", "quantifier": "all pairs of ordered arguments (including infinities and subnormal numbers), all buffers, lengths, argument kinds and vector classes, fused or not, both precisions", "why_tests_cant": "A statement about all pairs of inputs: a rounding that reverses the order of two neighbouring numbers shows at a few inputs of 2^32 only, as softclip does beyond 2^22.", "anchors": ["simd_binary_arithmetic.hpp", "simd_ternary_arithmetic.hpp", "simd_mix.hpp: mix_vec, sum_vec", "simd_unary_arithmetic.hpp: cube_vec, floor_vec, round_vec, undenormalize_vec", "simd_math.hpp: signed_sqrt_vec", "softclip.hpp", "detail/vec_math.hpp", "detail/math.hpp"]}
{"id": "C91", "title": "Every x86 build gives the same bits", "statement": "Programs built for SSE2, SSE4.1 or AVX, run on any two processors, write bit for bit the same results for the same input: arithmetic, comparisons, min, max, clipping, mixing, the softclip, the unit conversions and all transcendental functions, although the register width, the comparison predicates, the selection and the rounding of the classes differ. Whole calls leave the same memory. For double, and for NEON and the plain build where the function is exact, the results agree up to the sign of zeros.", "quantifier": "all finite arguments, all buffers and lengths, all pairs of builds, all pairs of platforms (C library, estimate instructions, undefined lanes, assertions)", "why_tests_cant": "A test runs one build on one machine; equality of two builds on all inputs cannot be sampled, and the differences (sign of a zero, one rounding more) are invisible to tolerances.", "anchors": ["detail/vec_math.hpp", "vec/vec_sse.hpp", "vec/vec_avx_float.hpp", "vec/vec_sse2.hpp", "vec/vec_avx_double.hpp", "simd_math.hpp", "simd_unit_conversion.hpp"]}
{"id": "C92", "title": "Results that need no rounding are exact", "statement": "If the values a function computes on the way to its result (products, partial sums, quotients, roots) are numbers of the format, the result is the exact mathematical value, in every build, with and without FMA. In particular whole numbers up to 2^24 (2^53 for double) and signals on a common binary grid are added, scaled, mixed, modulated and clipped without error, and a gain that is a power of two changes a signal by exactly that factor.", "quantifier": "all finite arguments whose intermediate values are representable, all builds, all platforms, all buffers and lengths", "why_tests_cant": "Exactness on a few integers does not show it for all representable intermediate results, nor in builds with another association of the operations.", "anchors": ["simd_binary_arithmetic.hpp", "simd_ternary_arithmetic.hpp", "simd_mix.hpp", "simd_unary_arithmetic.hpp", "softclip.hpp", "vec/vec_sse.hpp", "vec/vec_avx_float.hpp", "vec/vec_neon.hpp", "vec/vec_altivec.hpp"]}
{"id": "C93", "title": "Neutral settings change nothing, and once is enough", "statement": "Gain 1, offset 0, modulation 0, limits that are not exceeded, mixing with another finite signal at gain 0, rounding of whole numbers, and the fixed points of the other functions return the first argument unchanged, up to the sign of zeros. Taking absolute values or signs, rounding, flushing denormals and limiting a second time changes nothing, also when the second call works in place on the output of the first.", "quantifier": "all finite arguments in the tables, all limits including infinite or reversed ones, all builds, all platforms, all buffers and lengths", "why_tests_cant": "A setting that changes the last bit of some samples only is not found by listening or by samples; idempotence must hold for every value.", "anchors": ["simd_binary_arithmetic.hpp", "simd_ternary_arithmetic.hpp", "simd_mix.hpp", "simd_unary_arithmetic.hpp", "simd_math.hpp", "softclip.hpp"]}
{"id": "C94", "title": "The logarithm to base 2 of a double has double precision", "statement": "log2 of doubles returns the logarithm to base 2 with an error of a few units in the last place of a double, in every language mode the headers support; likewise for floats.", "quantifier": "all positive finite arguments, all builds for double, all platforms whose C library computes log with an error of at most one unit, all buffers and lengths", "why_tests_cant": "The result looks right to eight digits; a test with the tolerance of a float passes.", "anchors": ["detail/math.hpp log2", "simd_math.hpp log2_vec, log2_vec_simd"]}
{"id": "C95", "title": "The order of arguments does not matter where arithmetic says so", "statement": "a+b and b+a, a*b and b*a, a<b and b>a, a<=b and b>=a, equality and inequality return the same bits when the arguments are exchanged, minimum and maximum the same number; a-b is the negative of b-a; of a comparison and its opposite exactly one returns 1.0. The factors of muladd and ampmod, the summands of sum and the two channels of mix can be exchanged. The same holds for whole calls with any mixture of pointers, numbers and ramps.", "quantifier": "all pairs of numbers including infinities, all builds with and without FMA, all platforms, all buffers and lengths", "why_tests_cant": "The instruction sets order the operands differently (NEON adds the product to the addend, SSE comparisons are mirrored); a test of some pairs does not exclude an argument for which it matters.", "anchors": ["simd_binary_arithmetic.hpp", "simd_ternary_arithmetic.hpp", "simd_mix.hpp", "vec/vec_sse.hpp", "vec/vec_avx_float.hpp", "vec/vec_neon.hpp", "vec/vec_altivec.hpp", "vec/vec_sse2.hpp", "vec/vec_avx_double.hpp"]}
{"id": "C96", "title": "Converting a unit and back returns the value", "statement": "midi2freq and freq2midi, midi2ratio and ratio2midi, oct2freq and freq2oct, db2amp and amp2db undo each other: applying one and then the other returns the value one started with, up to an error of about one unit in the last place per octave (or per 6 dB) of distance from the reference, over twenty octaves in both directions or 200 dB.", "quantifier": "all floats within twenty octaves of the reference or 200 dB, all builds with vector mathematics, all platforms with correctly rounded 1/log 2 and 1/log 10 and the documented accuracy of rcpps, all buffers and lengths", "why_tests_cant": "The errors of two approximations, one in each direction, are combined by an exponential; samples do not find the worst case.", "anchors": ["simd_unit_conversion.hpp", "detail/vec_math.hpp", "vec/vec_sse.hpp", "vec/vec_avx_float.hpp"]}
{"id": "C97", "title": "Changing levels by powers of two is exact", "statement": "If the arguments of a call are scaled by powers of two, the results are scaled by a power of two, exactly: sums, differences, minima, maxima, clipping limits and absolute values by the common factor, products, quotients, squares and cubes by the product, quotient, square and cube of the factors; comparisons and signs do not change. Signed square roots of signals scaled by 4^k are scaled by 2^k, without further conditions. Peaks, maxima and minima of buffers have the level of the buffers (maxima from numeric_limits::min() on). muladd, ampmod, mix, pan and the sum of a buffer scale like the formulas they stand for, with or without fused operations. The condition is that results are finite and that products and quotients are zero or at least the smallest normal number.", "quantifier": "all finite arguments, all factors 2^k with k positive or negative, all builds with and without FMA, both precisions, all buffers, lengths and mixtures of pointers, numbers and ramps", "why_tests_cant": "A level in 6 dB steps is one of 250 (or 2000) binary exponents, and at each of them every mantissa would have to be tried.", "anchors": ["simd_unary_arithmetic.hpp", "simd_binary_arithmetic.hpp", "simd_ternary_arithmetic.hpp", "simd_mix.hpp", "simd_pan.hpp", "simd_horizontal_functions.hpp", "vec/vec_sse.hpp", "vec/vec_avx_float.hpp", "vec/vec_neon.hpp", "vec/vec_altivec.hpp", "vec/vec_sse2.hpp", "vec/vec_avx_double.hpp"]}
{"id": "C98", "title": "Finite numbers never give a NaN", "statement": "A function applied to finite numbers inside its domain returns a number: a finite value or, when the result is too large, an infinity, but not a NaN. This includes the sum of a buffer, the sum of squares of the level meter and panning.", "quantifier": "all finite arguments, all functions of one to four arguments, all builds, scalar and SIMD, both precisions, all buffers and lengths; every C library that returns numbers on its domain", "why_tests_cant": "One NaN in a signal stays in every filter and delay line after it. The arguments that produce one are single values in 2^32 or combinations of four values, and depend on which lane an element falls into.", "anchors": ["simd_unary_arithmetic.hpp", "simd_binary_arithmetic.hpp", "simd_ternary_arithmetic.hpp", "simd_math.hpp", "simd_unit_conversion.hpp", "simd_mix.hpp", "simd_pan.hpp", "simd_peakmeter.hpp", "simd_horizontal_functions.hpp", "softclip.hpp", "detail/vec_math.hpp"]}
{"id": "C99", "title": "The accuracy survives fused products and sums", "statement": "Compilers may compute a product together with the sum that uses it, with one rounding (GCC does so by default when the target has such an instruction). Whichever of the products and sums of a function are fused, each element of a single-precision result is finite and within the tolerance promised for the function, and nothing else is written; with contraction switched off the result is unique.", "quantifier": "all choices of fused products, all functions of one to four arguments, all SSE2 and AVX builds, all finite arguments in the range of C76, all buffers and lengths, all estimates of the documented accuracy", "why_tests_cant": "The choice depends on the compiler, its version, the flags and the surrounding code after inlining; a test settles the choice of one compiler, for the arguments it tries.", "anchors": ["CMakeLists.txt", "detail/vec_math.hpp", "simd_math.hpp", "simd_unit_conversion.hpp", "simd_ternary_arithmetic.hpp", "simd_mix.hpp", "vec/vec_sse.hpp", "vec/vec_avx_float.hpp"]}
{"id": "C100", "title": "Quiet signals pass the wave shapers unchanged", "statement": "An input sample of at most 2^-12 in magnitude (72 dB below full scale), subnormal numbers and both zeros included, is returned bit for bit by the single-precision sin, tan, asin, atan and tanh, whichever products and sums the compiler fuses; a call in place leaves the buffer as it was. cos returns exactly 1 for samples of at most 2^-13.", "quantifier": "all quiet samples, all choices of fused products, all SSE2 and AVX builds, all buffers and lengths", "why_tests_cant": "There are two thousand million quiet samples for each function and build, and the result depends on what the compiler fuses; that a correction of third order never survives the rounding is an argument about all of them.", "anchors": ["detail/vec_math.hpp", "simd_math.hpp", "vec/vec_sse.hpp", "vec/vec_avx_float.hpp"]}
{"id": "C101", "title": "Square roots computed from an estimate", "statement": "The vector square root and signed_sqrt agree with the real square root to single precision on every build and keep the sign: on AltiVec, whose one Newton step squares the error of the processor's reciprocal square root estimate, the relative error is at most 1.51 e^2 + 3.1/2^24 when the estimate's is e; on NEON, which multiplies by the estimate without refining it, it is at most e + 1.1/2^24; the builds with a square root instruction round correctly.", "quantifier": "all arguments from 2^-100 to 2^100 in magnitude, all estimate instructions with relative error at most 1/64, all builds, all buffers and lengths", "why_tests_cant": "The processor manuals only bound the error of the estimate instructions, and implementations differ; a test sees the estimates of one processor. The bounds hold for every implementation which meets the manual.", "anchors": ["vec/vec_neon.hpp", "vec/vec_altivec.hpp", "detail/vec_math.hpp", "simd_math.hpp"]}
{"id": "C102", "title": "Identities between functions", "statement": "Results of different single-precision functions fit together as their mathematical counterparts do: sin^2 + cos^2 = 1 up to 1e-6; tan*cos = sin up to 1e-6/|cos|; exp(log x) = x and log(exp x) = x up to 5e-7 plus 2.5e-7 times the logarithm; asin + acos = pi/2 up to 1.6e-6; sin(asin x) = x up to 1.1e-6; the three logarithms agree up to 7.2e-7; square(signed_sqrt x) = |x| up to 1.9e-7; a buffer sent through log_vec_simd and exp_vec_simd comes back within the tolerance.", "quantifier": "all arguments of the stated ranges, all choices of fused products and sums in each of the calls, all SSE2 and AVX builds, all buffers and lengths", "why_tests_cant": "Each identity involves two computed results per argument and every way the compiler may have fused either; tests compare each function with libm at sample points.", "anchors": ["detail/vec_math.hpp", "simd_math.hpp", "simd_unary_arithmetic.hpp", "vec/vec_sse.hpp", "vec/vec_avx_float.hpp"]}
{"id": "C103", "title": "Mixing and metering are accurate to a few roundings, fused or not", "statement": "muladd_vec, ampmod_vec, sum_vec, mix_vec and their SIMD versions, for float and double, return the exact value of their formula up to two (ampmod: three) roundings of the magnitudes of its terms, and peak_rms_vec adds the squares of the samples with at most one rounding per addition and one per square, whether or not the compiler evaluates a product and the addition that uses it with one rounding. The same holds for peak_rms_vec_simd outside the AVX back end (whose registers start uninitialised, C26).", "quantifier": "all finite arguments in range, all ways to fuse products and additions (chosen anew in every iteration and lane), all builds (scalar, SSE, AVX, NEON, AltiVec), all buffers, numbers and ramps, all lengths", "why_tests_cant": "Which additions are fused depends on the compiler and its flags and cannot be observed from one build; the bound has to hold for every number of samples.", "anchors": ["simd_ternary_arithmetic.hpp", "simd_mix.hpp", "simd_peakmeter.hpp", "vec/vec_base.hpp", "detail/math.hpp"]}
{"id": "C104", "title": "Results stay in the range of their function", "statement": "tanh_vec_simd never leaves [-1, 1]; asin_vec_simd and atan_vec_simd never leave [-h, h] where h is the single precision number nearest to pi/2; acos_vec_simd returns numbers from 0 to 2h; exp, db2amp, midi2freq, midi2ratio and oct2freq never return a number below zero; pow of a base that is not negative never returns a number below zero, and spow has the sign of its base. sin and cos stay in [-1, 1] up to arguments of 8192.", "quantifier": "all numbers as arguments (infinities, subnormals, and numbers outside the domain of asin and acos included; finite ones for the powers), all SIMD builds, all ways the compiler may fuse products into sums, all buffers and lengths", "why_tests_cant": "The result is the end of a chain of rounded operations, each of which might step over the end of the range by one unit in the last place; sampling cannot exclude that for two to the thirty-two arguments and all ways of fusing.", "anchors": ["detail/vec_math.hpp", "simd_math.hpp", "simd_unit_conversion.hpp", "simd_binary_arithmetic.hpp"]}
{"id": "C105", "title": "Symmetries, NaNs and special values survive fused operations", "statement": "Whichever products the compiler fuses into sums, sin, tan, asin, atan, tanh, spow and the other odd functions give the negated result for the negated argument, and cos, abs, square, freq2midi, freq2oct and amp2db the same result; a NaN in the argument is a NaN in the result for the functions which keep NaNs; exp is the largest finite number above 88.7228 and zero below -88, asin and acos are zero outside their domain, atan and tanh of the infinities are the numbers nearest to pi/2 and 1 with the right sign, and a power of zero is zero, with the sign of the base for spow.", "quantifier": "all finite arguments for the symmetries, all NaN patterns, all numbers for the special values and all exponents for powers of zero; all SIMD builds, all choices of fused operations, all buffers and lengths", "why_tests_cant": "Which operations are fused depends on the compiler and its options, so a test settles one choice; and each choice has two to the thirty-two arguments.", "anchors": ["detail/vec_math.hpp", "simd_math.hpp", "simd_unit_conversion.hpp", "simd_binary_arithmetic.hpp"]}
{"id": "C106", "title": "Reference points are exact", "statement": "At the arguments a user calibrates with, results carry no error at all: sin, tan, asin, atan and tanh of zero are zero, cos and exp of zero are one, acos and the logarithms of one are zero, a gain of one (of either sign) is 0 dB and 0 dB a gain of one, a ratio of one is zero semitones and zero semitones a ratio of one, midi note 69 and octave 4.75 are exactly 440 Hz; x to the power of zero is one, one to any power is one, and the signed power is the sign of x in both cases.", "quantifier": "all builds, both signs of zero, all finite bases and exponents of powers; scalar and SIMD versions of `float` and `double`; all buffers and lengths that contain such a sample", "why_tests_cant": "A power has four billion exponents for the base one and as many bases for the exponent zero; and a test of the points runs one build with one C library, while each combination of instruction sets evaluates its own polynomials.", "anchors": ["detail/vec_math.hpp", "detail/math.hpp", "simd_math.hpp", "simd_unit_conversion.hpp", "simd_binary_arithmetic.hpp"]}
{"id": "C107", "title": "Elementary arithmetic is correctly rounded", "statement": "A sum, difference, product, square, quotient, reciprocal or signed square root that does not overflow is the number of the format nearest to the exact result: no other float or double is closer, and if two are equally close the one with an even last bit is returned. In builds with fused multiplication and addition the same holds for muladd. Divisions by estimates (quotients with NEON and AltiVec, reciprocals of float with SIMD) and the square root of NEON do not promise this.", "quantifier": "all finite arguments with finite results; all builds but those named; float and double; scalar and SIMD versions; all buffers, numbers and ramps as arguments, all lengths and addresses the functions allow", "why_tests_cant": "Nearest is a statement about all numbers of the format for each of 2^64 (float) or 2^128 (double) pairs of arguments, and ties are a vanishing fraction of them.", "anchors": ["vec/vec_base.hpp", "vec/vec_sse.hpp", "vec/vec_avx_float.hpp", "vec/vec_neon.hpp", "vec/vec_altivec.hpp", "simd_binary_arithmetic.hpp", "simd_math.hpp"]}
