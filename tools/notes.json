{
 "C18": [
  "partial",
  "The scalar copyvec is proved in full. The SIMD copies are proved for sources that are followed by one more readable vector: without it they fault (C19_overread)."
 ],
 "C19": [
  "partial",
  "The property is false of the code: C19_overread proves that one vector after the source is always read, C19_false that exactly allocated buffers make the call fault. C19_footprint_partial bounds what is read."
 ],
 "C24": [
  "partial",
  "False of the code as stated: C24_tail_false and C24_short_false give multiples of samples_per_loop (AVX, generic double) where the SIMD meter ignores the tail or runs past the buffer; C26_avx_false gives junk lanes. C24_exact says what is computed on every back end; C24_equal_partial proves equality off AVX when n is a multiple of four vectors."
 ],
 "C25": [
  "partial",
  "Scalar version proved in full. SIMD: C25_exact characterises every back end; equality with the scalar version (C25_equal_partial) needs n a multiple of four vectors and a back end other than AVX (see C24, C26)."
 ],
 "C26": [
  "partial",
  "False of the code on AVX (C26_avx_false: uninitialised upper register lanes reach the result); proved for all other back ends."
 ],
 "C28": [
  "partial",
  "False of the code: the accumulators start from numeric_limits<F>::min() (C28_max_false, C28_min_false hold for every buffer on the wrong side of it). C28_*_exact says what is computed, C28_*_partial when that is the maximum / minimum."
 ],
 "C32": [
  "partial",
  "load/store/get/set proved for every back end. load_first is proved except on AVX, where the upper lanes are undefined (C32_load_first_false)."
 ],
 "C35": [
  "partial",
  "True for every build and all patterns except > and >= of the AVX classes, where it is proved for non-NaN operands; C35_avx_greater_nan_* prove that the AVX operators return 1.0 whenever an operand is a NaN."
 ],
 "C36": [
  "partial",
  "Proved for SSE, SSE2, AVX, Altivec and the generic class; false for NEON (C36_neon_select_swapped proves the operands are exchanged)."
 ],
 "C43": [
  "partial",
  "Proved for every build except NEON, and for double. NEON multiplies by a reciprocal square root estimate: C43_negation_neon gives a NaN at zero."
 ],
 "C45": [
  "partial",
  "sin, tan, atan (odd) and cos (even) proved for all patterns on any hardware. tanh is not odd bit for bit: C45_negation_tanh (tanh(-0) = +0)."
 ],
 "C41": [
  "partial",
  "True of every class with a rounding instruction and of double for all finite numbers. SSE before SSE4.1, NEON and (round only) Altivec: proved for |x| < 2^23; false above (C41_negation_round, C41_negation_floor_ceil). Their ceil loses the sign of a zero (C41_negation_ceil_zero)."
 ],
 "C42": [
  "partial",
  "False at ties (C42_negation_ties: 2.5 becomes 2 in every vector class and 3 in the scalar version) and, without C99, at 0.49999997 (C42_negation_scalar). Bit equality is proved for all other finite numbers with the C library's round."
 ],
 "C57": [
  "partial",
  "Proved for all classes but Altivec, where every negative number becomes 0 (C57_negation_altivec). Outside the range of long the scalar version is undefined (C57_scalar_undefined)."
 ],
 "C58": [
  "partial",
  "Proved: in [0, 1], vector and scalar versions equal, exact for numbers without sign. frac(-2^-30) = 1 in every version (C58_negation_one), so the bound 1 is not strict. Classes without a rounding instruction: |x| < 2^23."
 ],
 "C14": [
  "partial",
  "False for slopes which are not floats (C14_negation: slope 0.1): vector_ramp_argument and scalar ramps of double narrow the slope to float. Proved: exact when the slope is representable as float, and an error bound otherwise."
 ],
 "C50": [
  "partial",
  "False of the generic double class (C50_negation): it tests the alignment of a float vector. Proved for all others."
 ],
 "C59": [
  "partial",
  "Exact on all back ends but NEON and Altivec; there the quotient is not the rounded one (C59_negation) and a bound on its error is proved (C59_accuracy)."
 ],
 "C46": [
  "partial",
  "Saturation is proved for every number (C46_saturates) and the result is a number for every input but one (C46_number_partial). At that one, 88.72283935546875, the result is a NaN on SSE2 and AVX (C46_negation): the property is false of the code."
 ],
 "C64": [
  "partial",
  "Proved for |x| <= 8192, exactly (C64_full_scale_partial) and for every choice of fused products and sums (C64_contract_partial), also for whole calls (C64_calls_partial); C64_range_partial is the older bound 1 + 2^-22. For large arguments the claim is false: sin(1e10) and cos(1e10) are infinite (C64_negation)."
 ],
 "C65": [
  "partial",
  "False of the code: log of every bit pattern is finite (C65_finite), so 0, -1, infinity and NaN are not reported (C65_negation); zero and positive subnormal numbers give -88.03 to -87.33 (C65_subnormal)."
 ],
 "C66": [
  "partial",
  "5e-7 holds of exp, log, atan, asin, acos (but at -0.5) and tanh (C66_exp_log_partial, C66_inverse_trig_partial, C66_tanh_partial). It holds of sin, cos and tan for every argument up to 8192 whose sine or cosine is at least 2^-26 times the argument (C66_trig_partial), also with fused products (C66_trig_contract_partial), in particular of sin up to 9.42 and of cos and tan up to 4.71 (C66_trig_range_partial). False of cos at 4.712389 (C66_negation_cos), of sin next to 161 pi (C66_negation) and of pow (C66_negation_pow: pow(2, 120) is wrong by more than 3e-6)."
 ],
 "C54": [
  "partial",
  "C54_malloc, C54_free, C54_calloc and C54_null hold for every result of malloc and every size up to 2^64-24; for larger sizes the request wraps around and the property is false (C54_negation)."
 ],
 "C67": [
  "partial",
  "C67_allocate holds up to 23 bytes below the largest size; allocate(max_size()) of float requests 19 bytes (C67_negation_size); allocators never compare equal, not even to themselves (C67_negation_equal)."
 ],
 "C72": [
  "partial",
  "C72_acos_partial: relative error 2.5e-7 for every float of [-1, 1] but -0.5; acos(-0.5) is 4 pi/3, twice the right value (C72_negation)."
 ],
 "C75": [
  "partial",
  "False of the code: andnot exchanges its operands on NEON and Altivec, comparisons and (Altivec) the conversion are unsigned, shifts by counts outside 0..31 differ (C75_negation). Proved: agreement on non-negative lanes and counts 0..31 for everything but andnot, and what andnot does."
 ],
 "C79": [
  "partial",
  "peak_rms_vec_simd is covered for all builds but AVX, where the accumulators start from uninitialised lanes (C26)."
 ],
 "C81": [
  "partial",
  "The SIMD meters are covered for all builds but AVX, where load_first leaves lanes undefined (C26), and for multiples of four registers (C24). The claim that the maximum is that of the buffer is false for buffers below numeric_limits::min() (C81_max_float_negative), and that NaNs are treated alike is false (C81_nan_disagree_float)."
 ],
 "C83": [
  "partial",
  "False for copyvec_simd, which reads one vector behind its source (C83_negation_copyvec, C19): a call in another thread that writes there races with it. C83_accesses_copyvec_simd_partial states what it does access. Division among threads is proved for the elementwise, fill, copy (scalar), accumulate and pan functions; for meters and horizontal functions the accesses are proved, so that C83_threads applies to them."
 ],
 "C84": [
  "partial",
  "False on Apple's systems with AVX: malloc gives 16 bytes although malloc_memory_alignment is 64 and AVX needs 32 (C84_negation_apple). The TBB branch allocates eight times the size (C84_tbb_size) and reports failure by an exception instead of a null pointer (C84_failure). Everywhere else proved (C84_suits_partial), for sizes up to 2^64-24 (C54)."
 ],
 "C85": [
  "partial",
  "Proved for the functions listed in SpecNaN, given that the C library keeps NaNs. False of others: with AVX `>` is true for a NaN, so exp and pow return FLT_MAX, asin and acos 0, tanh 1 or -1 (C85_negation_avx); the SSE2 and AVX logarithm of a NaN is finite (C85_negation_log, C65_finite); sgn gives 1 or -1 (C85_sgn), trunc is undefined or 0 (C85_trunc); min, max, clip and clip2 depend on the order of arguments on x86 (C37, C38)."
 ],
 "C86": [
  "proved",
  "IsFade and IsCrossfade bound the distance from the real value by a number of roundings (position plus 1 for the scalar loops; registers plus lanes plus 1 or so for SIMD). A ramp argument of doubles has the additional error of the float conversion (C14), pan2 has not. C86_in_numbers: for signals and gains in [-1, 1] the error is at most (d + 1)/2^22."
 ],
 "C87": [
  "proved",
  "Same means equal bits or both zero. Ramp arguments of doubles need that the increment of a register is a float (C14). The condition on the slope is necessary: C87_negation shows scalar and SSE results with slope 0.1 that differ."
 ],
 "C88": [
  "proved",
  "Opposite: the negated number; zeros and NaNs may have either sign (the code does not keep the sign of a zero: C45_negation_tanh). Where the class calls the C library, its functions are assumed odd (Libm.Odd). Excluded, with a counterexample: round without C99 (C88_negation_round), the scalar spow at zero (C88_negation_spow). Not claimed: reciprocal and division by estimates (NEON, Altivec)."
 ],
 "C89": [
  "proved",
  "Hw.Flushing relates the instructions with flags to those without; Hw.flushed is an instance. The lanes are the same definitions (Model/Lanes) on the other instructions. Equality of over needs a division instruction (not NEON, Altivec); the absence of subnormal results holds there, too. What changes is shown by C89_negation_sum, _product (2^-127 * 2^127 is 0), _compare. Scalar functions are not covered: whether flags apply to them depends on the processor."
 ],
 "C90": [
  "partial",
  "The softclip is monotone up to 2^22 (2^51 for double) and not beyond it (C90_negation_softclip): the difference |x| - 0.25 rounds there. Other limits in UnRises are those of C41/C57 (floor, ceil, round without rounding instructions up to 2^23; trunc up to 2^63, not Altivec), of undenormalize (not NEON, Altivec), signed_sqrt and reciprocal (classes that compute them with exact instructions). Transcendental functions and frac are not covered."
 ],
 "C91": [
  "partial",
  "Equality fails, with proved witnesses, for muladd when only one build uses FMA (C91_negation_muladd), for the sign of a zero returned by ceil and trunc (C91_negation_ceil, C91_zero_signs) and for round of ties in double (C91_negation_round_double). reciprocal is left out because its estimate instruction differs between processors. round, floor, ceil and frac without SSE4.1 are limited to |x| < 2^23 (C41). log2 and log10 need the same two factors, which the compiler computes."
 ],
 "C92": [
  "partial",
  "Proved for all builds except where the class uses an approximation instead of the operation: division on NEON and Altivec, square root on NEON, reciprocal on every vector class of float (C43, C52, C59)."
 ],
 "C93": [
  "partial",
  "Counterexamples are proved: a channel that holds an infinity is not silenced by gain 0 (C93_negation_muted), round of the whole number 8388609 gives 8388610 in compilers without C99 (C93_negation_round), and -0 + 0 is +0 (C93_zero_sign). The exceptions of C92 and the range limits of floor, ceil and round (C41) apply."
 ],
 "C94": [
  "partial",
  "The property is false before C++11: the logarithm is multiplied with a float constant, so every argument but 1 has a relative error of more than 2^-27 (C94_negation_double_precision). Proved: the error is between 2^-27 and 2^-26 in all double builds, and floats keep their precision (2^-21). The quality of std::log2, used since C++11, is that of the C library."
 ],
 "C95": [
  "proved",
  "With NaNs the property fails on AVX, where a > b returns 1.0 while b < a returns 0.0 (C95_negation_avx_nan, see C35); minimum and maximum of +0 and -0 may return either zero (C95_negation_min_zero)."
 ],
 "C96": [
  "proved",
  "Single precision, SSE2 and AVX, with or without SSE4.1 and FMA."
 ],
 "C82": [
  "partial",
  "The SIMD meters are excluded on AVX, where a continued meter starts from garbage in the register (C26_avx_false), and copyvec_simd needs a readable vector behind its source (C19_false; C82_order_copyvec_simd_partial)."
 ],
 "C97": [
  "proved",
  "The reciprocal is included where it is a division (scalars and doubles), the quotient except on NEON and AltiVec: the other ones refine an estimate instruction of which only an error bound is assumed. The condition about tiny products is needed (C97_negation_tiny). Signed square roots (C97_root_\u2026) exclude only NEON, which multiplies by an estimate; a factor that is no power of four has no such effect (C97_root_two). The SIMD peak meter is covered for the builds and lengths of C24 and C26; the minimum is that of horizontal_minmax_vec, since horizontal_min_vec starts from numeric_limits::min() (C81)."
 ],
 "C98": [
  "partial",
  "True of all functions of doubles and scalars of up to three arguments, with the exception of ampmod of a zero signal. On vectors of float with their own transcendental functions, five functions have exactly one finite argument that gives a NaN: exp (C46), midi2ratio(1536), midi2freq(1605), oct2freq(132.75) and db2amp(770.63671875); the theorems exclude that argument and nothing else. pow and spow give a NaN only if y * log(x) rounds to the one argument of exp. sin and tan give a number for every finite argument. False in general (C98_negation_*): the own cosine is a NaN for exactly the arguments from 2^64 on, and the five functions at the arguments above; ampmod turns silence into a NaN if modulator times amount overflows; sums and mixes of four numbers that overflow in opposite directions are NaNs, and the SIMD sum of a buffer can be a NaN where the scalar sum is 0. The tables of SpecNumbers exclude these. Reciprocals that refine an estimate instruction, and quotients on NEON and Altivec of numbers other than zero, are numbers whenever the estimate is finite (C98_reciprocal_partial, C98_quotient_partial); an infinite estimate, which rcpps returns for subnormal arguments, makes the reciprocal a NaN on x86 and Altivec (C98_negation_reciprocal)."
 ],
 "C99": [
  "proved",
  "Single precision, the builds with own mathematical functions. The compiled loop body may be any function all of whose values are possible. C99_off_* and C99_possible_* connect the lists of possible results to the uncontracted model. C99_negation_cancel records what contraction does change: a signal mixed with its own inversion need not vanish, which it does otherwise (C99_cancel). Contraction of the slope computations of ramps and of the level meters is not modelled."
 ],
 "C100": [
  "partial",
  "tanh of the negative zero is the positive zero (C100_negation_tanh); everything else holds as stated. softclip, which also passes quiet signals, is treated in C93."
 ],
 "C101": [
  "partial",
  "The single precision part fails on NEON: without a refinement step the result has the error of the estimate (C101_negation_neon, with a witness in C101_negation_witness), about 8 bits with the documented estimate; and the root of zero is a NaN on NEON and AltiVec (C101_negation_zero). The stated error bounds hold as they are; arguments beyond 2^100 or below 2^-100 are not covered."
 ],
 "C102": [
  "proved",
  "Ranges: |x| <= 8192 for sin, cos and tan (|cos| >= 2^-16 for tan), normal numbers for the logarithms, [-87.3, 88.72] for exp, |x| <= 1 without -1/2 for asin and acos (at -1/2 acos is wrong, C72), |x| <= 2^120 for signed_sqrt. The constants 1/log 2 and 1/log 10 and the estimate instruction are assumed to be as documented (GoodLogs, GoodRcp)."
 ],
 "C103": [
  "proved",
  "`Contract.mix3`, `mix4`, `squareAdd` and `fourSquares` list all possible results; the whole-call theorems hold for every function all of whose values are possible. `C103_off`, `C103_off_meter`, `C103_off_meter_simd`: without contraction these are the models of C03, C04 and C23-C26. `C103_differs`: the choice is visible in the result."
 ],
 "C104": [
  "partial",
  "The code violates the property at one point: acos(-0.5) is about 4*pi/3 (`C104_acos_negation`, see C72). Everything else is proved: `C104_unary`, `C104_binary` for the possible results, `C104_unary_lane` for the functions themselves, `C104_unary_calls` and `C104_binary_calls` for whole calls."
 ],
 "C105": [
  "partial",
  "The symmetries and the special values are proved for all choices of fused operations (`C105_odd`, `C105_even`, `C105_spow`, `C105_special`, `C105_power_of_zero`, `C105_odd_calls`). The NaN part has the exceptions of C85, which are violations of the property by the code: the logarithms never keep a NaN, and the functions which compare with > do not with AVX (`C105_nan_partial`, `C105_special_calls_partial`; negations in C85)."
 ],
 "C106": [
  "partial",
  "Proved for all builds, with the C library assumed exact at these points where the code calls it (`Libm.Reference`). The exponent zero has exceptions, which are violations by the code: the own vector version of pow(0, 0) is 0 while the scalar version gives 1 (`C106_negation_pow`), and the scalar spow(0, 0) is -1 (`C106_negation_spow`); so the theorems about powers exclude the base zero there (`C106_binary_float_partial`). freq2midi(440) = 69 is not claimed: the code multiplies by 0.0022727272727, which is not 1/440."
 ],
 "C107": [
  "proved",
  "For the builds the property names. That builds without fused instructions round muladd twice, and the result then need not be the nearest number, is shown by a witness (`C107_muladd_twice`). Division by zero and overflow are excluded by the finite result."
 ]
}
