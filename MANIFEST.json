{
 "claims": [
  {
   "property": "C01",
   "status": "proved",
   "theorems": [
    "Nova.C01_unary_scalar",
    "Nova.C01_unary_simd",
    "Nova.C01_unary_agree"
   ],
   "note": ""
  },
  {
   "property": "C02",
   "status": "proved",
   "theorems": [
    "Nova.C02_binary_scalar",
    "Nova.C02_binary_simd"
   ],
   "note": ""
  },
  {
   "property": "C03",
   "status": "proved",
   "theorems": [
    "Nova.C03_ternary_scalar",
    "Nova.C03_ternary_simd"
   ],
   "note": ""
  },
  {
   "property": "C04",
   "status": "proved",
   "theorems": [
    "Nova.C04_quad_scalar",
    "Nova.C04_quad_simd"
   ],
   "note": ""
  },
  {
   "property": "C05",
   "status": "proved",
   "theorems": [
    "Nova.C05_unary_compileTime",
    "Nova.C05_unary",
    "Nova.C05_binary_compileTime",
    "Nova.C05_binary",
    "Nova.C05_ternary_compileTime",
    "Nova.C05_ternary",
    "Nova.C05_quad_compileTime",
    "Nova.C05_quad"
   ],
   "note": ""
  },
  {
   "property": "C06",
   "status": "proved",
   "theorems": [
    "Nova.C06_unary",
    "Nova.C06_binary",
    "Nova.C06_ternary",
    "Nova.C06_quad"
   ],
   "note": ""
  },
  {
   "property": "C07",
   "status": "proved",
   "theorems": [
    "Nova.C07_unary_inplace",
    "Nova.C07_unary_backward",
    "Nova.C07_binary",
    "Nova.C07_ternary",
    "Nova.C07_quad",
    "Nova.C07_binary_scalar",
    "Nova.C07_ternary_scalar",
    "Nova.C07_quad_scalar"
   ],
   "note": ""
  },
  {
   "property": "C08",
   "status": "proved",
   "theorems": [
    "Nova.C08_simd_vs_scalar",
    "Nova.C08_simd_vs_snapshot"
   ],
   "note": ""
  },
  {
   "property": "C09",
   "status": "proved",
   "theorems": [
    "Nova.C09_unary",
    "Nova.C09_binary",
    "Nova.C09_ternary",
    "Nova.C09_quad"
   ],
   "note": ""
  },
  {
   "property": "C10",
   "status": "proved",
   "theorems": [
    "Nova.C10_unary_scalar",
    "Nova.C10_binary_scalar",
    "Nova.C10_ternary_scalar",
    "Nova.C10_quad_scalar",
    "Nova.C10_unary_simd",
    "Nova.C10_binary_simd",
    "Nova.C10_ternary_simd",
    "Nova.C10_quad_simd",
    "Nova.C10_setvec_scalar",
    "Nova.C10_set_slope_scalar",
    "Nova.C10_set_exp_scalar",
    "Nova.C10_assertion",
    "Nova.C10_mem_zero",
    "Nova.C10_addvec_scalar",
    "Nova.C10_addvec_const_scalar",
    "Nova.C10_pan2_scalar",
    "Nova.C10_pan2_ramp_scalar",
    "Nova.C10_horizontal_scalar",
    "Nova.C10_peak_scalar",
    "Nova.C10_peak_rms_scalar",
    "Nova.C10_set_slope_small",
    "Nova.C10_set_exp_small",
    "Nova.C10_zerovec_small",
    "Nova.C10_addvec_const_small",
    "Nova.C10_pan2_small",
    "Nova.C10_pan2_ramp_small",
    "Nova.C10_copyvec_small",
    "Nova.C10_horizontal_small",
    "Nova.C10_peak_small",
    "Nova.C10_peak_rms_small",
    "Nova.C10_fill_small",
    "Nova.C10_addvec_small"
   ],
   "note": ""
  },
  {
   "property": "C11",
   "status": "proved",
   "theorems": [
    "Nova.C11_unary_input",
    "Nova.C11_unary",
    "Nova.C11_binary",
    "Nova.C11_ternary",
    "Nova.C11_quad",
    "Nova.C11_anyPlacement",
    "Nova.C11_altivec",
    "Nova.C11_anyPlacement_binary",
    "Nova.C11_anyPlacement_ternary",
    "Nova.C11_anyPlacement_quad",
    "Nova.C11_setvec",
    "Nova.C11_zerovec",
    "Nova.C11_set_slope",
    "Nova.C11_set_exp",
    "Nova.C11_addvec",
    "Nova.C11_addvec_const",
    "Nova.C11_pan2",
    "Nova.C11_pan2_ramp",
    "Nova.C11_copyvec",
    "Nova.C11_copyvec_names",
    "Nova.C11_horizontal",
    "Nova.C11_peak",
    "Nova.C11_peak_rms"
   ],
   "note": ""
  },
  {
   "property": "C12",
   "status": "proved",
   "theorems": [
    "Nova.C12_binary_1",
    "Nova.C12_binary_2",
    "Nova.C12_ternary_1",
    "Nova.C12_ternary_2",
    "Nova.C12_ternary_3",
    "Nova.C12_quad_1",
    "Nova.C12_quad_2",
    "Nova.C12_quad_3",
    "Nova.C12_quad_4",
    "Nova.C12_binary_scalarLoop",
    "Nova.C12_ternary_scalarLoop",
    "Nova.C12_quad_scalarLoop"
   ],
   "note": ""
  },
  {
   "property": "C13",
   "status": "proved",
   "theorems": [
    "Nova.C13_scalar",
    "Nova.C13_simd",
    "Nova.C13_binary",
    "Nova.C13_ternary",
    "Nova.C13_quad",
    "Nova.C13_simd_supplies",
    "Nova.C13_scalar_supplies",
    "Nova.C13_binary_first",
    "Nova.C13_ternary_first",
    "Nova.C13_quad_first"
   ],
   "note": ""
  },
  {
   "property": "C14",
   "status": "partial",
   "theorems": [
    "Nova.C14_exact",
    "Nova.C14_error_partial",
    "Nova.C14_float_slope_partial",
    "Nova.C14_negation"
   ],
   "note": "False for slopes which are not floats (C14_negation: slope 0.1): vector_ramp_argument and scalar ramps of double narrow the slope to float. Proved: exact when the slope is representable as float, and an error bound otherwise."
  },
  {
   "property": "C15",
   "status": "proved",
   "theorems": [
    "Nova.C15_zerovec",
    "Nova.C15_setvec",
    "Nova.C15_setvec_empty",
    "Nova.C15_setvec_simd",
    "Nova.C15_setvec_simd_n",
    "Nova.C15_zerovec_simd",
    "Nova.C15_zerovec_simd_n",
    "Nova.C15_altivec_unaligned_false"
   ],
   "note": ""
  },
  {
   "property": "C16",
   "status": "proved",
   "theorems": [
    "Nova.C16_scalar",
    "Nova.C16_simd"
   ],
   "note": ""
  },
  {
   "property": "C17",
   "status": "proved",
   "theorems": [
    "Nova.C17_scalar",
    "Nova.C17_simd"
   ],
   "note": ""
  },
  {
   "property": "C18",
   "status": "partial",
   "theorems": [
    "Nova.C18_copyvec",
    "Nova.C18_copyvec_simd_partial",
    "Nova.C18_copyvec_simd_n_partial",
    "Nova.C18_variants_partial",
    "Nova.C18_variants_n_partial"
   ],
   "note": "The scalar copyvec is proved in full. The SIMD copies are proved for sources that are followed by one more readable vector: without it they fault (C19_overread)."
  },
  {
   "property": "C19",
   "status": "partial",
   "theorems": [
    "Nova.C19_footprint_partial",
    "Nova.C19_overread",
    "Nova.C19_false"
   ],
   "note": "The property is false of the code: C19_overread proves that one vector after the source is always read, C19_false that exactly allocated buffers make the call fault. C19_footprint_partial bounds what is read."
  },
  {
   "property": "C20",
   "status": "proved",
   "theorems": [
    "Nova.C20_addvec",
    "Nova.C20_addvec_const",
    "Nova.C20_addvec_simd",
    "Nova.C20_addvec_simd_n",
    "Nova.C20_addvec_const_simd",
    "Nova.C20_addvec_const_simd_n"
   ],
   "note": ""
  },
  {
   "property": "C21",
   "status": "proved",
   "theorems": [
    "Nova.C21_pan2_scalar",
    "Nova.C21_pan2_simd",
    "Nova.C21_pan2_simd_n"
   ],
   "note": ""
  },
  {
   "property": "C22",
   "status": "proved",
   "theorems": [
    "Nova.C22_pan2_ramp_scalar",
    "Nova.C22_pan2_ramp_simd",
    "Nova.C22_pan2_ramp_simd_n",
    "Nova.C22_any_scalar",
    "Nova.C22_any_simd",
    "Nova.C22_any_simd_n"
   ],
   "note": ""
  },
  {
   "property": "C23",
   "status": "proved",
   "theorems": [
    "Nova.C23_peak"
   ],
   "note": ""
  },
  {
   "property": "C24",
   "status": "partial",
   "theorems": [
    "Nova.C24_exact",
    "Nova.C24_equal_partial",
    "Nova.C24_short",
    "Nova.C24_tail_false",
    "Nova.C24_short_false",
    "Nova.C24_short_generic_false"
   ],
   "note": "False of the code as stated: C24_tail_false and C24_short_false give multiples of samples_per_loop (AVX, generic double) where the SIMD meter ignores the tail or runs past the buffer; C26_avx_false gives junk lanes. C24_exact says what is computed on every back end; C24_equal_partial proves equality off AVX when n is a multiple of four vectors."
  },
  {
   "property": "C25",
   "status": "partial",
   "theorems": [
    "Nova.C25_scalar",
    "Nova.C25_exact",
    "Nova.C25_equal_partial"
   ],
   "note": "Scalar version proved in full. SIMD: C25_exact characterises every back end; equality with the scalar version (C25_equal_partial) needs n a multiple of four vectors and a back end other than AVX (see C24, C26)."
  },
  {
   "property": "C26",
   "status": "partial",
   "theorems": [
    "Nova.C26_partial",
    "Nova.C26_avx_false"
   ],
   "note": "False of the code on AVX (C26_avx_false: uninitialised upper register lanes reach the result); proved for all other back ends."
  },
  {
   "property": "C27",
   "status": "proved",
   "theorems": [
    "Nova.C27_scalar",
    "Nova.C27_simd"
   ],
   "note": ""
  },
  {
   "property": "C28",
   "status": "partial",
   "theorems": [
    "Nova.C28_max_exact",
    "Nova.C28_min_exact",
    "Nova.C28_max_partial",
    "Nova.C28_min_partial",
    "Nova.C28_max_false",
    "Nova.C28_min_false",
    "Nova.C28_minmax",
    "Nova.C28_maxsum"
   ],
   "note": "False of the code: the accumulators start from numeric_limits<F>::min() (C28_max_false, C28_min_false hold for every buffer on the wrong side of it). C28_*_exact says what is computed, C28_*_partial when that is the maximum / minimum."
  },
  {
   "property": "C29",
   "status": "proved",
   "theorems": [
    "Nova.C29_max",
    "Nova.C29_min",
    "Nova.C29_minmax",
    "Nova.C29_maxsum",
    "Nova.C29_sum"
   ],
   "note": ""
  },
  {
   "property": "C30",
   "status": "proved",
   "theorems": [
    "Nova.C30_sum",
    "Nova.C30_max",
    "Nova.C30_min",
    "Nova.C30_utils_ignore_lane3",
    "Nova.C30_extract",
    "Nova.C30_utils_max_false",
    "Nova.C30_utils_min_false"
   ],
   "note": ""
  },
  {
   "property": "C31",
   "status": "proved",
   "theorems": [
    "Nova.C31_set_slope",
    "Nova.C31_set_exp"
   ],
   "note": ""
  },
  {
   "property": "C32",
   "status": "partial",
   "theorems": [
    "Nova.C32_get",
    "Nova.C32_set",
    "Nova.C32_get_set",
    "Nova.C32_load_store",
    "Nova.C32_load_first_partial",
    "Nova.C32_load_first_avx",
    "Nova.C32_load_first_false",
    "Nova.C32_get_out_of_range",
    "Nova.C32_set_out_of_range"
   ],
   "note": "load/store/get/set proved for every back end. load_first is proved except on AVX, where the upper lanes are undefined (C32_load_first_false)."
  },
  {
   "property": "C33",
   "status": "proved",
   "theorems": [
    "Nova.C33_abs_float",
    "Nova.C33_abs_double",
    "Nova.C33_abs_value_float",
    "Nova.C33_abs_value_double"
   ],
   "note": ""
  },
  {
   "property": "C34",
   "status": "proved",
   "theorems": [
    "Nova.C34_sse",
    "Nova.C34_avx_float",
    "Nova.C34_double",
    "Nova.C34_simd_utils",
    "Nova.C34_patterns",
    "Nova.C34_generic_ones"
   ],
   "note": ""
  },
  {
   "property": "C35",
   "status": "partial",
   "theorems": [
    "Nova.C35_relational_scalar_float",
    "Nova.C35_relational_scalar_double",
    "Nova.C35_relational_float",
    "Nova.C35_relational_double",
    "Nova.C35_relational_avx_float_partial",
    "Nova.C35_relational_avx_double_partial",
    "Nova.C35_avx_greater_nan_float",
    "Nova.C35_avx_greater_nan_double"
   ],
   "note": "True for every build and all patterns except > and >= of the AVX classes, where it is proved for non-NaN operands; C35_avx_greater_nan_* prove that the AVX operators return 1.0 whenever an operand is a NaN."
  },
  {
   "property": "C36",
   "status": "partial",
   "theorems": [
    "Nova.C36_select_float",
    "Nova.C36_select_double",
    "Nova.C36_vec_select_bits",
    "Nova.C36_neon_select_swapped"
   ],
   "note": "Proved for SSE, SSE2, AVX, Altivec and the generic class; false for NEON (C36_neon_select_swapped proves the operands are exchanged)."
  },
  {
   "property": "C37",
   "status": "proved",
   "theorems": [
    "Nova.C37_max_float",
    "Nova.C37_min_float",
    "Nova.C37_max_double",
    "Nova.C37_min_double",
    "Nova.C37_ties_and_nan_float",
    "Nova.C37_ties_and_nan_double"
   ],
   "note": ""
  },
  {
   "property": "C38",
   "status": "proved",
   "theorems": [
    "Nova.C38_clip_float",
    "Nova.C38_clip_double",
    "Nova.C38_clip2_float",
    "Nova.C38_clip2_double",
    "Nova.C38_clip_nan_float",
    "Nova.C38_clip2_nan_float",
    "Nova.C38_clip_call_float"
   ],
   "note": ""
  },
  {
   "property": "C39",
   "status": "proved",
   "theorems": [
    "Nova.C39_sign_float",
    "Nova.C39_sign_double",
    "Nova.C39_sign_same_number",
    "Nova.C39_sign_nan_differs"
   ],
   "note": ""
  },
  {
   "property": "C40",
   "status": "proved",
   "theorems": [
    "Nova.C40_undenormalize_float",
    "Nova.C40_undenormalize_double",
    "Nova.C40_undenormalize_value"
   ],
   "note": ""
  },
  {
   "property": "C41",
   "status": "partial",
   "theorems": [
    "Nova.C41_round_partial",
    "Nova.C41_floor_partial",
    "Nova.C41_ceil_partial",
    "Nova.C41_double",
    "Nova.C41_negation_round",
    "Nova.C41_negation_floor_ceil",
    "Nova.C41_negation_ceil_zero"
   ],
   "note": "True of every class with a rounding instruction and of double for all finite numbers. SSE before SSE4.1, NEON and (round only) Altivec: proved for |x| < 2^23; false above (C41_negation_round, C41_negation_floor_ceil). Their ceil loses the sign of a zero (C41_negation_ceil_zero)."
  },
  {
   "property": "C42",
   "status": "partial",
   "theorems": [
    "Nova.C42_round_partial",
    "Nova.C42_round_double_partial",
    "Nova.C42_negation_ties",
    "Nova.C42_negation_scalar"
   ],
   "note": "False at ties (C42_negation_ties: 2.5 becomes 2 in every vector class and 3 in the scalar version) and, without C99, at 0.49999997 (C42_negation_scalar). Bit equality is proved for all other finite numbers with the C library's round."
  },
  {
   "property": "C43",
   "status": "partial",
   "theorems": [
    "Nova.C43_signed_sqrt_float",
    "Nova.C43_signed_sqrt_double",
    "Nova.C43_negation_neon"
   ],
   "note": "Proved for every build except NEON, and for double. NEON multiplies by a reciprocal square root estimate: C43_negation_neon gives a NaN at zero."
  },
  {
   "property": "C44",
   "status": "proved",
   "theorems": [
    "Nova.C44_frexp",
    "Nova.C44_ldexp",
    "Nova.C44_roundtrip"
   ],
   "note": ""
  },
  {
   "property": "C45",
   "status": "partial",
   "theorems": [
    "Nova.C45_sin_odd",
    "Nova.C45_tan_odd",
    "Nova.C45_atan_odd",
    "Nova.C45_cos_even",
    "Nova.C45_any_hardware",
    "Nova.C45_negation_tanh"
   ],
   "note": "sin, tan, atan (odd) and cos (even) proved for all patterns on any hardware. tanh is not odd bit for bit: C45_negation_tanh (tanh(-0) = +0)."
  },
  {
   "property": "C46",
   "status": "partial",
   "theorems": [
    "Nova.C46_saturates",
    "Nova.C46_number_partial",
    "Nova.C46_negation"
   ],
   "note": "Saturation is proved for every number (C46_saturates) and the result is a number for every input but one (C46_number_partial). At that one, 88.72283935546875, the result is a NaN on SSE2 and AVX (C46_negation): the property is false of the code."
  },
  {
   "property": "C47",
   "status": "proved",
   "theorems": [
    "Nova.C47_asin_acos",
    "Nova.C47_pow_zero",
    "Nova.C47_signed_pow_zero",
    "Nova.C47_any_hardware",
    "Nova.C47_negation_signed_pow"
   ],
   "note": ""
  },
  {
   "property": "C48",
   "status": "proved",
   "theorems": [
    "Nova.C48_softclip_float",
    "Nova.C48_softclip_double",
    "Nova.C48_softclip_finite_float",
    "Nova.C48_softclip_finite_double",
    "Nova.C48_softclip_inf",
    "Nova.C48_softclip_real"
   ],
   "note": ""
  },
  {
   "property": "C49",
   "status": "proved",
   "theorems": [
    "Nova.C49_midi_freq_midi",
    "Nova.C49_freq_midi_freq",
    "Nova.C49_midi_ratio_midi",
    "Nova.C49_ratio_midi_ratio",
    "Nova.C49_oct_freq_oct",
    "Nova.C49_freq_oct_freq",
    "Nova.C49_db_amp_db",
    "Nova.C49_amp_db_amp"
   ],
   "note": ""
  },
  {
   "property": "C50",
   "status": "partial",
   "theorems": [
    "Nova.C50_is_aligned_partial",
    "Nova.C50_generic",
    "Nova.C50_predicts",
    "Nova.C50_negation"
   ],
   "note": "False of the generic double class (C50_negation): it tests the alignment of a float vector. Proved for all others."
  },
  {
   "property": "C51",
   "status": "proved",
   "theorems": [
    "Nova.C51_granule",
    "Nova.C51_recursion",
    "Nova.C51_unary",
    "Nova.C51_binary",
    "Nova.C51_ternary",
    "Nova.C51_quad",
    "Nova.C51_memory"
   ],
   "note": ""
  },
  {
   "property": "C52",
   "status": "proved",
   "theorems": [
    "Nova.C52_square",
    "Nova.C52_below",
    "Nova.C52_reciprocal",
    "Nova.C52_x86",
    "Nova.C52_generic"
   ],
   "note": ""
  },
  {
   "property": "C53",
   "status": "proved",
   "theorems": [
    "Nova.C53_exp",
    "Nova.C53_sin",
    "Nova.C53_cos",
    "Nova.C53_tan",
    "Nova.C53_log"
   ],
   "note": ""
  },
  {
   "property": "C54",
   "status": "partial",
   "theorems": [
    "Nova.Alloc.C54_malloc",
    "Nova.Alloc.C54_free",
    "Nova.Alloc.C54_null",
    "Nova.Alloc.C54_calloc",
    "Nova.Alloc.C54_negation"
   ],
   "note": "C54_malloc, C54_free, C54_calloc and C54_null hold for every result of malloc and every size up to 2^64-24; for larger sizes the request wraps around and the property is false (C54_negation)."
  },
  {
   "property": "C55",
   "status": "proved",
   "theorems": [
    "Nova.IntVec.C55_binary",
    "Nova.IntVec.C55_shift",
    "Nova.IntVec.C55_sse2"
   ],
   "note": ""
  },
  {
   "property": "C56",
   "status": "proved",
   "theorems": [
    "Nova.C56_unary_vec",
    "Nova.C56_unary_simd",
    "Nova.C56_binary_vec",
    "Nova.C56_binary_simd",
    "Nova.C56_ternary_vec",
    "Nova.C56_ternary_simd",
    "Nova.C56_quad_vec",
    "Nova.C56_quad_simd",
    "Nova.C56_unary",
    "Nova.C56_binary",
    "Nova.C56_ternary",
    "Nova.C56_quad"
   ],
   "note": ""
  },
  {
   "property": "C57",
   "status": "partial",
   "theorems": [
    "Nova.C57_scalar",
    "Nova.C57_scalar_undefined",
    "Nova.C57_simd_partial",
    "Nova.C57_simd_double",
    "Nova.C57_negation_altivec"
   ],
   "note": "Proved for all classes but Altivec, where every negative number becomes 0 (C57_negation_altivec). Outside the range of long the scalar version is undefined (C57_scalar_undefined)."
  },
  {
   "property": "C58",
   "status": "partial",
   "theorems": [
    "Nova.C58_frac_partial",
    "Nova.C58_frac_double_partial",
    "Nova.C58_negation_one"
   ],
   "note": "Proved: in [0, 1], vector and scalar versions equal, exact for numbers without sign. frac(-2^-30) = 1 in every version (C58_negation_one), so the bound 1 is not strict. Classes without a rounding instruction: |x| < 2^23."
  },
  {
   "property": "C59",
   "status": "partial",
   "theorems": [
    "Nova.C59_accuracy",
    "Nova.C59_negation",
    "Nova.C59_exact",
    "Nova.C59_double"
   ],
   "note": "Exact on all back ends but NEON and Altivec; there the quotient is not the rounded one (C59_negation) and a bound on its error is proved (C59_accuracy)."
  },
  {
   "property": "C60",
   "status": "proved",
   "theorems": [
    "Nova.C60_exp",
    "Nova.C60_exp_tiny"
   ],
   "note": ""
  },
  {
   "property": "C61",
   "status": "proved",
   "theorems": [
    "Nova.C61_sin",
    "Nova.C61_cos"
   ],
   "note": ""
  },
  {
   "property": "C62",
   "status": "proved",
   "theorems": [
    "Nova.C62_tan"
   ],
   "note": ""
  },
  {
   "property": "C63",
   "status": "proved",
   "theorems": [
    "Nova.C63_log",
    "Nova.C63_log2",
    "Nova.C63_log10"
   ],
   "note": ""
  },
  {
   "property": "C64",
   "status": "partial",
   "theorems": [
    "Nova.C64_range_partial",
    "Nova.C64_negation",
    "Nova.C64_contract_partial",
    "Nova.C64_full_scale_partial",
    "Nova.C64_calls_partial"
   ],
   "note": "Proved for |x| <= 8192, exactly (C64_full_scale_partial) and for every choice of fused products and sums (C64_contract_partial), also for whole calls (C64_calls_partial); C64_range_partial is the older bound 1 + 2^-22. For large arguments the claim is false: sin(1e10) and cos(1e10) are infinite (C64_negation)."
  },
  {
   "property": "C65",
   "status": "partial",
   "theorems": [
    "Nova.C65_negation",
    "Nova.C65_finite",
    "Nova.C65_subnormal"
   ],
   "note": "False of the code: log of every bit pattern is finite (C65_finite), so 0, -1, infinity and NaN are not reported (C65_negation); zero and positive subnormal numbers give -88.03 to -87.33 (C65_subnormal)."
  },
  {
   "property": "C66",
   "status": "partial",
   "theorems": [
    "Nova.C66_negation",
    "Nova.C66_exp_log_partial",
    "Nova.C66_inverse_trig_partial",
    "Nova.C66_tanh_partial",
    "Nova.C66_trig_contract_partial",
    "Nova.C66_trig_partial",
    "Nova.C66_trig_range_partial",
    "Nova.C66_negation_cos",
    "Nova.C66_negation_pow"
   ],
   "note": "5e-7 holds of exp, log, atan, asin, acos (but at -0.5) and tanh (C66_exp_log_partial, C66_inverse_trig_partial, C66_tanh_partial). It holds of sin, cos and tan for every argument up to 8192 whose sine or cosine is at least 2^-26 times the argument (C66_trig_partial), also with fused products (C66_trig_contract_partial), in particular of sin up to 9.42 and of cos and tan up to 4.71 (C66_trig_range_partial). False of cos at 4.712389 (C66_negation_cos), of sin next to 161 pi (C66_negation) and of pow (C66_negation_pow: pow(2, 120) is wrong by more than 3e-6)."
  },
  {
   "property": "C67",
   "status": "partial",
   "theorems": [
    "Nova.Alloc.C67_allocate",
    "Nova.Alloc.C67_negation_size",
    "Nova.Alloc.C67_negation_equal"
   ],
   "note": "C67_allocate holds up to 23 bytes below the largest size; allocate(max_size()) of float requests 19 bytes (C67_negation_size); allocators never compare equal, not even to themselves (C67_negation_equal)."
  },
  {
   "property": "C68",
   "status": "proved",
   "theorems": [
    "Nova.Alloc.C68_ownership",
    "Nova.Alloc.C68_unmanaged",
    "Nova.Alloc.C68_negation"
   ],
   "note": ""
  },
  {
   "property": "C69",
   "status": "proved",
   "theorems": [
    "Nova.Array.C69_values",
    "Nova.Array.C69_range",
    "Nova.Array.C69_negation",
    "Nova.Array.C69_order"
   ],
   "note": ""
  },
  {
   "property": "C70",
   "status": "proved",
   "theorems": [
    "Nova.C70_atan",
    "Nova.C70_atan_inf",
    "Nova.C70_atan_range"
   ],
   "note": ""
  },
  {
   "property": "C71",
   "status": "proved",
   "theorems": [
    "Nova.C71_asin"
   ],
   "note": ""
  },
  {
   "property": "C72",
   "status": "partial",
   "theorems": [
    "Nova.C72_acos_partial",
    "Nova.C72_negation"
   ],
   "note": "C72_acos_partial: relative error 2.5e-7 for every float of [-1, 1] but -0.5; acos(-0.5) is 4 pi/3, twice the right value (C72_negation)."
  },
  {
   "property": "C73",
   "status": "proved",
   "theorems": [
    "Nova.C73_tanh",
    "Nova.C73_tanh_range",
    "Nova.C73_tanh_inf"
   ],
   "note": ""
  },
  {
   "property": "C74",
   "status": "proved",
   "theorems": [
    "Nova.C74_pow_saturates_all",
    "Nova.C74_signed_pow_saturates",
    "Nova.C74_pow",
    "Nova.C74_pow_saturates",
    "Nova.C74_signed_pow"
   ],
   "note": ""
  },
  {
   "property": "C75",
   "status": "partial",
   "theorems": [
    "Nova.IntVec.C75_lanes_partial",
    "Nova.IntVec.C75_andnot_partial",
    "Nova.IntVec.C75_negation",
    "Nova.IntVec.C75_cos_altivec"
   ],
   "note": "False of the code: andnot exchanges its operands on NEON and Altivec, comparisons and (Altivec) the conversion are unsigned, shifts by counts outside 0..31 differ (C75_negation). Proved: agreement on non-negative lanes and counts 0..31 for everything but andnot, and what andnot does."
  },
  {
   "property": "C77",
   "status": "proved",
   "theorems": [
    "Nova.C77_midi2ratio",
    "Nova.C77_midi2freq",
    "Nova.C77_oct2freq",
    "Nova.C77_db2amp",
    "Nova.C77_ratio2midi",
    "Nova.C77_amp2db",
    "Nova.C77_freq2oct",
    "Nova.C77_freq2midi"
   ],
   "note": ""
  },
  {
   "property": "C76",
   "status": "proved",
   "theorems": [
    "Nova.C76_unary",
    "Nova.C76_binary",
    "Nova.C76_ternary",
    "Nova.C76_quad",
    "Nova.C76_unary_simd",
    "Nova.C76_unary_simdN",
    "Nova.C76_binary_simd",
    "Nova.C76_binary_simdN",
    "Nova.C76_ternary_simd",
    "Nova.C76_ternary_simdN",
    "Nova.C76_quad_simd",
    "Nova.C76_quad_simdN"
   ],
   "note": ""
  },
  {
   "property": "C78",
   "status": "proved",
   "theorems": [
    "Nova.C78_unary_float",
    "Nova.C78_binary_float",
    "Nova.C78_ternary_float",
    "Nova.C78_quad_float",
    "Nova.C78_unary_double",
    "Nova.C78_binary_double",
    "Nova.C78_ternary_double",
    "Nova.C78_quad_double",
    "Nova.C78_unary_calls_float",
    "Nova.C78_unary_calls_double",
    "Nova.C78_binary_calls_float",
    "Nova.C78_ternary_calls_float",
    "Nova.C78_quad_calls_float",
    "Nova.C78_binary_calls_double",
    "Nova.C78_ternary_calls_double",
    "Nova.C78_quad_calls_double",
    "Nova.C78_negation_muladd"
   ],
   "note": ""
  },
  {
   "property": "C79",
   "status": "partial",
   "theorems": [
    "Nova.C79_sum_float",
    "Nova.C79_sum_double",
    "Nova.C79_sum_simd_float",
    "Nova.C79_sum_simd_double",
    "Nova.C79_maxsum_float",
    "Nova.C79_maxsum_simd_float",
    "Nova.C79_in_numbers",
    "Nova.C79_rms_float",
    "Nova.C79_rms_simd_float_partial",
    "Nova.C79_rms_double",
    "Nova.C79_rms_simd_double_partial",
    "Nova.C79_ramp_float",
    "Nova.C79_ramp_double",
    "Nova.C79_ramp_simd_float",
    "Nova.C79_ramp_simd_double",
    "Nova.C79_binary_ramp_float",
    "Nova.C79_maxsum_double",
    "Nova.C79_maxsum_simd_double"
   ],
   "note": "peak_rms_vec_simd is covered for all builds but AVX, where the accumulators start from uninitialised lanes (C26)."
  },
  {
   "property": "C80",
   "status": "proved",
   "theorems": [
    "Nova.C80_slope_float",
    "Nova.C80_slope_double",
    "Nova.C80_slope_simd_float",
    "Nova.C80_slope_simd_double",
    "Nova.C80_exp_float",
    "Nova.C80_exp_double",
    "Nova.C80_exp_simd_float",
    "Nova.C80_exp_simd_double",
    "Nova.C80_exp_close"
   ],
   "note": ""
  },
  {
   "property": "C81",
   "status": "partial",
   "theorems": [
    "Nova.C81_max_float",
    "Nova.C81_max_float_negative",
    "Nova.C81_min_float",
    "Nova.C81_min_float_positive",
    "Nova.C81_minmax_float",
    "Nova.C81_maxsum_float",
    "Nova.C81_peak_float",
    "Nova.C81_peak_simd_float_partial",
    "Nova.C81_peak_equal_float_partial",
    "Nova.C81_peak_rms_float_partial",
    "Nova.C81_max_double",
    "Nova.C81_max_double_negative",
    "Nova.C81_min_double",
    "Nova.C81_min_double_positive",
    "Nova.C81_minmax_double",
    "Nova.C81_maxsum_double",
    "Nova.C81_peak_double",
    "Nova.C81_peak_simd_double_partial",
    "Nova.C81_peak_equal_double_partial",
    "Nova.C81_peak_rms_double_partial",
    "Nova.C81_nan_scalar_float",
    "Nova.C81_nan_simd_float",
    "Nova.C81_nan_disagree_float"
   ],
   "note": "The SIMD meters are covered for all builds but AVX, where load_first leaves lanes undefined (C26), and for multiples of four registers (C24). The claim that the maximum is that of the buffer is false for buffers below numeric_limits::min() (C81_max_float_negative), and that NaNs are treated alike is false (C81_nan_disagree_float)."
  },
  {
   "property": "C82",
   "status": "partial",
   "theorems": [
    "Nova.C82_unary_scalar",
    "Nova.C82_unary_simd",
    "Nova.C82_binary_scalar",
    "Nova.C82_binary_simd",
    "Nova.C82_binary_exact",
    "Nova.C82_ternary_scalar",
    "Nova.C82_ternary_simd",
    "Nova.C82_ternary_exact",
    "Nova.C82_quad_scalar",
    "Nova.C82_quad_simd",
    "Nova.C82_quad_exact",
    "Nova.C82_order_unary_scalar",
    "Nova.C82_order_unary_simd",
    "Nova.C82_order_binary_scalar",
    "Nova.C82_order_binary_simd",
    "Nova.C82_order_binary_exact",
    "Nova.C82_order_ternary_scalar",
    "Nova.C82_order_ternary_simd",
    "Nova.C82_order_ternary_exact",
    "Nova.C82_order_quad_scalar",
    "Nova.C82_order_quad_simd",
    "Nova.C82_order_quad_exact",
    "Nova.C82_peak",
    "Nova.C82_peak_simd",
    "Nova.C82_order_zerovec",
    "Nova.C82_order_setvec",
    "Nova.C82_order_set_slope_vec",
    "Nova.C82_order_set_exp_vec",
    "Nova.C82_order_copyvec",
    "Nova.C82_order_addvec",
    "Nova.C82_order_addvec_const",
    "Nova.C82_order_zerovec_simd",
    "Nova.C82_order_setvec_simd",
    "Nova.C82_order_set_slope_vec_simd",
    "Nova.C82_order_set_exp_vec_simd",
    "Nova.C82_order_addvec_simd",
    "Nova.C82_order_addvec_const_simd",
    "Nova.C82_order_pan2",
    "Nova.C82_order_pan2_simd",
    "Nova.C82_order_pan2_ramp",
    "Nova.C82_order_pan2_ramp_simd",
    "Nova.C82_peak_rms",
    "Nova.C82_peak_rms_simd",
    "Nova.C82_sum",
    "Nova.C82_max",
    "Nova.C82_min",
    "Nova.C82_minmax",
    "Nova.C82_maxsum",
    "Nova.C82_sum_simd",
    "Nova.C82_max_simd",
    "Nova.C82_min_simd",
    "Nova.C82_minmax_simd",
    "Nova.C82_maxsum_simd",
    "Nova.C82_order_copyvec_simd_partial"
   ],
   "note": "The SIMD meters are excluded on AVX, where a continued meter starts from garbage in the register (C26_avx_false), and copyvec_simd needs a readable vector behind its source (C19_false; C82_order_copyvec_simd_partial)."
  },
  {
   "property": "C83",
   "status": "partial",
   "theorems": [
    "Nova.C83_zerovec",
    "Nova.C83_setvec",
    "Nova.C83_set_slope_vec",
    "Nova.C83_set_exp_vec",
    "Nova.C83_copyvec",
    "Nova.C83_addvec",
    "Nova.C83_addvec_const",
    "Nova.C83_zerovec_simd",
    "Nova.C83_setvec_simd",
    "Nova.C83_set_slope_vec_simd",
    "Nova.C83_set_exp_vec_simd",
    "Nova.C83_addvec_simd",
    "Nova.C83_addvec_const_simd",
    "Nova.C83_accesses_zerovec",
    "Nova.C83_accesses_setvec",
    "Nova.C83_accesses_set_slope_vec",
    "Nova.C83_accesses_set_exp_vec",
    "Nova.C83_accesses_copyvec",
    "Nova.C83_accesses_addvec",
    "Nova.C83_accesses_addvec_const",
    "Nova.C83_accesses_pan2",
    "Nova.C83_accesses_pan2_ramp",
    "Nova.C83_accesses_peak",
    "Nova.C83_accesses_peak_rms",
    "Nova.C83_accesses_horizontal_max",
    "Nova.C83_accesses_horizontal_min",
    "Nova.C83_accesses_horizontal_sum",
    "Nova.C83_accesses_horizontal_minmax",
    "Nova.C83_accesses_horizontal_maxsum",
    "Nova.C83_accesses_zerovec_simd",
    "Nova.C83_accesses_setvec_simd",
    "Nova.C83_accesses_set_slope_vec_simd",
    "Nova.C83_accesses_set_exp_vec_simd",
    "Nova.C83_accesses_copyvec_simd_partial",
    "Nova.C83_negation_copyvec",
    "Nova.C83_accesses_addvec_simd",
    "Nova.C83_accesses_addvec_const_simd",
    "Nova.C83_accesses_pan2_simd",
    "Nova.C83_accesses_pan2_ramp_simd",
    "Nova.C83_accesses_peak_simd",
    "Nova.C83_accesses_peak_rms_simd",
    "Nova.C83_accesses_horizontal_max_simd",
    "Nova.C83_accesses_horizontal_min_simd",
    "Nova.C83_accesses_horizontal_sum_simd",
    "Nova.C83_accesses_horizontal_minmax_simd",
    "Nova.C83_accesses_horizontal_maxsum_simd",
    "Nova.C83_pan2",
    "Nova.C83_pan2_simd",
    "Nova.C83_pan2_ramp",
    "Nova.C83_pan2_ramp_simd",
    "Nova.C83_threads",
    "Nova.C83_accesses_unary_scalar",
    "Nova.C83_accesses_unary_simd",
    "Nova.C83_accesses_binary_scalar",
    "Nova.C83_accesses_binary_simd",
    "Nova.C83_accesses_ternary_scalar",
    "Nova.C83_accesses_ternary_simd",
    "Nova.C83_accesses_quad_scalar",
    "Nova.C83_accesses_quad_simd",
    "Nova.C83_unary_scalar",
    "Nova.C83_unary_simd",
    "Nova.C83_binary_scalar",
    "Nova.C83_binary_simd",
    "Nova.C83_binary_exact",
    "Nova.C83_ternary_scalar",
    "Nova.C83_ternary_simd",
    "Nova.C83_ternary_exact",
    "Nova.C83_quad_scalar",
    "Nova.C83_quad_simd",
    "Nova.C83_quad_exact"
   ],
   "note": "False for copyvec_simd, which reads one vector behind its source (C83_negation_copyvec, C19): a call in another thread that writes there races with it. C83_accesses_copyvec_simd_partial states what it does access. Division among threads is proved for the elementwise, fill, copy (scalar), accumulate and pan functions; for meters and horizontal functions the accesses are proved, so that C83_threads applies to them."
  },
  {
   "property": "C84",
   "status": "partial",
   "theorems": [
    "Nova.Alloc.C84_aligned",
    "Nova.Alloc.C84_suits_partial",
    "Nova.Alloc.C84_free",
    "Nova.Alloc.C84_free_portable",
    "Nova.Alloc.C84_calloc",
    "Nova.Alloc.C84_negation_apple",
    "Nova.Alloc.C84_classes",
    "Nova.Alloc.C84_tbb_size",
    "Nova.Alloc.C84_failure"
   ],
   "note": "False on Apple's systems with AVX: malloc gives 16 bytes although malloc_memory_alignment is 64 and AVX needs 32 (C84_negation_apple). The TBB branch allocates eight times the size (C84_tbb_size) and reports failure by an exception instead of a null pointer (C84_failure). Everywhere else proved (C84_suits_partial), for sizes up to 2^64-24 (C54)."
  },
  {
   "property": "C85",
   "status": "partial",
   "theorems": [
    "Nova.C85_unary_float_partial",
    "Nova.C85_unary_scalar_float_partial",
    "Nova.C85_unary_scalar_double_partial",
    "Nova.C85_unary_double_partial",
    "Nova.C85_binary_float_partial",
    "Nova.C85_binary_scalar_float_partial",
    "Nova.C85_binary_double_partial",
    "Nova.C85_ternary_float_partial",
    "Nova.C85_ternary_scalar_float_partial",
    "Nova.C85_ternary_double_partial",
    "Nova.C85_quad_float",
    "Nova.C85_quad_double",
    "Nova.C85_unary_call_partial",
    "Nova.C85_binary_call_partial",
    "Nova.C85_ternary_call_partial",
    "Nova.C85_negation_avx",
    "Nova.C85_negation_log",
    "Nova.C85_pow",
    "Nova.C85_sgn",
    "Nova.C85_trunc"
   ],
   "note": "Proved for the functions listed in SpecNaN, given that the C library keeps NaNs. False of others: with AVX `>` is true for a NaN, so exp and pow return FLT_MAX, asin and acos 0, tanh 1 or -1 (C85_negation_avx); the SSE2 and AVX logarithm of a NaN is finite (C85_negation_log, C65_finite); sgn gives 1 or -1 (C85_sgn), trunc is undefined or 0 (C85_trunc); min, max, clip and clip2 depend on the order of arguments on x86 (C37, C38)."
  },
  {
   "property": "C86",
   "status": "proved",
   "theorems": [
    "Nova.C86_fade_float",
    "Nova.C86_fade_double",
    "Nova.C86_crossfade_float",
    "Nova.C86_crossfade_double",
    "Nova.C86_pan_float",
    "Nova.C86_pan_double",
    "Nova.C86_in_numbers"
   ],
   "note": "IsFade and IsCrossfade bound the distance from the real value by a number of roundings (position plus 1 for the scalar loops; registers plus lanes plus 1 or so for SIMD). A ramp argument of doubles has the additional error of the float conversion (C14), pan2 has not. C86_in_numbers: for signals and gains in [-1, 1] the error is at most (d + 1)/2^22."
  },
  {
   "property": "C87",
   "status": "proved",
   "theorems": [
    "Nova.C87_crossfade_double",
    "Nova.C87_which_float",
    "Nova.C87_which_double",
    "Nova.C87_ramp_float",
    "Nova.C87_ramp_double",
    "Nova.C87_fade_float",
    "Nova.C87_crossfade_float",
    "Nova.C87_pan_float",
    "Nova.C87_pan_double",
    "Nova.C87_fade_double",
    "Nova.C87_negation"
   ],
   "note": "Same means equal bits or both zero. Ramp arguments of doubles need that the increment of a register is a float (C14). The condition on the slope is necessary: C87_negation shows scalar and SSE results with slope 0.1 that differ."
  },
  {
   "property": "C88",
   "status": "proved",
   "theorems": [
    "Nova.C88_odd_float",
    "Nova.C88_odd_double",
    "Nova.C88_even_float",
    "Nova.C88_even_double",
    "Nova.C88_floor_float",
    "Nova.C88_floor_double",
    "Nova.C88_binary_float",
    "Nova.C88_binary_double",
    "Nova.C88_minmax",
    "Nova.C88_clip",
    "Nova.C88_unary_calls_float",
    "Nova.C88_unary_scalar_float",
    "Nova.C88_unary_calls_double",
    "Nova.C88_binary_calls_float",
    "Nova.C88_ternary_calls_float",
    "Nova.C88_quad_calls_float",
    "Nova.C88_negation_spow",
    "Nova.C88_negation_round"
   ],
   "note": "Opposite: the negated number; zeros and NaNs may have either sign (the code does not keep the sign of a zero: C45_negation_tanh). Where the class calls the C library, its functions are assumed odd (Libm.Odd). Excluded, with a counterexample: round without C99 (C88_negation_round), the scalar spow at zero (C88_negation_spow). Not claimed: reciprocal and division by estimates (NEON, Altivec)."
  },
  {
   "property": "C89",
   "status": "proved",
   "theorems": [
    "Nova.C89_none_float",
    "Nova.C89_same_float",
    "Nova.C89_error_float",
    "Nova.C89_bits_float",
    "Nova.C89_compare_float",
    "Nova.C89_none_double",
    "Nova.C89_same_double",
    "Nova.C89_error_double",
    "Nova.C89_bits_double",
    "Nova.C89_compare_double",
    "Nova.C89_binary_calls_float",
    "Nova.C89_ternary_calls_float",
    "Nova.C89_quad_calls_float",
    "Nova.C89_same_calls_float",
    "Nova.C89_negation_sum",
    "Nova.C89_negation_product",
    "Nova.C89_negation_compare"
   ],
   "note": "Hw.Flushing relates the instructions with flags to those without; Hw.flushed is an instance. The lanes are the same definitions (Model/Lanes) on the other instructions. Equality of over needs a division instruction (not NEON, Altivec); the absence of subnormal results holds there, too. What changes is shown by C89_negation_sum, _product (2^-127 * 2^127 is 0), _compare. Scalar functions are not covered: whether flags apply to them depends on the processor."
  },
  {
   "property": "C90",
   "status": "partial",
   "theorems": [
    "Nova.C90_unary_float_partial",
    "Nova.C90_unary_double_partial",
    "Nova.C90_binary_float",
    "Nova.C90_binary_double",
    "Nova.C90_ternary_float",
    "Nova.C90_ternary_double",
    "Nova.C90_quad_float",
    "Nova.C90_quad_double",
    "Nova.C90_ampmod",
    "Nova.C90_unary_calls_float_partial",
    "Nova.C90_unary_scalar_float_partial",
    "Nova.C90_unary_calls_double_partial",
    "Nova.C90_binary_calls_float",
    "Nova.C90_binary_calls_double",
    "Nova.C90_ternary_calls_float",
    "Nova.C90_quad_calls_float",
    "Nova.C90_negation_softclip"
   ],
   "note": "The softclip is monotone up to 2^22 (2^51 for double) and not beyond it (C90_negation_softclip): the difference |x| - 0.25 rounds there. Other limits in UnRises are those of C41/C57 (floor, ceil, round without rounding instructions up to 2^23; trunc up to 2^63, not Altivec), of undenormalize (not NEON, Altivec), signed_sqrt and reciprocal (classes that compute them with exact instructions). Transcendental functions and frac are not covered."
  },
  {
   "property": "C91",
   "status": "partial",
   "theorems": [
    "Nova.C91_unary_partial",
    "Nova.C91_binary",
    "Nova.C91_ternary_partial",
    "Nova.C91_quad",
    "Nova.C91_unary_calls_partial",
    "Nova.C91_binary_calls",
    "Nova.C91_ternary_calls_partial",
    "Nova.C91_quad_calls",
    "Nova.C91_any_unary",
    "Nova.C91_any_binary",
    "Nova.C91_any_ternary",
    "Nova.C91_any_quad",
    "Nova.C91_double_partial",
    "Nova.C91_zero_signs",
    "Nova.C91_negation_muladd",
    "Nova.C91_negation_ceil",
    "Nova.C91_negation_round_double"
   ],
   "note": "Equality fails, with proved witnesses, for muladd when only one build uses FMA (C91_negation_muladd), for the sign of a zero returned by ceil and trunc (C91_negation_ceil, C91_zero_signs) and for round of ties in double (C91_negation_round_double). reciprocal is left out because its estimate instruction differs between processors. round, floor, ceil and frac without SSE4.1 are limited to |x| < 2^23 (C41). log2 and log10 need the same two factors, which the compiler computes."
  },
  {
   "property": "C92",
   "status": "partial",
   "theorems": [
    "Nova.C92_unary_float_partial",
    "Nova.C92_unary_double",
    "Nova.C92_binary_float_partial",
    "Nova.C92_ternary_float",
    "Nova.C92_quad_float",
    "Nova.C92_binary_double",
    "Nova.C92_ternary_double",
    "Nova.C92_quad_double",
    "Nova.C92_unary_calls_float_partial",
    "Nova.C92_unary_scalar_float",
    "Nova.C92_binary_calls_float_partial",
    "Nova.C92_binary_scalar_float",
    "Nova.C92_ternary_calls_float",
    "Nova.C92_ternary_scalar_float",
    "Nova.C92_quad_calls_float",
    "Nova.C92_quad_scalar_float",
    "Nova.C92_unary_calls_double",
    "Nova.C92_unary_scalar_double",
    "Nova.C92_binary_calls_double",
    "Nova.C92_binary_scalar_double",
    "Nova.C92_ternary_calls_double",
    "Nova.C92_ternary_scalar_double",
    "Nova.C92_quad_calls_double",
    "Nova.C92_quad_scalar_double",
    "Nova.C92_grid_float",
    "Nova.C92_grid_double",
    "Nova.C92_louder",
    "Nova.C92_quieter",
    "Nova.C92_power_of_two",
    "Nova.C92_power_of_two_double"
   ],
   "note": "Proved for all builds except where the class uses an approximation instead of the operation: division on NEON and Altivec, square root on NEON, reciprocal on every vector class of float (C43, C52, C59)."
  },
  {
   "property": "C93",
   "status": "partial",
   "theorems": [
    "Nova.C93_unary_float_partial",
    "Nova.C93_unary_double",
    "Nova.C93_binary_float_partial",
    "Nova.C93_binary_double",
    "Nova.C93_ternary_float",
    "Nova.C93_ternary_double",
    "Nova.C93_quad_float",
    "Nova.C93_quad_double",
    "Nova.C93_once_float_partial",
    "Nova.C93_once_double",
    "Nova.C93_limits",
    "Nova.C93_unary_calls_float_partial",
    "Nova.C93_once_calls_float_partial",
    "Nova.C93_binary_calls_float_partial",
    "Nova.C93_ternary_calls_float",
    "Nova.C93_quad_calls_float",
    "Nova.C93_unary_calls_double",
    "Nova.C93_once_calls_double",
    "Nova.C93_binary_calls_double",
    "Nova.C93_ternary_calls_double",
    "Nova.C93_quad_calls_double",
    "Nova.C93_negation_muted",
    "Nova.C93_negation_round",
    "Nova.C93_zero_sign"
   ],
   "note": "Counterexamples are proved: a channel that holds an infinity is not silenced by gain 0 (C93_negation_muted), round of the whole number 8388609 gives 8388610 in compilers without C99 (C93_negation_round), and -0 + 0 is +0 (C93_zero_sign). The exceptions of C92 and the range limits of floor, ceil and round (C41) apply."
  },
  {
   "property": "C94",
   "status": "partial",
   "theorems": [
    "Nova.C94_log2_double",
    "Nova.C94_log2_double_simd_partial",
    "Nova.C94_negation_double_precision",
    "Nova.C94_log2_float"
   ],
   "note": "The property is false before C++11: the logarithm is multiplied with a float constant, so every argument but 1 has a relative error of more than 2^-27 (C94_negation_double_precision). Proved: the error is between 2^-27 and 2^-26 in all double builds, and floats keep their precision (2^-21). The quality of std::log2, used since C++11, is that of the C library."
  },
  {
   "property": "C95",
   "status": "proved",
   "theorems": [
    "Nova.C95_mirror_float",
    "Nova.C95_mirror_double",
    "Nova.C95_minus",
    "Nova.C95_opposite_float",
    "Nova.C95_opposite_double",
    "Nova.C95_negation_avx_nan",
    "Nova.C95_ternary_float",
    "Nova.C95_ternary_double",
    "Nova.C95_quad_float",
    "Nova.C95_quad_double",
    "Nova.C95_binary_calls_float",
    "Nova.C95_binary_calls_double",
    "Nova.C95_quad_calls_float",
    "Nova.C95_quad_calls_double",
    "Nova.C95_minmax_calls_float",
    "Nova.C95_minmax_calls_double",
    "Nova.C95_ternary_calls_float",
    "Nova.C95_ternary_calls_double",
    "Nova.C95_scalar_calls_float",
    "Nova.C95_scalar_calls_double",
    "Nova.C95_negation_min_zero"
   ],
   "note": "With NaNs the property fails on AVX, where a > b returns 1.0 while b < a returns 0.0 (C95_negation_avx_nan, see C35); minimum and maximum of +0 and -0 may return either zero (C95_negation_min_zero)."
  },
  {
   "property": "C96",
   "status": "proved",
   "theorems": [
    "Nova.C96_roundtrip",
    "Nova.C96_roundtrip_simd"
   ],
   "note": "Single precision, SSE2 and AVX, with or without SSE4.1 and FMA."
  },
  {
   "property": "C97",
   "status": "proved",
   "theorems": [
    "Nova.C97_peak_float",
    "Nova.C97_peak_simd_float",
    "Nova.C97_max_float",
    "Nova.C97_minmax_float",
    "Nova.C97_peak_double",
    "Nova.C97_peak_simd_double",
    "Nova.C97_max_double",
    "Nova.C97_minmax_double",
    "Nova.C97_root_float",
    "Nova.C97_root_double",
    "Nova.C97_root_calls_float",
    "Nova.C97_root_scalar_float",
    "Nova.C97_root_calls_double",
    "Nova.C97_root_two",
    "Nova.C97_unary_float",
    "Nova.C97_unary_double",
    "Nova.C97_binary_float",
    "Nova.C97_binary_double",
    "Nova.C97_ternary_float",
    "Nova.C97_ternary_double",
    "Nova.C97_quad_float",
    "Nova.C97_quad_double",
    "Nova.C97_unary_calls_float",
    "Nova.C97_unary_scalar_float",
    "Nova.C97_unary_calls_double",
    "Nova.C97_binary_calls_float",
    "Nova.C97_binary_calls_double",
    "Nova.C97_binary_scalar_float",
    "Nova.C97_ternary_calls_float",
    "Nova.C97_quad_calls_float",
    "Nova.C97_sum_float",
    "Nova.C97_sum_double",
    "Nova.C97_pan2_float",
    "Nova.C97_negation_tiny"
   ],
   "note": "The reciprocal is included where it is a division (scalars and doubles), the quotient except on NEON and AltiVec: the other ones refine an estimate instruction of which only an error bound is assumed. The condition about tiny products is needed (C97_negation_tiny). Signed square roots (C97_root_\u2026) exclude only NEON, which multiplies by an estimate; a factor that is no power of four has no such effect (C97_root_two). The SIMD peak meter is covered for the builds and lengths of C24 and C26; the minimum is that of horizontal_minmax_vec, since horizontal_min_vec starts from numeric_limits::min() (C81)."
  },
  {
   "property": "C98",
   "status": "partial",
   "theorems": [
    "Nova.C98_unary_scalar_float",
    "Nova.C98_unary_double",
    "Nova.C98_unary_float_partial",
    "Nova.C98_binary_float_partial",
    "Nova.C98_binary_scalar_float",
    "Nova.C98_binary_double",
    "Nova.C98_ternary_float",
    "Nova.C98_ternary_double",
    "Nova.C98_quad_float_partial",
    "Nova.C98_quad_double_partial",
    "Nova.C98_unary_call_partial",
    "Nova.C98_unary_call_double",
    "Nova.C98_binary_call_partial",
    "Nova.C98_binary_call_double",
    "Nova.C98_ternary_call_float",
    "Nova.C98_ternary_call_double",
    "Nova.C98_negation_cos",
    "Nova.C98_negation_cos_witness",
    "Nova.C98_negation_midi",
    "Nova.C98_negation_db2amp",
    "Nova.C98_negation_ampmod",
    "Nova.C98_negation_quad",
    "Nova.C98_reciprocal_partial",
    "Nova.C98_quotient_partial",
    "Nova.C98_negation_reciprocal",
    "Nova.C98_sum_float_partial",
    "Nova.C98_sum_double_partial",
    "Nova.C98_rms_float",
    "Nova.C98_rms_simd_float_partial",
    "Nova.C98_rms_double",
    "Nova.C98_rms_simd_double_partial",
    "Nova.C98_pan2_float",
    "Nova.C98_pan2_double",
    "Nova.C98_negation_sum"
   ],
   "note": "True of all functions of doubles and scalars of up to three arguments, with the exception of ampmod of a zero signal. On vectors of float with their own transcendental functions, five functions have exactly one finite argument that gives a NaN: exp (C46), midi2ratio(1536), midi2freq(1605), oct2freq(132.75) and db2amp(770.63671875); the theorems exclude that argument and nothing else. pow and spow give a NaN only if y * log(x) rounds to the one argument of exp. sin and tan give a number for every finite argument. False in general (C98_negation_*): the own cosine is a NaN for exactly the arguments from 2^64 on, and the five functions at the arguments above; ampmod turns silence into a NaN if modulator times amount overflows; sums and mixes of four numbers that overflow in opposite directions are NaNs, and the SIMD sum of a buffer can be a NaN where the scalar sum is 0. The tables of SpecNumbers exclude these. Reciprocals that refine an estimate instruction, and quotients on NEON and Altivec of numbers other than zero, are numbers whenever the estimate is finite (C98_reciprocal_partial, C98_quotient_partial); an infinite estimate, which rcpps returns for subnormal arguments, makes the reciprocal a NaN on x86 and Altivec (C98_negation_reciprocal)."
  },
  {
   "property": "C99",
   "status": "proved",
   "theorems": [
    "Nova.C99_unary",
    "Nova.C99_binary",
    "Nova.C99_ternary",
    "Nova.C99_quad",
    "Nova.C99_off_unary",
    "Nova.C99_off_binary",
    "Nova.C99_off_ternary",
    "Nova.C99_off_quad",
    "Nova.C99_possible_unary",
    "Nova.C99_possible_binary",
    "Nova.C99_possible_ternary",
    "Nova.C99_possible_quad",
    "Nova.C99_unary_simd",
    "Nova.C99_binary_simd",
    "Nova.C99_ternary_simd",
    "Nova.C99_quad_simd",
    "Nova.C99_negation_cancel",
    "Nova.C99_cancel"
   ],
   "note": "Single precision, the builds with own mathematical functions. The compiled loop body may be any function all of whose values are possible. C99_off_* and C99_possible_* connect the lists of possible results to the uncontracted model. C99_negation_cancel records what contraction does change: a signal mixed with its own inversion need not vanish, which it does otherwise (C99_cancel). Contraction of the slope computations of ramps and of the level meters is not modelled."
  },
  {
   "property": "C100",
   "status": "partial",
   "theorems": [
    "Nova.C100_shapers_partial",
    "Nova.C100_element_partial",
    "Nova.C100_negation_tanh",
    "Nova.C100_cos",
    "Nova.C100_calls_partial",
    "Nova.C100_inplace_partial"
   ],
   "note": "tanh of the negative zero is the positive zero (C100_negation_tanh); everything else holds as stated. softclip, which also passes quiet signals, is treated in C93."
  },
  {
   "property": "C101",
   "status": "partial",
   "theorems": [
    "Nova.C101_altivec",
    "Nova.C101_altivec_documented",
    "Nova.C101_neon_partial",
    "Nova.C101_neon_signed_partial",
    "Nova.C101_negation_neon",
    "Nova.C101_exact",
    "Nova.C101_negation_zero",
    "Nova.C101_call_neon_partial",
    "Nova.C101_negation_witness"
   ],
   "note": "The single precision part fails on NEON: without a refinement step the result has the error of the estimate (C101_negation_neon, with a witness in C101_negation_witness), about 8 bits with the documented estimate; and the root of zero is a NaN on NEON and AltiVec (C101_negation_zero). The stated error bounds hold as they are; arguments beyond 2^100 or below 2^-100 are not covered."
  },
  {
   "property": "C102",
   "status": "proved",
   "theorems": [
    "Nova.C102_circle",
    "Nova.C102_tan",
    "Nova.C102_exp_log",
    "Nova.C102_log_exp",
    "Nova.C102_asin_acos",
    "Nova.C102_sin_asin",
    "Nova.C102_logs",
    "Nova.C102_square_sqrt",
    "Nova.C102_calls"
   ],
   "note": "Ranges: |x| <= 8192 for sin, cos and tan (|cos| >= 2^-16 for tan), normal numbers for the logarithms, [-87.3, 88.72] for exp, |x| <= 1 without -1/2 for asin and acos (at -1/2 acos is wrong, C72), |x| <= 2^120 for signed_sqrt. The constants 1/log 2 and 1/log 10 and the estimate instruction are assumed to be as documented (GoodLogs, GoodRcp)."
  },
  {
   "property": "C103",
   "status": "proved",
   "theorems": [
    "Nova.C103_ternary_float",
    "Nova.C103_ternary_double",
    "Nova.C103_quad_float",
    "Nova.C103_quad_double",
    "Nova.C103_off",
    "Nova.C103_ternary_calls_float",
    "Nova.C103_ternary_calls_double",
    "Nova.C103_quad_calls_float",
    "Nova.C103_quad_calls_double",
    "Nova.C103_rms_float",
    "Nova.C103_rms_simd_float",
    "Nova.C103_rms_double",
    "Nova.C103_rms_simd_double",
    "Nova.C103_off_meter",
    "Nova.C103_off_meter_simd",
    "Nova.C103_differs"
   ],
   "note": "`Contract.mix3`, `mix4`, `squareAdd` and `fourSquares` list all possible results; the whole-call theorems hold for every function all of whose values are possible. `C103_off`, `C103_off_meter`, `C103_off_meter_simd`: without contraction these are the models of C03, C04 and C23-C26. `C103_differs`: the choice is visible in the result."
  },
  {
   "property": "C104",
   "status": "partial",
   "theorems": [
    "Nova.C104_unary",
    "Nova.C104_unary_lane",
    "Nova.C104_acos_negation",
    "Nova.C104_binary",
    "Nova.C104_unary_calls",
    "Nova.C104_binary_calls"
   ],
   "note": "The code violates the property at one point: acos(-0.5) is about 4*pi/3 (`C104_acos_negation`, see C72). Everything else is proved: `C104_unary`, `C104_binary` for the possible results, `C104_unary_lane` for the functions themselves, `C104_unary_calls` and `C104_binary_calls` for whole calls."
  },
  {
   "property": "C105",
   "status": "partial",
   "theorems": [
    "Nova.C105_odd",
    "Nova.C105_even",
    "Nova.C105_spow",
    "Nova.C105_nan_partial",
    "Nova.C105_special",
    "Nova.C105_power_of_zero",
    "Nova.C105_odd_calls",
    "Nova.C105_special_calls_partial"
   ],
   "note": "The symmetries and the special values are proved for all choices of fused operations (`C105_odd`, `C105_even`, `C105_spow`, `C105_special`, `C105_power_of_zero`, `C105_odd_calls`). The NaN part has the exceptions of C85, which are violations of the property by the code: the logarithms never keep a NaN, and the functions which compare with > do not with AVX (`C105_nan_partial`, `C105_special_calls_partial`; negations in C85)."
  },
  {
   "property": "C106",
   "status": "partial",
   "theorems": [
    "Nova.C106_unary_float",
    "Nova.C106_unary_double",
    "Nova.C106_binary_float_partial",
    "Nova.C106_binary_scalar_float",
    "Nova.C106_binary_double",
    "Nova.C106_unary_call_float",
    "Nova.C106_unary_call_double",
    "Nova.C106_binary_call_float_partial",
    "Nova.C106_binary_call_double",
    "Nova.C106_negation_pow",
    "Nova.C106_negation_spow"
   ],
   "note": "Proved for all builds, with the C library assumed exact at these points where the code calls it (`Libm.Reference`). The exponent zero has exceptions, which are violations by the code: the own vector version of pow(0, 0) is 0 while the scalar version gives 1 (`C106_negation_pow`), and the scalar spow(0, 0) is -1 (`C106_negation_spow`); so the theorems about powers exclude the base zero there (`C106_binary_float_partial`). freq2midi(440) = 69 is not claimed: the code multiplies by 0.0022727272727, which is not 1/440."
  },
  {
   "property": "C107",
   "status": "proved",
   "theorems": [
    "Nova.C107_unary_float",
    "Nova.C107_unary_double",
    "Nova.C107_binary_float",
    "Nova.C107_binary_double",
    "Nova.C107_muladd_float",
    "Nova.C107_muladd_double",
    "Nova.C107_muladd_twice",
    "Nova.C107_unary_calls_float",
    "Nova.C107_unary_calls_double",
    "Nova.C107_unary_scalar_float",
    "Nova.C107_binary_calls_float",
    "Nova.C107_binary_scalar_float",
    "Nova.C107_binary_calls_double",
    "Nova.C107_muladd_calls_float"
   ],
   "note": "For the builds the property names. That builds without fused instructions round muladd twice, and the result then need not be the nearest number, is shown by a witness (`C107_muladd_twice`). Division by zero and overflow are excluded by the finite result."
  }
 ]
}