{
 "claims": [
  {
   "property": "C01",
   "status": "proved",
   "theorems": [
    "Verif.Crc.C01_crc_calls_are_bit_serial",
    "Verif.Crc.C01_defaults",
    "Verif.Crc.C01_crc_byte_eq_eight_bits"
   ],
   "note": "every history of public calls refines the bit-serial register machine, all widths >= 8"
  },
  {
   "property": "C02",
   "status": "proved",
   "theorems": [
    "Verif.Crc.C02_crc_detects_bursts",
    "Verif.Crc.C02_crc_object_detects_bursts"
   ],
   "note": "all widths, all polynomials with top bit set"
  },
  {
   "property": "C03",
   "status": "proved",
   "theorems": [
    "Verif.Crc.C03_crc_residue",
    "Verif.Crc.C03_crc_object_residue",
    "Verif.Crc.C03_crc_xor_linear",
    "Verif.Crc.C03_top_bit_needed"
   ],
   "note": "converse of the residue needs the polynomial's top bit (witness C03_top_bit_needed)"
  },
  {
   "property": "C04",
   "status": "proved",
   "theorems": [
    "Verif.Xorshift.C04_bijective",
    "Verif.Xorshift.C04_never_zero",
    "Verif.Xorshift.C04_output_nonzero",
    "Verif.Xorshift.C04_reset"
   ],
   "note": ""
  },
  {
   "property": "C05",
   "status": "proved",
   "theorems": [
    "Verif.Xorshift.C05_full_period_32",
    "Verif.Xorshift.C05_full_period_64",
    "Verif.Xorshift.C05_full_period_128",
    "Verif.Xorshift.C05_no_short_cycle",
    "Verif.Xorshift.C05_full_period_wow",
    "Verif.Xorshift.C05_wow_zero"
   ],
   "note": ""
  },
  {
   "property": "C06",
   "status": "proved",
   "theorems": [
    "Verif.Mls.C06_register",
    "Verif.Mls.C06_bad",
    "Verif.Mls.C06_reset",
    "Verif.Mls.C06_defaults"
   ],
   "note": ""
  },
  {
   "property": "C07",
   "status": "proved",
   "theorems": [
    "Verif.Mls.C07_period",
    "Verif.Mls.C07_visits",
    "Verif.Mls.C07_default_not_bad",
    "Verif.Mls.C07_balance"
   ],
   "note": ""
  },
  {
   "property": "C08",
   "status": "proved",
   "theorems": [
    "Verif.Bits.C08_get_be",
    "Verif.Bits.C08_get_le",
    "Verif.Bits.C08_set_be",
    "Verif.Bits.C08_set_le",
    "Verif.Bits.C08_xor_be",
    "Verif.Bits.C08_xor_le",
    "Verif.Bits.C08_out_of_bounds",
    "Verif.Bits.C08_small_negative"
   ],
   "note": ""
  },
  {
   "property": "C09",
   "status": "proved",
   "theorems": [
    "Verif.Bits.C09_writebits_readbits",
    "Verif.Bits.C09_putbit_getbit",
    "Verif.Bits.C09_putbyte_getbyte",
    "Verif.Bits.C09_writebytes_readbytes",
    "Verif.Bits.C09_flat_injective"
   ],
   "note": ""
  },
  {
   "property": "C10",
   "status": "proved",
   "theorems": [
    "Verif.Bits.C10_call_refines_bit_array",
    "Verif.Bits.C10_stream_refines_bit_array",
    "Verif.Bits.C10_write_frame"
   ],
   "note": ""
  },
  {
   "property": "C11",
   "status": "proved",
   "theorems": [
    "Verif.Reduce.C11_exclusive_reduce"
   ],
   "note": ""
  },
  {
   "property": "C12",
   "status": "proved",
   "theorems": [
    "Verif.Interleave.C12_interleave",
    "Verif.Interleave.C12_deinterleave"
   ],
   "note": ""
  },
  {
   "property": "C13",
   "status": "proved",
   "theorems": [
    "Verif.Permute.C13_roundtrip",
    "Verif.Permute.C13_indices_in_bounds",
    "Verif.Permute.C13_draws",
    "Verif.Permute.C13_every_arrangement_once",
    "Verif.Permute.C13_arrangement"
   ],
   "note": ""
  },
  {
   "property": "C14",
   "status": "proved",
   "theorems": [
    "Verif.Permute.C14_bit_reversal",
    "Verif.Permute.C14_involution"
   ],
   "note": ""
  },
  {
   "property": "C15",
   "status": "proved",
   "theorems": [
    "Verif.Sort.C15_insertion_sort",
    "Verif.Sort.C15_whole_array",
    "Verif.Sort.C15_unique",
    "Verif.Sort.C15_vsort"
   ],
   "note": ""
  },
  {
   "property": "C16",
   "status": "proved",
   "theorems": [
    "Verif.Sort.C16_indices",
    "Verif.Sort.C16_vorder"
   ],
   "note": ""
  },
  {
   "property": "C17",
   "status": "proved",
   "theorems": [
    "Verif.Sort.C17_merge_sort",
    "Verif.Sort.C17_overflow",
    "Verif.Sort.C17_agrees_with_insertion_sort"
   ],
   "note": "int sums are checked; C17_overflow shows what happens above 2^30 elements."
  },
  {
   "property": "C18",
   "status": "proved",
   "theorems": [
    "Verif.GF.C18_iff",
    "Verif.GF.C18_inverse",
    "Verif.GF.C18_tests_build"
   ],
   "note": ""
  },
  {
   "property": "C19",
   "status": "proved",
   "theorems": [
    "Verif.GF.C19_field",
    "Verif.GF.C19_add",
    "Verif.GF.C19_neg",
    "Verif.GF.C19_sub",
    "Verif.GF.C19_mulII",
    "Verif.GF.C19_divII",
    "Verif.GF.C19_rcpI",
    "Verif.GF.C19_value",
    "Verif.GF.C19_index",
    "Verif.GF.C19_mulVV",
    "Verif.GF.C19_mulIV",
    "Verif.GF.C19_mulVI",
    "Verif.GF.C19_rcpV",
    "Verif.GF.C19_divVV",
    "Verif.GF.C19_divIV",
    "Verif.GF.C19_divVI",
    "Verif.GF.C19_fmaII",
    "Verif.GF.C19_fmaIV",
    "Verif.GF.C19_fmaVI",
    "Verif.GF.C19_fmaVV",
    "Verif.GF.C19_eq"
   ],
   "note": ""
  },
  {
   "property": "C20",
   "status": "proved",
   "theorems": [
    "Verif.GF.C20_mul",
    "Verif.GF.C20_add",
    "Verif.GF.C20_rcp",
    "Verif.GF.C20_div",
    "Verif.GF.C20_agree",
    "Verif.GF.C20_rcp_clz_limit"
   ],
   "note": ""
  },
  {
   "property": "C21",
   "status": "proved",
   "theorems": [
    "Verif.PrimeField.C21_add",
    "Verif.PrimeField.C21_sub",
    "Verif.PrimeField.C21_neg",
    "Verif.PrimeField.C21_mul",
    "Verif.PrimeField.C21_pow",
    "Verif.PrimeField.C21_rcp",
    "Verif.PrimeField.C21_div",
    "Verif.PrimeField.C21_eq",
    "Verif.PrimeField.C21_width_needed"
   ],
   "note": ""
  },
  {
   "property": "C22",
   "status": "proved",
   "theorems": [
    "Verif.RS.C22_encoder",
    "Verif.RS.C22_syndromes"
   ],
   "note": "every primitive field of degree >= 2 with built tables, every NR, FCR, data length"
  },
  {
   "property": "C23",
   "status": "proved",
   "theorems": [
    "Verif.RS.C23_mds",
    "Verif.RS.C23_weight",
    "Verif.RS.C23_systematic",
    "Verif.RS.C23_encoded_distance"
   ],
   "note": "MDS distance, systematic uniqueness"
  },
  {
   "property": "C24",
   "status": "proved",
   "theorems": [
    "Verif.RS.C24_constructor",
    "Verif.RS.C24_correct",
    "Verif.RS.C24_correct_unaffected",
    "Verif.RS.C24_roundtrip"
   ],
   "note": "every error/erasure pattern with 2e+rho<=NR except exactly the two-position patterns of Excluded (the value skipped by ArtinSchreier, see C26); without exception for the four unaffected test fields"
  },
  {
   "property": "C25",
   "status": "proved",
   "theorems": [
    "Verif.RS.C25_contract",
    "Verif.RS.C25_validity",
    "Verif.RS.Example.C25_zero_on_noncodeword"
   ],
   "note": "contract on arbitrary words; validity condition characterised by linear recurrences; witness that 0 is returned for a non-codeword"
  },
  {
   "property": "C26",
   "status": "proved",
   "theorems": [
    "Verif.RS.C26_search",
    "Verif.RS.C26_rejected",
    "Verif.RS.C26_excluded_iff",
    "Verif.RS.C26_failure",
    "Verif.RS.C26_unaffected",
    "Verif.RS.C26_affected",
    "Verif.RS.C26_witness"
   ],
   "note": "shortcut = exhaustive search except one value; the exception is real for GF(2^15) 0x802D, GF(2^16) 0x1100B and 0x1002D (witness), absent for GF(2^4), GF(2^7), GF(2^8), GF(2^14) of the tests"
  },
  {
   "property": "C27",
   "status": "proved",
   "theorems": [
    "Verif.BCH.C27_encoder",
    "Verif.BCH.C27_rejects",
    "Verif.BCH.C27_unique",
    "Verif.BCH.C27_systematic",
    "Verif.BCH.C27_reference",
    "Verif.BCH.C27_reference_constant"
   ],
   "note": "every N, K and list of positive polynomials of total degree N-K; packed and Reference encoders agree; Reference with a trailing constant polynomial is undefined (C27_reference_constant)"
  },
  {
   "property": "C28",
   "status": "proved",
   "theorems": [
    "Verif.BCH.C28_code",
    "Verif.BCH.C28_correct",
    "Verif.BCH.C28_reference",
    "Verif.BCH.C28_excluded",
    "Verif.BCH.C28_excluded_reference",
    "Verif.BCH.C28_roundtrip",
    "Verif.BCH.Example.C28_test_codes"
   ],
   "note": "every pattern with 2e+rho<=NR except exactly the patterns of Excluded; hypotheses shown for the six codes of the tests (C28_test_codes)"
  },
  {
   "property": "C29",
   "status": "proved",
   "theorems": [
    "Verif.BCH.C29_contract",
    "Verif.BCH.C29_reference",
    "Verif.BCH.C29_validity"
   ],
   "note": "contract on arbitrary words for packed and Reference decoders, validity characterised by linear recurrences"
  },
  {
   "property": "C30",
   "status": "proved",
   "theorems": [
    "Verif.ShortBCH.C30_systematic",
    "Verif.ShortBCH.C30_surjective",
    "Verif.ShortBCH.C30_linear",
    "Verif.ShortBCH.C30_soft"
   ],
   "note": "Params: 1<=K<=N<=31, K<=30, N-K<=15, G of degree N-K; codewords = multiples of G."
  },
  {
   "property": "C31",
   "status": "proved",
   "theorems": [
    "Verif.ShortBCH.C31_sound",
    "Verif.ShortBCH.C31_fails_iff",
    "Verif.ShortBCH.C31_corrects",
    "Verif.ShortBCH.C31_nasa_minDist",
    "Verif.ShortBCH.C31_golay_minDist",
    "Verif.ShortBCH.C31_bch_bound",
    "Verif.ShortBCH.C31_bch31_minDist",
    "Verif.ShortBCH.C31_golay2_minDist"
   ],
   "note": "Sound and complete for any G (returns -1 iff no codeword within T); unique correction if minimum distance >= 2T+1; the BCH bound for any generator with consecutive roots in GF(2^M) (C31_bch_bound), minimum distance 7 for all four codes of the tests."
  },
  {
   "property": "C32",
   "status": "proved",
   "theorems": [
    "Verif.ShortBCH.C32_maximum_likelihood",
    "Verif.ShortBCH.C32_sign_codeword",
    "Verif.ShortBCH.C32_chase",
    "Verif.ShortBCH.C32_chase_list_degenerate",
    "Verif.ShortBCH.C32_chase_best",
    "Verif.ShortBCH.C32_radius",
    "Verif.ShortBCH.C32_corrects"
   ],
   "note": "Maximum likelihood for K<=4; for K>4 (Chase): error free input decodes, result is -1 or a codeword at least as good as every tested candidate; the strictly best codeword is returned if it is a candidate (C32_chase_best), always if at most T signs are wrong (C32_radius, C32_corrects); the list of least reliable positions degenerates when position 0 is weakest (C32_chase_list_degenerate). hard << (31-i) is taken to wrap."
  },
  {
   "property": "C33",
   "status": "proved",
   "theorems": [
    "Verif.Hadamard.C33_maximum_likelihood",
    "Verif.Hadamard.C33_unrolled_agrees",
    "Verif.Hadamard.C33_encoder",
    "Verif.Hadamard.C33_corrects_errors",
    "Verif.Hadamard.C33_round_trip"
   ],
   "note": "K from 2 to 24 (the range in which int cannot overflow for soft values in [-128,127]); maximum likelihood incl. ties, unrolled = generic, encoder output, correction of flips/erasures, round trip."
  },
  {
   "property": "C34",
   "status": "proved",
   "theorems": [
    "Verif.Hadamard.C34_maximum_likelihood",
    "Verif.Hadamard.C34_unrolled_agrees",
    "Verif.Hadamard.C34_encoder",
    "Verif.Hadamard.C34_corrects_errors",
    "Verif.Hadamard.C34_round_trip"
   ],
   "note": "K from 1 to 23; maximum likelihood incl. ties, unrolled = generic, encoder output, correction of flips/erasures, round trip."
  },
  {
   "property": "C35",
   "status": "proved",
   "theorems": [
    "Verif.Polar.C35_encode",
    "Verif.Polar.C35_hard",
    "Verif.Polar.C35_involution",
    "Verif.Polar.C35_homomorphism",
    "Verif.Polar.C35_consumed",
    "Verif.Polar.C35_level_zero",
    "Verif.Polar.C35_simd"
   ],
   "note": ""
  },
  {
   "property": "C36",
   "status": "proved",
   "theorems": [
    "Verif.Polar.C36_systematic",
    "Verif.Polar.C36_closure_needed",
    "Verif.Polar.C36_simd",
    "Verif.Polar.C36_codeword",
    "Verif.Polar.C36_iff"
   ],
   "note": ""
  },
  {
   "property": "C37",
   "status": "proved",
   "theorems": [
    "Verif.Polar.C37_decode",
    "Verif.Polar.C37_in_bounds",
    "Verif.Polar.C37_simd",
    "Verif.Polar.C37_level",
    "Verif.Polar.C37_values"
   ],
   "note": ""
  },
  {
   "property": "C38",
   "status": "proved",
   "theorems": [
    "Verif.Polar.C38_decode",
    "Verif.Polar.C38_rank",
    "Verif.Polar.C38_sign_correct",
    "Verif.Polar.C38_last_frozen",
    "Verif.Polar.C38_all_frozen"
   ],
   "note": ""
  },
  {
   "property": "C39",
   "status": "proved",
   "theorems": [
    "Verif.Polar.C39_simd_encode",
    "Verif.Polar.C39_encode",
    "Verif.Polar.C39_decode",
    "Verif.Polar.C39_sign_correct",
    "Verif.Polar.C39_first_zero"
   ],
   "note": ""
  },
  {
   "property": "C40",
   "status": "proved",
   "theorems": [
    "Verif.Freezer.C40_freezer",
    "Verif.Freezer.C40_freezer_closed",
    "Verif.Freezer.C40_freezer_systematic",
    "Verif.Freezer.C40_average",
    "Verif.Freezer.C40_const0",
    "Verif.Freezer.C40_sequence",
    "Verif.Freezer.C40_const0_closed",
    "Verif.Freezer.C40_sequence_order",
    "Verif.Freezer.C40_double_order",
    "Verif.Freezer.C40_double_not_closed"
   ],
   "note": ""
  },
  {
   "property": "C41",
   "status": "proved",
   "theorems": [
    "Verif.Cauchy.C41_encode",
    "Verif.Cauchy.C41_roundtrip",
    "Verif.Cauchy.C41_history",
    "Verif.Cauchy.C41_overflow"
   ],
   "note": "All fields built by the table constructor, any M, w, block length/count, any set and order of distinct ids, any build (scalar, NEON, SSE, AVX2), any buffers and member contents. int products are checked: C41_overflow shows that the restriction on the offset is exact. The value_type* overloads are the same call, the void* overloads are in C71."
  },
  {
   "property": "C42",
   "status": "proved",
   "theorems": [
    "Verif.Cauchy.C42_values",
    "Verif.Cauchy.C42_simd8_eq_scalar",
    "Verif.Cauchy.C42_simd16_eq_scalar",
    "Verif.Cauchy.C42_dispatch"
   ],
   "note": "Register-level model of the table-lookup kernels (byte shuffles, packing, nibble splitting) for the three instruction sets; equality with the scalar loop for all multipliers and arrays."
  },
  {
   "property": "C43",
   "status": "proved",
   "theorems": [
    "Verif.CauchyPF.C43_encode",
    "Verif.CauchyPF.C43_roundtrip",
    "Verif.CauchyPF.C43_params_257",
    "Verif.CauchyPF.C43_params_65537",
    "Verif.CauchyPF.C43_margin"
   ],
   "note": "Any prime >= 5 whose width satisfies (P-1)^2(P-2)(P-3) < 2^w; both configurations of the claim are instances. Overflow is modelled (arithmetic modulo 2^w) and shown not to happen."
  },
  {
   "property": "C44",
   "status": "proved",
   "theorems": [
    "Verif.LDPC.C44_encode",
    "Verif.LDPC.C44_decode",
    "Verif.LDPC.C44_roundtrip",
    "Verif.LDPC.C44_tables"
   ],
   "note": "every well-formed table (the four DVB-T2 tables of the tests are proved well-formed for both word sizes), every history of the decoder object, any std::sort; return value non-negative iff the output is a codeword"
  },
  {
   "property": "C45",
   "status": "proved",
   "theorems": [
    "Verif.OSD.C45_encoder",
    "Verif.OSD.C45_matrix",
    "Verif.OSD.C45_systematic",
    "Verif.OSD.C45_same_code",
    "Verif.OSD.C45_product",
    "Verif.OSD.C45_bch",
    "Verif.OSD.C45_roundtrip",
    "Verif.OSD.C45_constant",
    "Verif.OSD.C45_rejects",
    "Verif.OSD.C45_test_codes"
   ],
   "note": "every N >= K >= 1, every list of odd polynomials of positive degree with total degree N-K; both matrices, encoder on any 0/1 matrix, agreement with the packed BCH encoder of C27, round trip through the OSD decoder of C46. An extra constant polynomial reads genpoly[-1] (C45_constant)."
  },
  {
   "property": "C46",
   "status": "proved",
   "theorems": [
    "Verif.OSD.C46_decode",
    "Verif.OSD.C46_int16",
    "Verif.OSD.C46_basis",
    "Verif.OSD.C46_whole_code",
    "Verif.OSD.C46_hard_decisions",
    "Verif.OSD.C46_missed_tie",
    "Verif.OSD.C46_false_tie",
    "Verif.OSD.C46_best"
   ],
   "note": "every full-rank 0/1 generator matrix, order, soft input and earlier member contents; search set characterised without the model (most reliable basis by reliability order). Return value exact, including the two cases in which it is wrong (C46_missed_tie, C46_false_tie). Correlations are mathematical integers (int cannot overflow for N < 2^24). int16_t of the permutation is modelled: C46_int16 (N <= 32768 is exact)."
  },
  {
   "property": "C47",
   "status": "proved",
   "theorems": [
    "Verif.OSD.C47_best",
    "Verif.OSD.C47_hard_decisions",
    "Verif.OSD.C47_decode",
    "Verif.OSD.C47_full",
    "Verif.OSD.C47_unfilled"
   ],
   "note": "every full-rank 0/1 generator matrix, order, list length, soft input, buffers and earlier member contents. Words with negative correlation are not listed (score starts at -1): C47_unfilled shows the effect."
  },
  {
   "property": "C48",
   "status": "proved",
   "theorems": [
    "Verif.Rotate.C48_generic",
    "Verif.Rotate.C48_shuffle16",
    "Verif.Rotate.C48_shuffle32",
    "Verif.Rotate.C48_agree",
    "Verif.Rotate.C48_inverse"
   ],
   "note": ""
  },
  {
   "property": "C49",
   "status": "proved",
   "theorems": [
    "Verif.PolarHelper.C49_prod_spec",
    "Verif.PolarHelper.C49_prod_agree",
    "Verif.PolarHelper.C49_qabs_agree",
    "Verif.PolarHelper.C49_madd_spec",
    "Verif.PolarHelper.C49_qadd_spec",
    "Verif.PolarHelper.C49_quant_spec",
    "Verif.PolarHelper.C49_madd_agree",
    "Verif.PolarHelper.C49_closed",
    "Verif.PolarHelper.C49_lanes",
    "Verif.PolarHelper.C49_madd_minus128_differs",
    "Verif.PolarHelper.C49_qadd_iff",
    "Verif.Trials.C49_quant_float",
    "Verif.Trials.C49_quant_defined",
    "Verif.Trials.C49_quant_mono",
    "Verif.Trials.C49_quant_odd",
    "Verif.Trials.C49_quant_error",
    "Verif.Trials.C49_quant_int"
   ],
   "note": ""
  },
  {
   "property": "C50",
   "status": "proved",
   "theorems": [
    "Verif.LDPC.C50_decode",
    "Verif.LDPC.C50_independent",
    "Verif.LDPC.C50_tables"
   ],
   "note": "every well-formed table that spreads over the lanes (DVB-T2 A1, A3, A6 with SSE/NEON), BETA 0..64, every history, any std::sort. The independent specification is LDPC/SpecDec.lean."
  },
  {
   "property": "C51",
   "status": "proved",
   "theorems": [
    "Verif.LDPC.C51_decode",
    "Verif.LDPC.C51_tables",
    "Verif.LDPC.C51_a3",
    "Verif.LDPC.C51_history",
    "Verif.LDPC.C51_unfair"
   ],
   "note": "every well-formed fair table (the four DVB-T2 tables with SSE/NEON, all but A3 with AVX2). C51_a3 and C51_unfair: the A3/AVX2 turn mask bug. C51_history: the same input decoded twice gives different results."
  },
  {
   "property": "C52",
   "status": "proved",
   "theorems": [
    "Verif.SIMD.C52_sse_i8",
    "Verif.SIMD.C52_sse_i16",
    "Verif.SIMD.C52_sse_i32",
    "Verif.SIMD.C52_sse_i64",
    "Verif.SIMD.C52_sse_u8",
    "Verif.SIMD.C52_sse_u16",
    "Verif.SIMD.C52_sse_u32",
    "Verif.SIMD.C52_sse_u64",
    "Verif.SIMD.C52_sse_f32",
    "Verif.SIMD.C52_sse_f64",
    "Verif.SIMD.C52_sse2_i8",
    "Verif.SIMD.C52_sse2_i16",
    "Verif.SIMD.C52_sse2_i32",
    "Verif.SIMD.C52_sse2_i64",
    "Verif.SIMD.C52_sse2_u8",
    "Verif.SIMD.C52_sse2_u16",
    "Verif.SIMD.C52_sse2_u32",
    "Verif.SIMD.C52_sse2_u64",
    "Verif.SIMD.C52_sse2_f32",
    "Verif.SIMD.C52_sse2_f64",
    "Verif.SIMD.C52_sse3_i8",
    "Verif.SIMD.C52_sse3_i16",
    "Verif.SIMD.C52_sse3_i32",
    "Verif.SIMD.C52_sse3_i64",
    "Verif.SIMD.C52_sse3_u8",
    "Verif.SIMD.C52_sse3_u16",
    "Verif.SIMD.C52_sse3_u32",
    "Verif.SIMD.C52_sse3_u64",
    "Verif.SIMD.C52_sse3_f32",
    "Verif.SIMD.C52_sse3_f64",
    "Verif.SIMD.C52_sse4_i8",
    "Verif.SIMD.C52_sse4_i16",
    "Verif.SIMD.C52_sse4_i32",
    "Verif.SIMD.C52_sse4_i64",
    "Verif.SIMD.C52_sse4_u8",
    "Verif.SIMD.C52_sse4_u16",
    "Verif.SIMD.C52_sse4_u32",
    "Verif.SIMD.C52_sse4_u64",
    "Verif.SIMD.C52_sse4_f32",
    "Verif.SIMD.C52_sse4_f64",
    "Verif.SIMD.C52_vshuf_index",
    "Verif.SIMD.C52_vsignum_nan",
    "Verif.SIMD.C52_vmin_nan",
    "Verif.SIMD.C52_vmin_zero"
   ],
   "note": "one theorem per header and lane type, a conjunct per overload (512 overloads). Model generated from the C++ text by tools/gen_simd.py. Float addition, subtraction and multiplication are an abstract unit shared by scalar and vector instructions; vsign on floats for any multiplication obeying IEEE 754 for factors 1, -1, 0, finite a, non-NaN b, up to the sign of zero. The exceptions are theorems too (C52_vshuf_index, C52_vsignum_nan, C52_vmin_nan, C52_vmin_zero)."
  },
  {
   "property": "C53",
   "status": "proved",
   "theorems": [
    "Verif.SIMD.C53_avx_i8",
    "Verif.SIMD.C53_avx_i16",
    "Verif.SIMD.C53_avx_i32",
    "Verif.SIMD.C53_avx_i64",
    "Verif.SIMD.C53_avx_u8",
    "Verif.SIMD.C53_avx_u16",
    "Verif.SIMD.C53_avx_u32",
    "Verif.SIMD.C53_avx_u64",
    "Verif.SIMD.C53_avx_f32",
    "Verif.SIMD.C53_avx_f64",
    "Verif.SIMD.C53_avx2_i8",
    "Verif.SIMD.C53_avx2_i16",
    "Verif.SIMD.C53_avx2_i32",
    "Verif.SIMD.C53_avx2_i64",
    "Verif.SIMD.C53_avx2_u8",
    "Verif.SIMD.C53_avx2_u16",
    "Verif.SIMD.C53_avx2_u32",
    "Verif.SIMD.C53_avx2_u64",
    "Verif.SIMD.C53_avx2_f32",
    "Verif.SIMD.C53_avx2_f64",
    "Verif.SIMD.C53_vshuf_index",
    "Verif.SIMD.C53_vshuf_index_8"
   ],
   "note": "as C52, 262 overloads; exceptions C53_vshuf_index, C53_vshuf_index_8. vclamp on int64_t uses _mm256_min_epi64/_mm256_max_epi64, which are AVX-512VL and not AVX2."
  },
  {
   "property": "C54",
   "status": "proved",
   "theorems": [
    "Verif.SIMD.C54_neon_i8",
    "Verif.SIMD.C54_neon_i16",
    "Verif.SIMD.C54_neon_i32",
    "Verif.SIMD.C54_neon_i64",
    "Verif.SIMD.C54_neon_u8",
    "Verif.SIMD.C54_neon_u16",
    "Verif.SIMD.C54_neon_u32",
    "Verif.SIMD.C54_neon_u64",
    "Verif.SIMD.C54_neon_f32",
    "Verif.SIMD.C54_neon2_i8",
    "Verif.SIMD.C54_neon2_i16",
    "Verif.SIMD.C54_neon2_i32",
    "Verif.SIMD.C54_neon2_i64",
    "Verif.SIMD.C54_neon2_u8",
    "Verif.SIMD.C54_neon2_u16",
    "Verif.SIMD.C54_neon2_u32",
    "Verif.SIMD.C54_neon2_u64",
    "Verif.SIMD.C54_neon2_f32",
    "Verif.SIMD.C54_neon3_i8",
    "Verif.SIMD.C54_neon3_i16",
    "Verif.SIMD.C54_neon3_i32",
    "Verif.SIMD.C54_neon3_i64",
    "Verif.SIMD.C54_neon3_u8",
    "Verif.SIMD.C54_neon3_u16",
    "Verif.SIMD.C54_neon3_u32",
    "Verif.SIMD.C54_neon3_u64",
    "Verif.SIMD.C54_neon3_f32",
    "Verif.SIMD.C54_neon4_i8",
    "Verif.SIMD.C54_neon4_i16",
    "Verif.SIMD.C54_neon4_i32",
    "Verif.SIMD.C54_neon4_i64",
    "Verif.SIMD.C54_neon4_u8",
    "Verif.SIMD.C54_neon4_u16",
    "Verif.SIMD.C54_neon4_u32",
    "Verif.SIMD.C54_neon4_u64",
    "Verif.SIMD.C54_neon4_f32",
    "Verif.SIMD.C54_vsignum_nan"
   ],
   "note": "as C52, 426 overloads, both preprocessor variants of vshuf; FMIN/FMAX propagate NaN and order -0 below +0."
  },
  {
   "property": "C55",
   "status": "proved",
   "theorems": [
    "Verif.SIMD.C55_backends",
    "Verif.SIMD.C55_prod",
    "Verif.SIMD.C55_madd",
    "Verif.SIMD.C55_qmul",
    "Verif.SIMD.C55_ldpc",
    "Verif.SIMD.C55_ldpc_out",
    "Verif.SIMD.C55_vshuf"
   ],
   "note": "for any target whose functions meet Ops.Ok, which C55_backends proves for all twelve. vmul on x86 is the portable template."
  },
  {
   "property": "C56",
   "status": "proved",
   "theorems": [
    "Verif.Polar.C56_list",
    "Verif.Polar.C56_parity"
   ],
   "note": "specification SpecScl.lean works on whole paths. level <= MAX_M <= 16 and at least one free position (C38_all_frozen shows the need). std::sort/insertion order is the model of C38/C39."
  },
  {
   "property": "C57",
   "status": "proved",
   "theorems": [
    "Verif.Polar.C57_metric",
    "Verif.Polar.C57_complete",
    "Verif.Polar.C57_max_likelihood",
    "Verif.Polar.C57_parity_metric",
    "Verif.Polar.C57_parity_complete",
    "Verif.Polar.C57_parity_max_likelihood"
   ],
   "note": "saturation of the soft values makes the metric a lower bound only (example in PropsMl.lean: metric 127, disagreement 3200), so the maximum likelihood claim needs a codeword with disagreement below 127."
  },
  {
   "property": "C58",
   "status": "proved",
   "theorems": [
    "Verif.Polar.C58_sc",
    "Verif.Polar.C58_simd"
   ],
   "note": "an example shows that the claim fails when a decision is made on a soft value of 0: the rate-1 shortcut then keeps other partial sums than the textbook."
  },
  {
   "property": "C59",
   "status": "proved",
   "theorems": [
    "Verif.Polar.C59_encode",
    "Verif.Polar.C59_decode",
    "Verif.Polar.C59_sc",
    "Verif.Polar.C59_simd",
    "Verif.Polar.C59_exact",
    "Verif.Polar.C59_systematic",
    "Verif.Polar.C59_parity_encode",
    "Verif.Polar.C59_simd_encode"
   ],
   "note": "the format is any `Rounding` (monotone, exact on its numbers, closed under negation and doubling); Ieee.lean proves this for binary32 and binary64 with ties to even. Signed zeros are merged. Vector lanes by the portable templates. An example shows that without the bound infinities of opposite sign can meet (NaN)."
  },
  {
   "property": "C60",
   "status": "proved",
   "theorems": [
    "Verif.Targets.C60_targets",
    "Verif.Targets.C60_encode",
    "Verif.Targets.C60_systematic",
    "Verif.Targets.C60_parity_encode",
    "Verif.Targets.C60_sc",
    "Verif.Targets.C60_list",
    "Verif.Targets.C60_parity",
    "Verif.Targets.C60_same_list",
    "Verif.Targets.C60_same_parity"
   ],
   "note": "Targets/Model.lean writes the coders over the overload table of C52-C55 (`Target`), so each vector operation is the back end's; stores to single lanes (`reg.v[k] = x`) are `wrt`, whose behaviour on the back ends is that of an array."
  },
  {
   "property": "C61",
   "status": "proved",
   "theorems": [
    "Verif.Targets.C61_targets",
    "Verif.Targets.C61_decode",
    "Verif.Targets.C61_exact",
    "Verif.Targets.C61_turns",
    "Verif.Targets.C61_same",
    "Verif.Targets.C61_tables"
   ],
   "note": "Targets/LdpcModel.lean writes the decoder over the overload table of C52-C55 and each target's Rotate (byte shifts, shuffles, permutes as in rotate.hh); the bookkeeping without vectors (tables, write disable masks) is that of LDPC/Model.lean. The portable target is taken with 16 lanes."
  },
  {
   "property": "C62",
   "status": "proved",
   "theorems": [
    "Verif.Polar.C62_list",
    "Verif.Polar.C62_parity",
    "Verif.Polar.C62_sign_correct",
    "Verif.Polar.C62_parity_sign_correct"
   ],
   "note": "Polar/FloatList.lean; specification SpecSclOf.lean with fadd/penaltyQ (FloatFork.lean), parityF (FloatParSim.lean). The format is any `Rounding` that holds 1000000 (binary32 and binary64 do). An example shows that infinite soft values can make a metric a NaN. Vector lanes by the portable templates."
  },
  {
   "property": "C63",
   "status": "proved",
   "theorems": [
    "Verif.Polar.C63_metric",
    "Verif.Polar.C63_complete",
    "Verif.Polar.C63_max_likelihood",
    "Verif.Polar.C63_parity_metric",
    "Verif.Polar.C63_parity_complete",
    "Verif.Polar.C63_parity_max_likelihood"
   ],
   "note": "The counterpart of C57 without saturation. Soft values that do have to be rounded are C62 only (the list is determined, its metrics are rounded sums)."
  },
  {
   "property": "C64",
   "status": "proved",
   "theorems": [
    "Verif.Crc.C64_remainder",
    "Verif.Crc.C64_object",
    "Verif.Crc.C64_undetected_iff",
    "Verif.Crc.C64_odd",
    "Verif.Crc.C64_two",
    "Verif.Crc.C64_orders",
    "Verif.Crc.C64_crc32_two"
   ],
   "note": ""
  },
  {
   "property": "C65",
   "status": "proved",
   "theorems": [
    "Verif.Interleave.C65_burst",
    "Verif.RS.C65_reed_solomon"
   ],
   "note": "The Reed-Solomon part is for the four fields for which C26 is proved complete."
  },
  {
   "property": "C66",
   "status": "proved",
   "theorems": [
    "Verif.Mls.C66_visits",
    "Verif.Mls.C66_balance",
    "Verif.Mls.C66_autocorrelation",
    "Verif.Mls.C66_windows"
   ],
   "note": ""
  },
  {
   "property": "C67",
   "status": "proved",
   "theorems": [
    "Verif.Targets.C67_targets",
    "Verif.Targets.C67_encode",
    "Verif.Targets.C67_sc",
    "Verif.Targets.C67_list",
    "Verif.Targets.C67_parity",
    "Verif.Targets.C67_same_list",
    "Verif.Targets.C67_same_parity",
    "Verif.Targets.C67_sign_correct",
    "Verif.Targets.C67_parity_sign_correct"
   ],
   "note": "The arithmetic of the machine is a parameter (`Fpu`) assumed to round as IEEE 754 says (`IsIeee`: values up to the sign of zeros and the kind of NaN); an arithmetic that meets it is shown to exist for float and double. The intrinsics are those of C52-C55. Metrics are modelled by their values. The scalar multiplications are by +-1, so contracting them into fused operations changes nothing."
  },
  {
   "property": "C68",
   "status": "proved",
   "theorems": [
    "Verif.CrcPolar.C68_message",
    "Verif.CrcPolar.C68_select",
    "Verif.CrcPolar.C68_list",
    "Verif.CrcPolar.C68_parity",
    "Verif.CrcPolar.C68_systematic",
    "Verif.CrcPolar.C68_float_list",
    "Verif.CrcPolar.C68_float_parity",
    "Verif.CrcPolar.C68_choice",
    "Verif.CrcPolar.C68_parity_choice",
    "Verif.CrcPolar.C68_mistaken",
    "Verif.CrcPolar.C68_distance"
   ],
   "note": "The frame of tests/polar_list_regression_test.cc, over the models of C01, C35-C39, C62. The random data are an argument; modulation, noise and statistics are not modelled."
  },
  {
   "property": "C69",
   "status": "proved",
   "theorems": [
    "Verif.CrcPolar.C69_freeze",
    "Verif.CrcPolar.C69_table",
    "Verif.CrcPolar.C69_table_closed",
    "Verif.CrcPolar.C69_table_systematic",
    "Verif.CrcPolar.C69_const0",
    "Verif.CrcPolar.C69_schedule"
   ],
   "note": "The loops of the test that build the mask, and the table copied from tests/sequence.h. PolarSeqConst0 in exact arithmetic; with doubles the order fails (C40)."
  },
  {
   "property": "C70",
   "status": "proved",
   "theorems": [
    "Verif.GF.C70_results",
    "Verif.GF.C70_null",
    "Verif.GF.C70_history",
    "Verif.GF.C70_copies",
    "Verif.GF.C70_copy_never",
    "Verif.GF.C70_destroy"
   ],
   "note": "The static pointers of each instantiation and the objects they point to. Addresses are numbers; an object lives at one address; the implicit copy constructor and assignment copy the arrays and leave the statics. index and value stand for all operations on the tables. Exceptions and threads are not modelled."
  },
  {
   "property": "C71",
   "status": "proved",
   "theorems": [
    "Verif.Cauchy.C71_encode",
    "Verif.Cauchy.C71_roundtrip",
    "Verif.Cauchy.C71_every_byte",
    "Verif.Cauchy.C71_multiple",
    "Verif.Cauchy.C71_crs_test",
    "Verif.CauchyPF.C71_prime_field",
    "Verif.CauchyPF.C71_cpf_test"
   ],
   "note": "The byte order is a parameter; alignment and instruction set are chosen per call. The random draws of the tests are arbitrary functions into the ranges of their distributions."
  },
  {
   "property": "C72",
   "status": "proved",
   "theorems": [
    "Verif.Trials.C72_rs",
    "Verif.Trials.C72_rs_passes",
    "Verif.Trials.C72_rs_can_fail",
    "Verif.Trials.C72_bch",
    "Verif.Trials.C72_bch_reference",
    "Verif.Trials.C72_bch_tests",
    "Verif.Trials.C72_short",
    "Verif.Trials.C72_short_tests"
   ],
   "note": "Random draws are arbitrary functions into the ranges of the distributions; the search for a fresh position is cut off after a number of steps, and the theorems hold from some number on if every position keeps coming (Fair). The loop over the trials and the number of trials are not modelled: the theorems are about one trial. lines 32-33 of the RS test (const data unchanged) are left out."
  },
  {
   "property": "C73",
   "status": "proved",
   "theorems": [
    "Verif.Trials.C73_channel",
    "Verif.Trials.C73_channel_weak",
    "Verif.Trials.C73_hadamard",
    "Verif.Trials.C73_simplex",
    "Verif.Trials.C73_hadamard_clean",
    "Verif.Trials.C73_simplex_clean",
    "Verif.Trials.C73_hadamard_weak",
    "Verif.Trials.C73_simplex_weak",
    "Verif.Trials.C73_soft",
    "Verif.Trials.C73_soft_corrects",
    "Verif.Trials.C73_soft_weak",
    "Verif.Trials.C73_soft_tests"
   ],
   "note": "Noise values are arbitrary finite numbers, the factor is a positive number; the arithmetic is that of any format with monotone rounding (Rounding: binary32 and binary64 are instances). Random data below 2^K. The loops over SNR and trials and the final averages are not modelled: the theorems are about one trial. The compiler may keep excess precision or contract a product and a sum, which is not modelled."
  },
  {
   "property": "C74",
   "status": "proved",
   "theorems": [
    "Verif.Trials.C74_polar",
    "Verif.Trials.C74_polar_assert",
    "Verif.Trials.C74_polar_weak"
   ],
   "note": "Noise values are arbitrary finite numbers, the factor is a number other than 0; the arithmetic is that of any format with monotone rounding (Rounding: binary32 and binary64 are instances). The loops over SNR and trials and the final averages are not modelled: the theorems are about one trial. The compiler may keep excess precision or contract a product and a sum, which is not modelled."
  },
  {
   "property": "C75",
   "status": "proved",
   "theorems": [
    "Verif.Trials.C75_osd",
    "Verif.Trials.C75_osd_bch",
    "Verif.Trials.C75_osd_weak",
    "Verif.Trials.C75_osd_best",
    "Verif.Trials.C75_osld",
    "Verif.Trials.C75_osld_oracle",
    "Verif.Trials.C75_osld_weak",
    "Verif.Trials.C75_osd_codes"
   ],
   "note": "Noise values are arbitrary finite numbers, the factor is a number other than 0; the arithmetic is that of any format with monotone rounding (Rounding: binary32 and binary64 are instances). The loops over SNR and trials and the final averages are not modelled: the theorems are about one trial. The compiler may keep excess precision or contract a product and a sum, which is not modelled."
  },
  {
   "property": "C76",
   "status": "proved",
   "theorems": [
    "Verif.Trials.C76_ldpc",
    "Verif.Trials.C76_ldpc_counts",
    "Verif.Trials.C76_ldpc_weak",
    "Verif.Trials.C76_ldpc_all",
    "Verif.Trials.C76_ldpc_tables"
   ],
   "note": "Noise values are arbitrary finite numbers, the factors numbers other than 0; the arithmetic is that of any format with monotone rounding (Rounding; the test uses float). The computation of the factors from the SNR, the measurement of time and the final minimum are not modelled. The compiler may keep excess precision or contract a product and a sum, which is not modelled."
  },
  {
   "property": "C77",
   "status": "proved",
   "theorems": [
    "Verif.Trials.C77_list",
    "Verif.Trials.C77_list_frame",
    "Verif.Trials.C77_list_weak",
    "Verif.Trials.C77_parity_numbers"
   ],
   "note": "int8_t symbols (the branch of the test that is compiled); L up to 256 lanes. Noise values are arbitrary finite numbers, the factor is a number other than 0; the arithmetic is that of any format with monotone rounding. The loops over SNR and trials, the measurement of time and the final averages are not modelled: the theorems are about one trial on arrays and a CRC object with arbitrary history."
  },
  {
   "property": "C78",
   "status": "proved",
   "theorems": [
    "Verif.Crc.C78_distance",
    "Verif.Crc.C78_codewords",
    "Verif.Crc.C78_sharp"
   ],
   "note": ""
  },
  {
   "property": "C79",
   "status": "proved",
   "theorems": [
    "Verif.Freezer.C79_decode",
    "Verif.Freezer.C79_decode_float",
    "Verif.Freezer.C79_decode_simd",
    "Verif.Freezer.C79_probability",
    "Verif.Freezer.C79_total",
    "Verif.Freezer.C79_failure",
    "Verif.Freezer.C79_freezer",
    "Verif.Freezer.C79_best",
    "Verif.Freezer.C79_list_float",
    "Verif.Freezer.C79_parity_float",
    "Verif.Freezer.C79_list_float_failure",
    "Verif.Freezer.C79_parity_float_failure",
    "Verif.Freezer.C79_failure_float",
    "Verif.Freezer.C79_list",
    "Verif.Freezer.C79_parity",
    "Verif.Freezer.C79_list_failure",
    "Verif.Freezer.C79_parity_failure"
   ],
   "note": "int8 (scalar and SIMD, portable back end), float and double for the decoder; the probabilities are those of exact arithmetic in any ordered field (the code computes with double, see C40 for what rounding does). The failure probabilities are stated for int8 (scalar), float and double. The list decoders: int8, float and double, rounding included; their probability is about the message being in a lane of metric 0 (lane 0 if nothing is lost)."
  },
  {
   "property": "C80",
   "status": "proved",
   "theorems": [
    "Verif.Hadamard.C80_hadamard",
    "Verif.Hadamard.C80_simplex",
    "Verif.OSD.C80_osd",
    "Verif.OSD.C80_osld",
    "Verif.ShortBCH.C80_soft_bch",
    "Verif.ShortBCH.C80_soft_bch_chase"
   ],
   "note": "int8 soft values for all decoders; -128 allowed where the decoders allow it."
  },
  {
   "property": "C81",
   "status": "proved",
   "theorems": [
    "Verif.LDPC.C81_decode",
    "Verif.LDPC.C81_spread",
    "Verif.LDPC.C81_lanes",
    "Verif.LDPC.C81_peeling",
    "Verif.LDPC.C81_rounds",
    "Verif.LDPC.C81_tables",
    "Verif.Targets.C81_targets"
   ],
   "note": "Based on C51: tables without repeated data bits that are fair for the word size (all tables of the test but A3 with AVX2). The bound on L offsets is sufficient, not necessary."
  },
  {
   "property": "C82",
   "status": "proved",
   "theorems": [
    "Verif.BCH.C82_bch",
    "Verif.BCH.C82_bch_reference",
    "Verif.Hadamard.C82_hadamard",
    "Verif.Hadamard.C82_simplex",
    "Verif.LDPC.C82_ldpc",
    "Verif.LDPC.C82_ldpc_small",
    "Verif.LDPC.C82_ldpc_saturation",
    "Verif.OSD.C82_osd",
    "Verif.OSD.C82_osl",
    "Verif.Polar.C82_polar",
    "Verif.Polar.C82_polar_simd",
    "Verif.Polar.C82_polar_float",
    "Verif.Polar.C82_polar_float_simd",
    "Verif.RS.C82_reed_solomon",
    "Verif.RS.C82_reed_solomon_errors",
    "Verif.ShortBCH.C82_short_bch_hard",
    "Verif.ShortBCH.C82_short_bch_soft",
    "Verif.ShortBCH.C82_short_bch_chase_asymmetric"
   ],
   "note": "Statements for one codeword added; a channel is symmetric if it acts on the signs alone. C82_short_bch_chase_asymmetric is the counterexample for the Chase algorithm. int8 soft values in [-127,127] (polar, short BCH); for float and double the rounding must be odd, which binary32_odd and binary64_odd show. C82_osd allows zeros where the codeword is 0 or off the most reliable basis. LDPC: C82_ldpc under a condition on message passing for the first word (no saturated sum), C82_ldpc_small under a condition on the soft values alone (magnitude plus 31 times the degree at most 127; data bits of degree up to 4), C82_ldpc_saturation shows that without a condition the values can differ by one. C82_osl: the list of the ordered statistics list decoder, ties included. Not covered: the polar list decoders."
  },
  {
   "property": "C83",
   "status": "proved",
   "theorems": [
    "Verif.SIMD.T.C83_arith",
    "Verif.SIMD.T.C83_saturating",
    "Verif.SIMD.T.C83_compare",
    "Verif.SIMD.T.C83_order",
    "Verif.SIMD.T.C83_bits",
    "Verif.SIMD.T.C83_moves",
    "Verif.SIMD.T.C83_select",
    "Verif.SIMD.T.C83_reference",
    "Verif.Targets.C83_float_compare",
    "Verif.Targets.C83_float_values",
    "Verif.Targets.C83_float_arith",
    "Verif.Targets.C83_float_sign"
   ],
   "note": "The loops over the lanes are modelled, with undefined signed overflow (`none`). C83_reference: where defined, the lanes are those of the lane functions that C52-C54 compare the back ends with. The theorems on float arithmetic assume a machine whose results are IEEE 754's (there is one: example)."
  },
  {
   "property": "C84",
   "status": "proved",
   "theorems": [
    "Verif.Trials.C84_gf_exhaustive",
    "Verif.Trials.C84_gf_exhaustive_checks",
    "Verif.Trials.C84_gf_block",
    "Verif.Trials.C84_gf_test",
    "Verif.Trials.C84_sort_test",
    "Verif.Trials.C84_sort_test_passes",
    "Verif.Trials.C84_comparisons",
    "Verif.Trials.C84_simd_sort_test",
    "Verif.Trials.C84_pf_test",
    "Verif.Trials.C84_pf_test_instances"
   ],
   "note": "std::sort and std::stable_sort are parameters: any functions that meet the standard's postcondition (shown to exist). The random numbers are arguments."
  }
 ]
}