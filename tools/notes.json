{
 "C01": {
  "note": "every history of public calls refines the bit-serial register machine, all widths >= 8"
 },
 "C02": {
  "note": "all widths, all polynomials with top bit set"
 },
 "C03": {
  "note": "converse of the residue needs the polynomial's top bit (witness C03_top_bit_needed)"
 },
 "C22": {
  "note": "every primitive field of degree >= 2 with built tables, every NR, FCR, data length"
 },
 "C23": {
  "note": "MDS distance, systematic uniqueness"
 },
 "C24": {
  "note": "every error/erasure pattern with 2e+rho<=NR except exactly the two-position patterns of Excluded (the value skipped by ArtinSchreier, see C26); without exception for the four unaffected test fields"
 },
 "C25": {
  "note": "contract on arbitrary words; validity condition characterised by linear recurrences; witness that 0 is returned for a non-codeword"
 },
 "C26": {
  "note": "shortcut = exhaustive search except one value; the exception is real for GF(2^15) 0x802D, GF(2^16) 0x1100B and 0x1002D (witness), absent for GF(2^4), GF(2^7), GF(2^8), GF(2^14) of the tests"
 },
 "C27": {
  "note": "every N, K and list of positive polynomials of total degree N-K; packed and Reference encoders agree; Reference with a trailing constant polynomial is undefined (C27_reference_constant)"
 },
 "C28": {
  "note": "every pattern with 2e+rho<=NR except exactly the patterns of Excluded; hypotheses shown for the six codes of the tests (C28_test_codes)"
 },
 "C29": {
  "note": "contract on arbitrary words for packed and Reference decoders, validity characterised by linear recurrences"
 },
 "C41": {
  "note": "All fields built by the table constructor, any M, w, block length/count, any set and order of distinct ids, any build (scalar, NEON, SSE, AVX2), any buffers and member contents. int products are checked: C41_overflow shows that the restriction on the offset is exact. The value_type* overloads are the same call, the void* overloads are in C71."
 },
 "C42": {
  "note": "Register-level model of the table-lookup kernels (byte shuffles, packing, nibble splitting) for the three instruction sets; equality with the scalar loop for all multipliers and arrays."
 },
 "C43": {
  "note": "Any prime >= 5 whose width satisfies (P-1)^2(P-2)(P-3) < 2^w; both configurations of the claim are instances. Overflow is modelled (arithmetic modulo 2^w) and shown not to happen."
 },
 "C33": {
  "note": "K from 2 to 24 (the range in which int cannot overflow for soft values in [-128,127]); maximum likelihood incl. ties, unrolled = generic, encoder output, correction of flips/erasures, round trip."
 },
 "C34": {
  "note": "K from 1 to 23; maximum likelihood incl. ties, unrolled = generic, encoder output, correction of flips/erasures, round trip."
 },
 "C30": {
  "note": "Params: 1<=K<=N<=31, K<=30, N-K<=15, G of degree N-K; codewords = multiples of G."
 },
 "C31": {
  "note": "Sound and complete for any G (returns -1 iff no codeword within T); unique correction if minimum distance >= 2T+1; the BCH bound for any generator with consecutive roots in GF(2^M) (C31_bch_bound), minimum distance 7 for all four codes of the tests."
 },
 "C32": {
  "note": "Maximum likelihood for K<=4; for K>4 (Chase): error free input decodes, result is -1 or a codeword at least as good as every tested candidate; the strictly best codeword is returned if it is a candidate (C32_chase_best), always if at most T signs are wrong (C32_radius, C32_corrects); the list of least reliable positions degenerates when position 0 is weakest (C32_chase_list_degenerate). hard << (31-i) is taken to wrap."
 },
 "C44": {
  "note": "every well-formed table (the four DVB-T2 tables of the tests are proved well-formed for both word sizes), every history of the decoder object, any std::sort; return value non-negative iff the output is a codeword"
 },
 "C46": {
  "note": "every full-rank 0/1 generator matrix, order, soft input and earlier member contents; search set characterised without the model (most reliable basis by reliability order). Return value exact, including the two cases in which it is wrong (C46_missed_tie, C46_false_tie). Correlations are mathematical integers (int cannot overflow for N < 2^24). int16_t of the permutation is modelled: C46_int16 (N <= 32768 is exact)."
 },
 "C47": {
  "note": "every full-rank 0/1 generator matrix, order, list length, soft input, buffers and earlier member contents. Words with negative correlation are not listed (score starts at -1): C47_unfilled shows the effect."
 },
 "C45": {
  "note": "every N >= K >= 1, every list of odd polynomials of positive degree with total degree N-K; both matrices, encoder on any 0/1 matrix, agreement with the packed BCH encoder of C27, round trip through the OSD decoder of C46. An extra constant polynomial reads genpoly[-1] (C45_constant)."
 },
 "C50": {
  "note": "every well-formed table that spreads over the lanes (DVB-T2 A1, A3, A6 with SSE/NEON), BETA 0..64, every history, any std::sort. The independent specification is LDPC/SpecDec.lean."
 },
 "C51": {
  "note": "every well-formed fair table (the four DVB-T2 tables with SSE/NEON, all but A3 with AVX2). C51_a3 and C51_unfair: the A3/AVX2 turn mask bug. C51_history: the same input decoded twice gives different results."
 },
 "C52": {
  "note": "one theorem per header and lane type, a conjunct per overload (512 overloads). Model generated from the C++ text by tools/gen_simd.py. Float addition, subtraction and multiplication are an abstract unit shared by scalar and vector instructions; vsign on floats for any multiplication obeying IEEE 754 for factors 1, -1, 0, finite a, non-NaN b, up to the sign of zero. The exceptions are theorems too (C52_vshuf_index, C52_vsignum_nan, C52_vmin_nan, C52_vmin_zero)."
 },
 "C53": {
  "note": "as C52, 262 overloads; exceptions C53_vshuf_index, C53_vshuf_index_8. vclamp on int64_t uses _mm256_min_epi64/_mm256_max_epi64, which are AVX-512VL and not AVX2."
 },
 "C54": {
  "note": "as C52, 426 overloads, both preprocessor variants of vshuf; FMIN/FMAX propagate NaN and order -0 below +0."
 },
 "C55": {
  "note": "for any target whose functions meet Ops.Ok, which C55_backends proves for all twelve. vmul on x86 is the portable template."
 },
 "C56": {
  "note": "specification SpecScl.lean works on whole paths. level <= MAX_M <= 16 and at least one free position (C38_all_frozen shows the need). std::sort/insertion order is the model of C38/C39."
 },
 "C57": {
  "note": "saturation of the soft values makes the metric a lower bound only (example in PropsMl.lean: metric 127, disagreement 3200), so the maximum likelihood claim needs a codeword with disagreement below 127."
 },
 "C58": {
  "note": "an example shows that the claim fails when a decision is made on a soft value of 0: the rate-1 shortcut then keeps other partial sums than the textbook."
 },
 "C59": {
  "note": "the format is any `Rounding` (monotone, exact on its numbers, closed under negation and doubling); Ieee.lean proves this for binary32 and binary64 with ties to even. Signed zeros are merged. Vector lanes by the portable templates. An example shows that without the bound infinities of opposite sign can meet (NaN)."
 },
 "C60": {
  "note": "Targets/Model.lean writes the coders over the overload table of C52-C55 (`Target`), so each vector operation is the back end's; stores to single lanes (`reg.v[k] = x`) are `wrt`, whose behaviour on the back ends is that of an array."
 },
 "C61": {
  "note": "Targets/LdpcModel.lean writes the decoder over the overload table of C52-C55 and each target's Rotate (byte shifts, shuffles, permutes as in rotate.hh); the bookkeeping without vectors (tables, write disable masks) is that of LDPC/Model.lean. The portable target is taken with 16 lanes."
 },
 "C62": {
  "note": "Polar/FloatList.lean; specification SpecSclOf.lean with fadd/penaltyQ (FloatFork.lean), parityF (FloatParSim.lean). The format is any `Rounding` that holds 1000000 (binary32 and binary64 do). An example shows that infinite soft values can make a metric a NaN. Vector lanes by the portable templates."
 },
 "C63": {
  "note": "The counterpart of C57 without saturation. Soft values that do have to be rounded are C62 only (the list is determined, its metrics are rounded sums)."
 },
 "C65": {
  "note": "The Reed-Solomon part is for the four fields for which C26 is proved complete."
 },
 "C67": {
  "note": "The arithmetic of the machine is a parameter (`Fpu`) assumed to round as IEEE 754 says (`IsIeee`: values up to the sign of zeros and the kind of NaN); an arithmetic that meets it is shown to exist for float and double. The intrinsics are those of C52-C55. Metrics are modelled by their values. The scalar multiplications are by +-1, so contracting them into fused operations changes nothing."
 },
 "C68": {
  "note": "The frame of tests/polar_list_regression_test.cc, over the models of C01, C35-C39, C62. The random data are an argument; modulation, noise and statistics are not modelled."
 },
 "C69": {
  "note": "The loops of the test that build the mask, and the table copied from tests/sequence.h. PolarSeqConst0 in exact arithmetic; with doubles the order fails (C40)."
 },
 "C70": {
  "note": "The static pointers of each instantiation and the objects they point to. Addresses are numbers; an object lives at one address; the implicit copy constructor and assignment copy the arrays and leave the statics. index and value stand for all operations on the tables. Exceptions and threads are not modelled."
 },
 "C17": {
  "note": "int sums are checked; C17_overflow shows what happens above 2^30 elements."
 },
 "C71": {
  "note": "The byte order is a parameter; alignment and instruction set are chosen per call. The random draws of the tests are arbitrary functions into the ranges of their distributions."
 },
 "C72": {
  "note": "Random draws are arbitrary functions into the ranges of the distributions; the search for a fresh position is cut off after a number of steps, and the theorems hold from some number on if every position keeps coming (Fair). The loop over the trials and the number of trials are not modelled: the theorems are about one trial. lines 32-33 of the RS test (const data unchanged) are left out."
 },
 "C73": {
  "note": "Noise values are arbitrary finite numbers, the factor is a positive number; the arithmetic is that of any format with monotone rounding (Rounding: binary32 and binary64 are instances). Random data below 2^K. The loops over SNR and trials and the final averages are not modelled: the theorems are about one trial. The compiler may keep excess precision or contract a product and a sum, which is not modelled."
 },
 "C74": {
  "note": "Noise values are arbitrary finite numbers, the factor is a number other than 0; the arithmetic is that of any format with monotone rounding (Rounding: binary32 and binary64 are instances). The loops over SNR and trials and the final averages are not modelled: the theorems are about one trial. The compiler may keep excess precision or contract a product and a sum, which is not modelled."
 },
 "C75": {
  "note": "Noise values are arbitrary finite numbers, the factor is a number other than 0; the arithmetic is that of any format with monotone rounding (Rounding: binary32 and binary64 are instances). The loops over SNR and trials and the final averages are not modelled: the theorems are about one trial. The compiler may keep excess precision or contract a product and a sum, which is not modelled."
 },
 "C76": {
  "note": "Noise values are arbitrary finite numbers, the factors numbers other than 0; the arithmetic is that of any format with monotone rounding (Rounding; the test uses float). The computation of the factors from the SNR, the measurement of time and the final minimum are not modelled. The compiler may keep excess precision or contract a product and a sum, which is not modelled."
 },
 "C77": {
  "note": "int8_t symbols (the branch of the test that is compiled); L up to 256 lanes. Noise values are arbitrary finite numbers, the factor is a number other than 0; the arithmetic is that of any format with monotone rounding. The loops over SNR and trials, the measurement of time and the final averages are not modelled: the theorems are about one trial on arrays and a CRC object with arbitrary history."
 },
 "C79": {
  "note": "int8 (scalar and SIMD, portable back end), float and double for the decoder; the probabilities are those of exact arithmetic in any ordered field (the code computes with double, see C40 for what rounding does). The failure probabilities are stated for int8 (scalar), float and double. The list decoders: int8, float and double, rounding included; their probability is about the message being in a lane of metric 0 (lane 0 if nothing is lost)."
 },
 "C80": {
  "note": "int8 soft values for all decoders; -128 allowed where the decoders allow it."
 },
 "C81": {
  "note": "Based on C51: tables without repeated data bits that are fair for the word size (all tables of the test but A3 with AVX2). The bound on L offsets is sufficient, not necessary."
 },
 "C82": {
  "note": "Statements for one codeword added; a channel is symmetric if it acts on the signs alone. C82_short_bch_chase_asymmetric is the counterexample for the Chase algorithm. int8 soft values in [-127,127] (polar, short BCH); for float and double the rounding must be odd, which binary32_odd and binary64_odd show. C82_osd allows zeros where the codeword is 0 or off the most reliable basis. LDPC: C82_ldpc under a condition on message passing for the first word (no saturated sum), C82_ldpc_small under a condition on the soft values alone (magnitude plus 31 times the degree at most 127; data bits of degree up to 4), C82_ldpc_saturation shows that without a condition the values can differ by one. C82_osl: the list of the ordered statistics list decoder, ties included. Not covered: the polar list decoders."
 },
 "C83": {
  "note": "The loops over the lanes are modelled, with undefined signed overflow (`none`). C83_reference: where defined, the lanes are those of the lane functions that C52-C54 compare the back ends with. The theorems on float arithmetic assume a machine whose results are IEEE 754's (there is one: example)."
 },
 "C84": {
  "note": "std::sort and std::stable_sort are parameters: any functions that meet the standard's postcondition (shown to exist). The random numbers are arguments."
 }
}