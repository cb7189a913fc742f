# Formal model of aicodix/code in Lean 4 — design

## What is modelled and how

* Language: Lean 4.33 + selected Mathlib modules.  Everything is under `lean/Verif`.
* `Verif/Core.lean` — the C++ fragment: arrays are `List`s; a read/write outside the
  array, a failed `assert`, a division by zero or a non-terminating loop is the
  distinct outcome `none` of the `Option` monad ("UB").  `for` loops are the
  structural recursion `forUp`/`forDown`; `while` loops with non-obvious termination
  get fuel, and running out of fuel is `none`.  So a theorem of the form
  `model args = some r` also says: no out-of-bounds access, no failed assertion,
  termination.
* `Verif/<Comp>/Model.lean` — definitions that follow the C++ function by function;
  each cites file and lines.
* `Verif/<Comp>/Proof*.lean` — lemmas.
* `Verif/<Comp>/Props.lean` — the property theorems and non-vacuity examples, written
  against small independent specifications (mostly Mathlib notions: `AdjoinRoot`,
  `List.Perm`, `orderOf`, polynomials, Hamming distance, sums).

C++ `int` loop counters/indices are `Nat`/`Int`; where a product or sum could leave the range of
`int` (offsets in the Cauchy code, bounds in MergeSort, `int16_t` in OSD) the model checks it; fixed-width *data* (register values, `TYPE` storage, `int8_t`
soft values) is modelled with explicit width (`BitVec` or reduction mod 2^w) wherever
wrap-around could matter.

## Per-property plan

| id | model | proof |
|---|---|---|
| C01–C03 | CRC over `BitVec w`, LUT as list | xor-linearity of the bit update, induction over bits |
| C04,C05 | xorshift states as `BitVec`, step | GF(2)-linear map order: T^(2^n-1)=1 and T^((2^n-1)/p)≠1 checked by kernel evaluation of matrix powers, lifted by a lemma |
| C06,C07 | MLS register over `BitVec 32`/`Nat` | loop invariant; order of linear map |
| C08–C10 | bitman, Bitstream over byte lists | refinement to flat bit array |
| C11–C14 | exclusive_reduce, interleave, permute | loop invariants |
| C15–C17 | sorts over lists with comparator | refinement to a stable merge sort / uniqueness of the stable sort |
| C18–C20 | GF tables, Value/Index ops with storage width | isomorphism with `AdjoinRoot POLY` over `ZMod 2` |
| C21 | PrimeField over Nat with mod 2^w | `ZMod P` |
| C22–C26, C82 | RS encoder, syndromes, Berlekamp–Massey, location finder, Forney | polynomial/power series invariants, Massey-type degree argument |
| C27–C29 | BCH encoder/decoder, packed + reference | as RS, plus bit packing |
| C30–C32, C80, C82 | short BCH | xor polynomials, finite syndrome table, argmax loop invariant |
| C33,C34 | Hadamard/Simplex | FHT = character sums, by induction on K |
| C35–C40 | polar encoder/decoder/list/parity/freezer | induction over the tree |
| C41–C43 | Cauchy erasure codes | Cauchy inverse (Lagrange interpolation) |
| C44 | LDPC | index bookkeeping |
| C45–C47, C80 | OSD | row space/permutation invariants |
| C50,C51 | LDPC decoder's iteration against message passing on the graph (LDPC/SpecDec) | refinement of the register layout layer by layer; round-robin masks as iterates of a successor function |
| C48,C49 | rotate, PolarHelper | arithmetic |
| C52–C54 | every overload of the ten SIMD back end headers as a composition of intrinsics on `BitVec 128/256` registers (generated from the C++ text by tools/gen_simd.py); portable templates per lane (SIMD/Port); instructions per lane (SIMD/Lane, Intrin) | lane projection lemmas, then one lemma per instruction sequence and lane width; shuffle index arithmetic over all 256 index bytes |
| C55 | polar_helper.hh and the vector functions of ldpc_decoder.hh over an abstract target | the targets of C52–C54 are instances; lane functions of C44, C49–C51 |
| C56 | the models of C38/C39 | the node invariant of C38 carries the ordered list of (path, metric); a flattening lemma turns the recursion into the step list of SpecScl.lean |
| C57 | the models of C38/C39 | metric vs. disagreement by induction over the tree (min-sum penalties telescope until saturation); a full list never drops a finite path |
| C58 | the model of C37 | node induction for one lane; in a free block the signs of the soft values are the transform of the decisions |
| C59 | the models of C35, C37 over `Fl` (Float.lean), a floating point format with monotone rounding; Ieee.lean: binary32 and binary64 with rounding to nearest even are such | arithmetic with ±1 is exact; the node induction of C58 for any arithmetic whose `F` and `G` have the right signs |
| C60 | the coders of C35–C39 and C56–C58 over a table of vector operations (Targets/Model.lean: `Target`), one table per back end made of its overloads (C52–C55); stores to single lanes are `wrt` | simulation: every register of the target stands for a list of lanes, every step preserves it; then C35–C39, C56, C58 |
| C61 | LDPCDecoder over the same table of vector operations and the target's own `Rotate` (Targets/LdpcModel.lean) | simulation on the lanes in use (Targets/LdpcSim.lean), the rotations from their intrinsics (Targets/LdpcRot.lean); then C44, C50, C51 |
| C62 | the list decoders over `Fl` (Polar/FloatList.lean) | a simulation for any arithmetic (ListSim.lean) between lanes with maps and the textbook's paths (SpecSclOf.lean); stable pruning by C16; on the specification: the path of a sign-correct codeword stays in front with metric 0 (FloatClean.lean) |
| C63 | the same | on the specification with exact sums: penalties of a pair add up (`pair_costQ`), so a path's metric is the disagreement of its codeword (SclExact.lean); a grid on which the format adds exactly (SclGrid.lean); counting the paths below 1000000 for completeness |
| C64 | the model of C01 | `specBits` multiplies by `X` modulo the generator; division by a monic polynomial is unique; the orders from prime factors of the exponent and powers computed by squaring in the kernel |
| C65 | the models of C12 and C26 | a window meets every residue class modulo ORDER at most ceil(b/ORDER) times; then C26 |
| C66 | the model of C06 | multiplication by X is additive, its orbit from any non-zero register is all of them (C06, C07); sums over the orbit are sums over 1..2^n-1 |
| C67 | the coders over the floating point overloads of each back end (Targets/FloatModel.lean: `FTarget`), registers are bit patterns, Targets/FloatVal.lean says which number a pattern stands for; metrics, which are scalars, are values | simulation by the model of C62 made to give up on NaNs (the back ends differ on those), which changes nothing on finite values; then C37, C59, C62 |
| C68 | the loops of tests/polar_list_regression_test.cc around CRC, encoder and list decoder: CrcPolar/Model.lean | C03/C64 for the CRC of a message with its CRC, C35–C39, C56–C58 and C62 for the coders; the choice is a search for the first lane |
| C69 | the loop that builds the mask, the table of tests/sequence.h | loop invariant; table facts by kernel evaluation (the domain is the table itself), closure by adding one bit at a time; C36_iff; C40 for PolarSeqConst0 |
| C70 | static pointers LOG and EXP of every instantiation, objects at addresses, histories of constructions, copies, assignments, destructions and calls | invariant (pointers point to living objects of their class, all arrays are built tables, C18), refinement to the intended use for histories without copies, counting living objects |
| C71 | void* overloads on byte memory with a byte order, loops and random choices of crs_ and cpf_regression_test | bytes <-> symbols bijection, loop invariants over C41/C43, permutation invariant for the identifiers |
| C72 | one trial of rs_, bch_ and short_bch_code_regression_test: encoder, search for fresh positions, errors and erasures, decoder, comparisons | invariant of the search (positions struck are distinct and stored), decoder theorems C24–C28, C31; termination for fair sources; a pair excluded in C26 gives a failing draw |
| C73 | one trial of hadamard_, simplex_ and soft_bch_regression_test: encoder, noise, quantisation in floating point, decoder, counters (Trials/Channel.lean) | loops as maps and sums; rounding to nearest even is unique; decoder theorems C32–C34; monotone rounding for weak noise |
| C74 | one trial of polar_regression_test (Trials/Polar.lean) | the channel of C73, C35–C37 for the coders |
| C75 | one trial of osd_ and osld_regression_test (Trials/Osd.lean) | the channel of C73, C45–C47 and C27–C28 for the coders; the oracle's search as a loop invariant |
| C76 | the loop over the trials of ldpc_regression_test (Trials/Ldpc.lean) | the channel of C73, C44 for the coders; induction over the trials with the invariant that the extents of the arrays and of the decoder's members stay |
| C77 | one trial of polar_list_regression_test (Trials/List.lean) | the channel of C73, C35/C36/C39 for the encoders, C38/C39 for the decoders, C68 for the CRC; the number of parity symbols by induction over the positions |
| C78 | the model of C01 | differences with the same register are sums of powers of a root of the generator that vanish (C64); 0xD419CC15: the root has prime order 2^16 + 1, so its inverse is its conjugate, and at most four powers cannot cancel (Zetterberg); 0xC8DF352F: a root of degree 15 and its fifth power, at most four powers cannot cancel in both because cubes are injective, odd numbers by the factor X + 1; 0xA8F4: the syndromes of up to two errors, computed in the kernel, are pairwise different; longer strings: explicit words |
| C79 | the models of C35, C37, C40, C59; "lost" and the probability of a set of erased symbols are defined from the polar transform (Freezer/PropsBec.lean) | induction over the tree with flags for erased values: a check node is erased if one input is, a variable node if both are (laws of zero in polar_helper.hh); the flags at the leaves are the lost positions (involution of the transform); the mean over independent flags by the same recursion as the freezer's; union bound; lanes by a homomorphism; list decoder (PropsBecList.lean): the textbook list of C56 with the invariant that paths of metric 0 continue to an input that fits the symbols left, at most two per erased decision (one at parity symbols, for the parity-aided decoder); Markov's inequality; float and double (PropsBecFloat.lean): the same on the textbook list of C62, since rounding keeps signs and a rounded metric is 0 only if nothing was added |
| C80 | the models of C32–C34, C46, C47; "fits" and "no other codeword fits" are defined from the codewords alone (Hadamard/, ShortBCH/, OSD/PropsErase.lean) | the correlation with a received word is at most the sum of amplitudes, with equality exactly for words that fit; combined with the maximum likelihood theorems (C32–C34) and with C46/C47: the first word tested by the ordered statistics decoder fits because the basis determines every position that is left; if another codeword fits, flipping one erased position of the basis gives a second tested word that fits |
| C81 | the model of C44/C50/C51 and the message passing of LDPC/SpecDec.lean, to which C51 reduces the decoder; peeling is defined from the checks of the code alone (LDPC/EraseRun.lean `Within`, LDPC/PropsErase.lean `Peeled`) | invariant of a layer in the direction of the sent signs: messages are between 0 and 31 and not larger than what the check would send now, what a check hears of a variable is at least the received value plus the messages of the other checks, up to 96 (saturation cannot do harm because 127 - 31 - 64 > 31); hence values only grow. Peeling by induction over rounds with the check that found a symbol as its source; stopping sets stay 0 by a second invariant; the targets by the simulation of C61 (Targets/PropsLdpcErase.lean) |
| C82 | the models of C22–C26, C27–C29, C30–C35, C46, C59 | RS and BCH: syndromes of the word plus a codeword are those of the word (Horner evaluation is linear, RS/Shift.lean, BCH/Shift.lean), everything the decoder computes depends on the block through the syndromes, the corrections are added to the block; short BCH: syndromes for the hard decoder, for the soft one the maximum likelihood theorem (C32) and correlations with flipped signs; Hadamard and simplex codes likewise from C33, C34; ordered statistics: both runs use the same basis in the same order and the same rows, so every word visited is the former one plus the codeword (OSD/Shift.lean), and the list, which is determined by the correlations in the order of the visits with ties kept in this order (`LInv` stable, late), consists of the same visits (OSD/ShiftList.lean); polar: a relation "value with a symbol's sign applied" preserved by every operation of the tree walk (Polar/Shift.lean `ShiftLaws`), instances for saturating int8, lanes, and floats with odd rounding; LDPC: a layer of message passing (the specification of C51) commutes with the change of signs when no sum saturates (LDPC/Shift.lean) |
| C83 | the portable templates of simd.hh as loops over lists of lanes, promotion to `int`, undefined signed overflow (SIMD/Templates.lean) | loop rule; conversion of numbers that fit is the identity, otherwise modulo 2^w; floats by the value of a pattern (Targets/FloatVal.lean), arithmetic by `IsIeee` |
| C84 | one pass of sort_regression_test and simd_sort_regression_test, pf_test (Trials/Sort.lean), gf_test (Trials/Gf.lean); `std::sort` and `std::stable_sort` are arbitrary functions with the standard's postcondition | invariants of the filling loops, C15–C17, uniqueness of the stable sort; C21, and a divisor of PRIME has no reciprocal; C18–C20 |

## Trusted base

1. **Lean's kernel** (Lean 4.33.0) and the Mathlib definitions used in statements (`Polynomial`, `AdjoinRoot`, `ZMod`, `BitVec`,
   `List.Perm`, `orderOf`, `Function.minimalPeriod`, finite sums and products).  No theorem rests on compiled evaluation:
   concrete facts are checked by `decide +kernel`/`rfl`, i.e. by kernel reduction.
2. **Axioms.**  No axiom is declared in this project.  Checked with `#print axioms` over all manifest theorems: every one depends on a
   subset of `[propext, Classical.choice, Quot.sound]` (about nine in ten use all three, the rest `[propext, Quot.sound]`, `[propext]` or none).
   `tools/axioms.sh` reprints the list.
3. **The transcription** of the C++ text into `Verif/<Comp>/Model.lean`.  It was made by hand, function by function, each definition citing
   file and lines.  The places where the model is simpler than the code are said in the comment of the definition; the important ones are:
   * `int` loop counters, indices and sums are mathematical integers.  Where an overflow is conceivable the theorem either bounds the input
     so that the values fit (C33, C34), or the model checks the operation and an overflow is `none` (C17, C41, C43, C46, C71), or the note of the claim says so.
   * fixed width data (`uintN_t` registers, field elements in their storage type, `int8_t` soft values) have their width.
   * uninitialised memory and the previous contents of members are universally quantified inputs of the model.
   * `std::sort` (LDPC, Polar sequences, Cauchy) is any function that meets its contract.
   * `double` in the freezers is any arithmetic (`C40_freezer`, ...) and in addition IEEE binary64 with round-to-nearest-even, defined exactly
     over the rationals, for the statements about real doubles (`C40_double_*`).
   * `float` and `double` soft values of the polar encoder, SC decoder and list decoders (C59, C62, C63): NaN, infinities and the rationals of the format, with IEEE 754
     sums, products and comparisons; the two zeros are one value (nothing in that code tells them apart), multiply-add may be fused or not.
     C67 is about bit patterns and a machine arithmetic that is assumed to be IEEE 754's on their values (`IsIeee`).
   * SIMD: the portable templates of simd.hh, lane by lane; for the intrinsics used directly by rotate.hh and
     cauchy_reed_solomon_erasure_coding.hh, and for the back ends, the documented lane semantics of the intrinsics.
   * SIMD back ends: SIMD/Lane.lean and SIMD/Intrin.lean state what each intrinsic does (trusted, from the vendors' references); lane 0 is
     in the least significant bits and `v[k]` of a union of registers is lane `k % (N/w)` of `m[k / (N/w)]` (little endian).  Floats are IEEE
     754 bit patterns: comparisons, minimum, maximum, sign operations are exact; addition, subtraction, multiplication are an abstract unit
     that the scalar and vector instructions share.  The generator tools/gen_simd.py parses the headers; its output is what is proved about.
     Signed overflow of the portable 32 and 64 bit templates (undefined in C++) wraps in the model.
4. **The specifications** in the `Props*.lean` and `Spec.lean` files; these are what a reader has to read and believe.

## Modelled code

| file | model | claims |
|---|---|---|
| crc.hh | Crc/Model | C01–C03, C64, C78 |
| xorshift.hh | Xorshift/Model | C04, C05 |
| mls.hh | Mls/Model | C06, C07, C66 |
| bitman.hh, bitstream.hh | Bits/Model | C08–C10 |
| exclusive_reduce.hh | Reduce/Model | C11 |
| interleave.hh, permute.hh | Interleave/Model, Permute/Model | C12–C14, C65 |
| sort.hh, simd_sort.hh | Sort/Model | C15–C17 |
| galois_field.hh | GF/Model, GF/Life | C18–C20, C70 |
| prime_field.hh | PrimeField/Model | C21 |
| reed_solomon_encoder.hh, reed_solomon_decoder.hh, reed_solomon_error_correction.hh | RS/Model | C22–C26 |
| bose_chaudhuri_hocquenghem_encoder.hh, ..._decoder.hh | BCH/Model | C27–C29, C82 |
| short_bch_code_encoder.hh, ..._decoder.hh | ShortBCH/Model | C30–C32, C80 |
| hadamard_*.hh, simplex_*.hh | Hadamard/Model | C33, C34, C80, C82 |
| polar_encoder.hh, polar_decoder.hh, polar_list_decoder.hh, polar_parity_aided.hh | Polar/Model*, Polar/Float, Polar/FloatList, Targets/Model, Targets/FloatModel | C35–C39, C56–C60, C62, C63, C79, C82, C67 |
| polar_freezer.hh, polar_sequence.hh | Freezer/Model | C40, C69, C79 |
| tests/polar_list_regression_test.cc (mask, message with CRC, choice of a lane), tests/sequence.h | CrcPolar/Model, CrcPolar/Table | C68, C69 |
| cauchy_reed_solomon_erasure_coding.hh, tests/crs_regression_test.cc | Cauchy/Model*, Cauchy/Bytes | C41, C42, C71 |
| cauchy_prime_field_erasure_coding.hh, tests/cpf_regression_test.cc | CauchyPF/Model, Cauchy/Bytes | C43, C71 |
| tests/rs_regression_test.cc, tests/bch_regression_test.cc, tests/short_bch_code_regression_test.cc (one trial) | Trials/Model | C72 |
| tests/sort_regression_test.cc, tests/simd_sort_regression_test.cc (one pass), tests/pf_test.cc, tests/gf_test.cc | Trials/Sort, Trials/Gf | C84 |
| tests/hadamard_regression_test.cc, tests/simplex_regression_test.cc, tests/soft_bch_regression_test.cc, tests/polar_regression_test.cc, tests/osd_regression_test.cc, tests/osld_regression_test.cc, tests/polar_list_regression_test.cc (one trial), tests/ldpc_regression_test.cc (the trials) | Trials/Channel, Trials/Polar, Trials/List, Trials/Osd, Trials/Ldpc | C73–C77 |
| ldpc_encoder.hh, ldpc_decoder.hh | LDPC/Model, Targets/LdpcModel | C44, C50, C51, C61, C81, C82 |
| osd.hh | OSD/Model | C45–C47, C80, C82 |
| rotate.hh, polar_helper.hh | Rotate/Model, PolarHelper/Model, SIMD/Helper, Targets/LdpcModel | C48, C49, C55, C61 |
| simd.hh (templates with their loops; lane functions for the comparison with the back ends) | SIMD/Templates, SIMD/Port | C52–C55, C83 |
| sse4_1*.hh, avx2*.hh, neon*.hh | SIMD/Sse*, Avx*, Neon* | C52–C55 |

## Not modelled

* Compiler, CPU, memory layout beyond array indices, alignment, exceptions, `std::ostream` output, debugging code under `if (0)`/`#if 0`.
* `assert` is modelled (failure = `none`); builds with `NDEBUG` behave the same wherever a theorem shows the result is `some`.
* tests/: except for the frames and trials of C68, C69, C71–C77 and C84 and the assertions of tests/crc_test.cc (run in Crc/PropsDist.lean), only as a source of parameters (codes, tables) for which hypotheses are shown to hold.

## Findings about the code

1. The RS/BCH decoders can return 0 ("no error") for a word that is no codeword: C25_zero_on_noncodeword.
2. `ArtinSchreier` skips the x with x^2+x = all ones; in GF(2^15) 0x802D, GF(2^16) 0x1100B and 0x1002D of the tests, some correctable
   two-symbol patterns are rejected (C26_affected, C26_failure, C26_witness); GF(2^4), GF(2^7), GF(2^8), GF(2^14) of the tests are not affected.
3. PolarParityDecoder with `first == 0` writes message[-1] and maps[-1] (C39_first_zero); PolarListDecoder with everything frozen reads
   maps[-1] (C38_all_frozen); with the last position frozen the lanes are not sorted (C38_last_frozen).  The phantom/forbidden metric 1000000
   is not larger than every accumulated metric for very long codes.
4. ShortBCH soft decoder, K > 4: the list of least reliable positions degenerates when position 0 is weakest (C32_chase_list_degenerate).
5. OSD: the tie flag is wrong exactly when the re-encoded hard decisions are best with negative correlation (C46_missed_tie, C46_false_tie); the
   list decoder leaves entries unwritten if fewer than L tested words have correlation above -1 (C47_unfilled).
6. GaloisFieldReference::rcp uses a 32-bit count of leading zeros and is wrong for M > 32 (C20_rcp_clz_limit).
7. The BCH encoder constructor may ask for bit -1 of its generator (harmless because `-1/8 == 0`: C08_small_negative); the Reference encoder and
   the OSD generator with an additional constant polynomial access their arrays out of bounds (C27_reference_constant, C45_constant).
8. CRC: uniqueness of the residue and burst detection need the top bit of the polynomial (C03_top_bit_needed).
9. PolarHelper: scalar and SIMD `madd`/`qadd` disagree at -128 (C49_madd_minus128_differs).
10. Cauchy prime field: no overflow only because the factors of a denominator are distinct (C43_margin).
11. Hadamard decoder for K = 1 would read uninitialised sum[0]; sums overflow `int` only from K = 25 (Hadamard) or 24 (simplex) on.
12. Polar encoders with level 0 write codeword[1] (C35_level_zero); the systematic encoder needs a domination closed set (C36_closure_needed).
13. Polar freezers in double precision: from length 256 on with the default probability, index 0 gets 1-2^-53 while index 2 gets 1.0, so the sets
    are not domination closed for extreme K (C40_double_order, C40_double_not_closed).
14. LDPC decoder: the mask `wd` of links that may write is rotated group by group, but a last group with a single link is merged with the group
   before it. For DVB_T2_TABLE_A3 with AVX2 (30 lanes) this happens: two links write the same register (one update is lost) and the single one
   pauses (C51_a3, C51_unfair). For tables with shared registers the result depends on earlier calls on the object (C51_history).
15. `vshuf` with an index outside the vector: the portable template and NEON return 0, SSE4.1 and AVX2 select a lane modulo 16 or 8 for a part of
   the index range (C52_vshuf_index, C53_vshuf_index, C53_vshuf_index_8).  The list decoders only use indices that name a lane.
16. Float vectors: `vsignum(NaN)` is +-1 in the back ends and 0 in the portable template; `vmin`/`vmax` with a NaN or with zeros of both signs
   differ between targets (C52_vsignum_nan, C52_vmin_nan, C52_vmin_zero, C54_vsignum_nan).
17. `vclamp` on `int64_t` in avx2.hh and avx2_double.hh uses intrinsics that need AVX-512VL; it does not compile for plain AVX2 once called.
18. Polar SC decoder: on a soft value of 0 the decision is the symbol 0, and a block without frozen positions that is decided at once keeps the signs of
    its soft values where leaf by leaf decoding would keep products with that 0; later decisions then differ (example in Polar/PropsSct.lean).
19. tests/sequence.h: with 1 to 25 of its positions frozen the information set is not closed and `PolarSysEnc` does not put every message at the
    positions that are not frozen (C69_table_systematic); the tests freeze 308.
20. `GaloisField` can be copied, and nothing warns about it: the copy constructor does not touch the static pointers, but the destructor of the copy sets
    them to null, so that the original can no more be used nor destroyed (C70_copies, C70_copy_never, C70_destroy).
21. Sizes: `block_len * k` in the Cauchy Reed-Solomon code is an `int` product and overflows from an offset of 2^31 symbols on, although the pointers could be
    64 bits wide (C41_overflow); MergeSort overflows `int` above 2^30 elements or with a run length above that (C17_overflow); the permutation of OSD is an array of
    `int16_t`, so codes longer than 32768 do not work (C46_int16).
22. tests/rs_regression_test.cc, third part, can fail although the decoder does what it was designed for: if all but two of the drawn values equal the symbols already
    there and the two remaining positions are an excluded pair, `assert(ret >= 0)` fails (C72_rs_can_fail).  The first two parts and all BCH and short BCH tests cannot (C72_rs_passes, C72_bch_tests, C72_short_tests).
23. tests/polar_regression_test.cc:148 `awgn_errors += noisy[i] * (orig[i] < 0)` adds up the received values of the symbols -1 instead of counting wrong signs (the parentheses are
    misplaced): without noise the sum is negative (C74_polar_weak).  The value is printed only in a disabled branch.
    tests/polar_list_regression_test.cc:208 has the same line.
24. tests/ldpc_regression_test.cc:561-562 binds copies of `generator`, which itself never advances: every pass of the loop over SNR draws the same bits and the same
    normal variates (scaled).  C76 quantifies over all draws, so that this does not matter for it; it is a remark on what the test covers, found by reading.
25. tests/polar_list_regression_test.cc:81: with `crc_aided`, `F = K % (S + 1)` is 0 if `K` is a multiple of `S + 1`; the parity decoder then accesses `message[-1]` (C39_first_zero,
    C77_parity_numbers).  The constants of the test (K = 716, S = 32) avoid it.
26. Portable `vneg` and `vabs` of the least 32 or 64 bit number, and overflowing `vadd`, `vsub`, `vmul`, `vsign` there, are undefined where the instructions of the back ends wrap
    (C83_arith); `vzero` computes its zeros from an uninitialised variable.
