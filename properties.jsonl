{"id": "C01", "title": "CRC byte update equals eight bit updates", "statement": "For a CRC object of any register width of at least 8 bits (including the specialised 8-bit one), feeding a byte leaves the register in exactly the state obtained by feeding its eight bits one at a time, least significant first; feeding a 16/32/64-bit word equals feeding its bytes in little-endian order. The return value is always the new register.", "quantifier": "every register width >= 8, polynomial, register state, data value, and every sequence of updates", "why_tests_cant": "2^W states times 2^W polynomials times all data; the tests check five literals", "anchors": ["crc.hh: CRC::CRC, CRC::update, CRC::operator()"]}
{"id": "C02", "title": "CRC detects every error burst up to the register width", "statement": "If the polynomial has its most significant register bit set, two bit strings of equal length that differ, and whose differences all lie inside a window of at most W consecutive bits (W = register width), end in different CRC values when started from the same register value.", "quantifier": "every width, polynomial with top bit set, start value, and pair of equal-length bit strings differing within one window of W bits", "why_tests_cant": "unbounded message lengths and all burst patterns", "anchors": ["crc.hh: CRC::update, CRC::operator()(bool)"]}
{"id": "C03", "title": "CRC self-check residue and linearity", "statement": "Feeding the current CRC value back in as a data word of the register's own width drives the register to zero, from any history; conversely a message followed by a word w of that width ends at zero only if w was the CRC of the message. The CRC register is an affine (xor-linear) function of start value and message bits.", "quantifier": "every polynomial, start value and message, widths 8, 16, 32, 64", "why_tests_cant": "all messages of all lengths", "anchors": ["crc.hh: CRC::operator()(uint8_t/uint16_t/uint32_t/uint64_t)"]}
{"id": "C04", "title": "Xorshift generators are reversible and never get stuck at zero", "statement": "For Xorshift32, Xorshift64, Xorshift128 and Xorwow, one call is a bijection on the internal state; for the three pure xorshifts a generator seeded with a non-zero state never reaches the all-zero state; reset(seed) makes the object produce exactly the sequence a fresh object with that seed produces, whatever happened before.", "quantifier": "every state and every number of calls", "why_tests_cant": "2^32 .. 2^192 states", "anchors": ["xorshift.hh: Xorshift32, Xorshift64, Xorshift128, Xorwow"]}
{"id": "C05", "title": "Xorshift generators have full period", "statement": "From every non-zero state Xorshift32, Xorshift64 and Xorshift128 return to that state for the first time after exactly 2^32-1, 2^64-1 and 2^128-1 calls respectively. Xorwow with any of its five xorshift words non-zero returns to its state for the first time after exactly 2^192-2^32 calls (with all five zero: 2^32).", "quantifier": "every non-zero seed", "why_tests_cant": "running 2^128 steps is impossible", "anchors": ["xorshift.hh: Xorshift32::operator(), Xorshift64::operator(), Xorshift128::operator(), Xorwow::operator()"]}
{"id": "C06", "title": "MLS::bad() decides maximal length", "statement": "For every polynomial of degree n (1 <= n <= 30) and start register 0 < r < 2^n, bad(r) returns false exactly when the register sequence started at r returns to r for the first time after exactly 2^n-1 steps; and the register stays below 2^n throughout. reset(s) after any history of calls makes the object equal to a new one with the same polynomial and register s (1 by default).", "quantifier": "every polynomial of degree 1..30 and every start register", "why_tests_cant": "2^30 polynomials times 2^30 registers", "anchors": ["mls.hh: MLS::bad, MLS::hibit, MLS::operator()"]}
{"id": "C07", "title": "Default MLS visits every non-zero register exactly once per period", "statement": "The default MLS object has period exactly 2^20-1 from every non-zero start register, hence visits every non-zero 20-bit register value exactly once per period, and outputs exactly 2^19 ones per period.", "quantifier": "every non-zero start register", "why_tests_cant": "needs the whole cycle structure", "anchors": ["mls.hh: MLS::MLS, MLS::operator()"]}
{"id": "C08", "title": "Bit get/set/xor on byte arrays", "statement": "For big-endian and little-endian variants: after set(pos, v), get(pos) returns v; after xor(pos, v), get(pos) returns the old bit xor v; every other bit position of the array keeps its value; the array is accessed exactly at byte pos/8, so a call is in bounds exactly when 0 <= pos < 8*length.", "quantifier": "every array, position and value", "why_tests_cant": "all arrays and positions", "anchors": ["bitman.hh: xor_be_bit, xor_le_bit, set_be_bit, set_le_bit, get_be_bit, get_le_bit"]}
{"id": "C09", "title": "Bitstream write-then-read round trip", "statement": "After writebits(b, n) at position p, seeking back to p and readbits(n) returns the low n bits of b and both leave the position at p+n; the same for putbit/getbit, putbyte/getbyte and writebytes/readbytes with the identical value.", "quantifier": "every buffer content, position (aligned or not), width n up to the value type's width, and value", "why_tests_cant": "all positions, lengths and contents", "anchors": ["bitstream.hh: Bitstream::writebits, readbits, putbit, getbit, putbyte, getbyte, writebytes, readbytes"]}
{"id": "C10", "title": "Bitstream operations refine one flat little-endian bit array", "statement": "Every Bitstream operation acts on the abstract bit array (bit i = bit i%8 of byte i/8) as the obvious bit-array operation: a write of n bits at p replaces bits p..p+n-1 and nothing else, a read returns bits p..p+n-1 and changes nothing; byte-wise and bit-wise operations can be freely mixed; no byte outside the buffer is touched whenever p+n <= 8*BYTES.", "quantifier": "every sequence of operations that stays within the buffer", "why_tests_cant": "arbitrary operation histories", "anchors": ["bitstream.hh: Bitstream"]}
{"id": "C11", "title": "exclusive_reduce excludes exactly one element", "statement": "For an associative and commutative operator and N >= 2, output i is the reduction of all inputs except input i; the input array is not modified and no element outside 0..N-1 is accessed.", "quantifier": "every N >= 2, every input, every associative commutative operator", "why_tests_cant": "all N, inputs and operators", "anchors": ["exclusive_reduce.hh: exclusive_reduce"]}
{"id": "C12", "title": "Interleave and Deinterleave are inverse permutations", "statement": "For every ORDER dividing SIZE, Deinterleave(Interleave(x)) = x and Interleave(Deinterleave(x)) = x, and each is a permutation of the SIZE elements, element k of the input landing at ORDER*(k % LENGTH) + k / LENGTH.", "quantifier": "every SIZE, ORDER with ORDER | SIZE, every array", "why_tests_cant": "all sizes and orders", "anchors": ["interleave.hh: Interleave, Deinterleave"]}
{"id": "C13", "title": "ReverseFisherYatesShuffle undoes FisherYatesShuffle", "statement": "Applying the shuffle and then the reverse shuffle (or the other order) to an array of SIZE elements returns the original array; the shuffle is a permutation and every index drawn stays in bounds. It is the shuffle of Fisher and Yates with the numbers of Xorshift32 from its default seed, each reduced modulo the number of elements left; for other generators every arrangement comes from exactly one sequence of reduced draws.", "quantifier": "every SIZE >= 1 and every array", "why_tests_cant": "all sizes", "anchors": ["permute.hh: FisherYatesShuffle, ReverseFisherYatesShuffle"]}
{"id": "C14", "title": "BitReversalPermute reverses index bits", "statement": "For SIZE = 2^k the element at index i ends at the index whose k-bit binary expansion is reversed; hence it is an involution and a permutation; all accesses are in bounds and the inner loop terminates.", "quantifier": "every k >= 0 and every array", "why_tests_cant": "all sizes", "anchors": ["permute.hh: BitReversalPermute"]}
{"id": "C15", "title": "insertion_sort is a correct stable sort", "statement": "After insertion_sort(a, n, comp) with a strict weak order the array is sorted, is a permutation of the input, and equivalent elements keep their original relative order; no access outside 0..n-1.", "quantifier": "every array, length and strict weak order", "why_tests_cant": "all arrays and orders", "anchors": ["sort.hh: insertion_sort"]}
{"id": "C16", "title": "Index-tracking insertion_sort returns the sorting permutation", "statement": "insertion_sort(p, a, n), n >= 1, sorts a stably and leaves in p the permutation with sorted[j] = original[p[j]]; among equal keys p is increasing.", "quantifier": "every array of length >= 1", "why_tests_cant": "all arrays", "anchors": ["sort.hh: insertion_sort(INDEX*, TYPE*, int)", "simd_sort.hh: vorder, vsort"]}
{"id": "C17", "title": "MergeSort is a correct stable sort", "statement": "MergeSort sorts any n <= MAX_N elements with any strict weak order, for every run length M >= 1 (n and M up to 2^30, so that no int overflows; just above that it does), stably and as a permutation (i.e. it equals the unique stable sort), terminating and touching only a[0..n-1] and tmp[0..MAX_N-1].", "quantifier": "every n <= MAX_N, array, strict weak order and run length M >= 1", "why_tests_cant": "all arrays, lengths, orders and run lengths", "anchors": ["sort.hh: MergeSort::operator(), MergeSort::merge"]}
{"id": "C18", "title": "GaloisField tables are built exactly for primitive polynomials", "statement": "Constructing the tables for a degree-M polynomial POLY passes all its assertions if and only if x has multiplicative order 2^M-1 in GF(2)[x]/(POLY) (POLY is primitive); then log and exp are mutually inverse between {0..2^M-2} and the non-zero values.", "quantifier": "every M >= 1, every polynomial of degree M", "why_tests_cant": "all degrees and polynomials", "anchors": ["galois_field.hh: GF::Tables"]}
{"id": "C19", "title": "GaloisField value and index arithmetic is the field GF(2)[x]/(POLY)", "statement": "With successfully built tables, value addition, subtraction, negation, multiplication, division, reciprocal, fma and all mixed Index/Value overloads compute the operations of the quotient ring GF(2)[x]/(POLY), which is a field; results always satisfy the range assertions; no result is affected by wrap-around of the storage type, for every storage width >= M.", "quantifier": "every M, primitive POLY, storage width >= M and all operands", "why_tests_cant": "all fields; 2^32 operand pairs even for one 16-bit field", "anchors": ["galois_field.hh: GF::Value, GF::Index, operator*, operator/, rcp, fma, index, value"]}
{"id": "C20", "title": "GaloisFieldReference agrees with the quotient ring", "statement": "The bit-serial product equals multiplication in GF(2)[x]/(POLY) for every degree-M polynomial; for irreducible POLY of degree at most 32 (beyond that the 32-bit degree computation breaks) and non-zero a, rcp terminates and returns the inverse, and a/b*b = a; so table and reference implementations agree on every operand.", "quantifier": "every M and POLY (M <= 32 for rcp and division), all operands", "why_tests_cant": "all fields and operands; termination for every input", "anchors": ["galois_field.hh: GaloisFieldReference, operator*, rcp, operator/"]}
{"id": "C21", "title": "Prime field arithmetic is arithmetic modulo P", "statement": "For prime P with (P-1)^2 representable in TYPE, reduced operands give reduced results of +, -, unary -, *, /, pow and rcp equal to the corresponding operations in Z/P; rcp of a non-zero element times it is 1.", "quantifier": "every prime P and TYPE wide enough, all reduced operands", "why_tests_cant": "all primes and operands", "anchors": ["prime_field.hh: PrimeField, reduce, add, sub, mul, pow, rcp, div"]}
{"id": "C22", "title": "Reed-Solomon encoder emits codewords", "statement": "For every data block of 1..K symbols the encoder's parity makes data followed by parity a polynomial that vanishes at all NR roots pe^FCR..pe^(FCR+NR-1): compute_syndromes reports zero non-zero syndromes; data is not modified and no access leaves the arrays.", "quantifier": "every field, NR >= 1, FCR, data length 1..K and data", "why_tests_cant": "all data blocks", "anchors": ["reed_solomon_encoder.hh: ReedSolomonEncoder", "reed_solomon_decoder.hh: compute_syndromes"]}
{"id": "C23", "title": "Reed-Solomon code is MDS", "statement": "Two different data blocks of equal length have codewords that differ in at least NR+1 symbols; equivalently any word with zero syndromes and at most NR non-zero symbols is zero, and a word is a codeword exactly when all its syndromes vanish.", "quantifier": "every field, parameters, pairs of data blocks", "why_tests_cant": "all pairs", "anchors": ["reed_solomon_encoder.hh", "reed_solomon_decoder.hh: compute_syndromes"]}
{"id": "C24", "title": "Reed-Solomon decoder corrects errors and erasures up to capability", "statement": "If a codeword is corrupted in e unknown positions and rho announced distinct erasure positions (with arbitrary contents) and 2e+rho <= NR, the decoder restores data and parity exactly and returns the number of symbols actually changed, also for shortened blocks. (The code skips one value when tabulating x^2+x; so for fields where x^2+x = all-ones is solvable, the claim excludes exactly the two-position patterns that hit it, see C26.)", "quantifier": "every primitive field, NR, FCR, data length, codeword, error pattern and erasure set within capability", "why_tests_cant": "astronomically many error patterns", "anchors": ["reed_solomon_decoder.hh: operator()", "reed_solomon_error_correction.hh: BerlekampMassey, Chien, LocationFinder, ArtinSchreier, Forney"]}
{"id": "C25", "title": "Decoder result contract on arbitrary words", "statement": "On any received word the decoder terminates without out-of-bounds access or assertion failure; it returns -1 or a count between 0 and NR; when it returns 0 or -1 data and parity are unchanged; when it returns c > 0 at most c symbols changed. A returned count >= 0 does NOT imply the buffer is now a codeword: prove the precise condition and exhibit a witness where 0 is returned for a non-codeword.", "quantifier": "every received word and erasure list", "why_tests_cant": "all words, most beyond capability", "anchors": ["reed_solomon_decoder.hh: operator()", "reed_solomon_error_correction.hh: ReedSolomonErrorCorrection::operator()"]}
{"id": "C26", "title": "Two-position location shortcut is complete except for one value", "statement": "LocationFinder's degree-1 and degree-2 shortcuts return the same set of locations as the exhaustive search for every locator with distinct roots, except when the quadratic's normalised constant equals the all-ones field element; in fields where x^2+x = all-ones has a solution (e.g. GF(2^15) and GF(2^16) used in the tests) a correctable two-symbol pattern is therefore rejected.", "quantifier": "every field and locator polynomial of degree 1 or 2", "why_tests_cant": "one failing value in 2^16; random tests practically never hit it", "anchors": ["reed_solomon_error_correction.hh: ArtinSchreier, LocationFinder, Chien"]}
{"id": "C27", "title": "BCH encoder emits multiples of the product of minimal polynomials", "statement": "Given minimal polynomials whose degrees sum to NP, the bit-packed encoder's output (data bits then parity bits, big-endian) is a binary polynomial divisible by their product, for every data length 1..K; parity padding bits are zero; the Reference encoder computes the same parity bits. With polynomials that are not positive or whose degrees do not sum to NP the bit-packed constructor never finishes without a failed assertion or an out-of-bounds access.", "quantifier": "every list of polynomials with matching degree, every data", "why_tests_cant": "all data, all codes", "anchors": ["bose_chaudhuri_hocquenghem_encoder.hh: BoseChaudhuriHocquenghemEncoder, BoseChaudhuriHocquenghemEncoderReference"]}
{"id": "C28", "title": "BCH decoder corrects errors and erasures up to capability", "statement": "If the generator polynomial vanishes at pe^FCR..pe^(FCR+NR-1), a codeword corrupted in e unknown positions and rho announced erasures with 2e+rho <= NR is restored exactly and the number of flipped bits is returned (same exception as C24/C26); packed and Reference decoders.", "quantifier": "every field, code, codeword, error and erasure pattern within capability, shortened or not", "why_tests_cant": "astronomically many patterns", "anchors": ["bose_chaudhuri_hocquenghem_decoder.hh"]}
{"id": "C29", "title": "BCH decoder result contract on arbitrary words", "statement": "On any received word the BCH decoders terminate without out-of-bounds access; return -1 or 0..NR; on -1 or 0 the buffers are unchanged; when c > 0 is returned exactly c bits were flipped.", "quantifier": "every received word and erasure list", "why_tests_cant": "all words", "anchors": ["bose_chaudhuri_hocquenghem_decoder.hh: operator()"]}
{"id": "C30", "title": "Short BCH encoder is systematic and cyclic-divisible", "statement": "encode(msg) has msg in its top K bits and is, as a binary polynomial, divisible by G; encode is xor-linear; the soft form maps bit i to +1/-1 consistently.", "quantifier": "every N < 32, K, G of degree N-K, msg", "why_tests_cant": "all codes", "anchors": ["short_bch_code_encoder.hh: ShortBCHCodeEncoder"]}
{"id": "C31", "title": "Short BCH hard decoder corrects up to T errors", "statement": "For T = 1, 2, 3 (all the class provides for): if the code's minimum distance is at least 2T+1 then decoding any codeword with at most T flipped bits returns the codeword; whenever the decoder returns a non-negative word from a valid input, that word is a codeword within distance T of the input, else -1.", "quantifier": "every such code, codeword, and error pattern of weight <= T", "why_tests_cant": "all codes and patterns", "anchors": ["short_bch_code_decoder.hh: ShortBCHCodeDecoder::operator()(int)"]}
{"id": "C32", "title": "Short BCH soft decoder is maximum likelihood for K <= 4", "statement": "For K <= 4 the soft decoder returns the codeword with the strictly largest correlation with the soft input, and -1 exactly when the maximum is attained by two codewords. For larger K it returns -1 or a codeword; a codeword with the strictly largest correlation is returned whenever the hard decoder finds it from the signs or from the signs with some of the listed least reliable positions flipped, in particular if at most T soft values are 0 or have the wrong sign.", "quantifier": "every code, sent word and soft input", "why_tests_cant": "all soft vectors in [-128,127]^N", "anchors": ["short_bch_code_decoder.hh: ShortBCHCodeDecoder::operator()(const int8_t*)"]}
{"id": "C33", "title": "Hadamard decoder is maximum likelihood and inverts the encoder", "statement": "For every K from 2 to 24 (so that sums of soft values fit an int) the decoder returns the message whose codeword has strictly largest correlation with the soft input and -1 exactly on ties; in particular decode(encode(msg)) = msg, and any pattern of fewer than 2^(K-3) sign flips (or erasures counted half) is corrected. Unrolled K=2,3,4 specialisations agree with the generic code.", "quantifier": "every K, message and soft input", "why_tests_cant": "all soft vectors", "anchors": ["hadamard_encoder.hh", "hadamard_decoder.hh"]}
{"id": "C34", "title": "Simplex decoder is maximum likelihood and inverts the encoder", "statement": "For every K from 1 to 23 (so that sums of soft values fit an int) the decoder returns the message whose codeword has strictly largest correlation with the soft input and -1 exactly on ties; decode(encode(msg)) = msg. Unrolled K=2,3,4 specialisations agree with the generic code.", "quantifier": "every K, message and soft input", "why_tests_cant": "all soft vectors", "anchors": ["simplex_encoder.hh", "simplex_decoder.hh"]}
{"id": "C35", "title": "Polar encoder computes the polar transform", "statement": "The codeword at index j is the product of the (frozen-completed) message symbols at all indices i whose bits include those of j; for +-1 symbols the transform is an involution and a group homomorphism; exactly the non-frozen count of message symbols is consumed in order. On SIMD vectors of int8_t every lane is encoded like that.", "quantifier": "every level, frozen set and message", "why_tests_cant": "all sizes", "anchors": ["polar_encoder.hh: PolarEncoder"]}
{"id": "C36", "title": "Systematic polar encoder is systematic", "statement": "If the information set is closed under bitwise domination (as produced by the freezers), the codeword symbols at the non-frozen positions, in order, are the message, and the codeword is a codeword of the non-systematic encoder. For any frozen set the output is a codeword, and every message appears like that exactly if between any two non-frozen positions (in the order of bit inclusion) the number of frozen ones is even. On SIMD vectors every lane is encoded like that.", "quantifier": "every level, every frozen set, every +-1 message", "why_tests_cant": "all sizes and sets", "anchors": ["polar_encoder.hh: PolarSysEnc"]}
{"id": "C37", "title": "Polar SC decoder inverts the encoder on any sign-correct input", "statement": "If every soft input value is non-zero and has the sign of the encoded codeword symbol (any int8 amplitudes), the SC decoder returns the message exactly, for every level 5..20, every frozen set; rate-0/rate-1 shortcuts do not change this; scratch arrays are accessed in bounds.", "quantifier": "every level, frozen set, message, amplitudes", "why_tests_cant": "all amplitudes and frozen sets", "anchors": ["polar_decoder.hh: PolarDecoder, PolarTree, PolarNode", "polar_helper.hh: PolarHelper<int8_t>"]}
{"id": "C38", "title": "Polar list decoder keeps paths and messages consistent", "statement": "The decoder accesses its arrays in bounds and returns, in every list lane, a +-1 message; the lane's metric is the accumulated soft penalty of that message's path (plus 1000000 for lanes descending from a phantom start), two lanes of the same origin hold distinct messages; if the last position is not frozen the lanes are sorted by metric and rank counts the distinct metrics up to the lane; on a sign-correct input lane 0 is the transmitted message with metric 0. If the last position is frozen the order can fail; if every position is frozen the decoder reads maps[-1].", "quantifier": "every level, frozen set with at least one information bit, list size, soft input", "why_tests_cant": "all inputs; path-shuffle bookkeeping histories", "anchors": ["polar_list_decoder.hh: PolarListDecoder, PolarListTree, PolarListNode"]}
{"id": "C39", "title": "Parity-aided polar encoder/decoder agree", "statement": "The parity-aided encoder inserts after the first `first` and then after every `stride` message symbols the product of the symbols since the last parity symbol, and is otherwise the plain encoder. The decoder (first >= 1) accesses its arrays in bounds, returns +-1 messages, a lane with metric below 1000000 has as metric the soft penalty of its message with the right parity symbols, two such lanes differ, lanes are sorted if the last position is not frozen, and on a sign-correct input lane 0 is the transmitted message with metric 0. With first = 0 the decoder accesses message[-1].", "quantifier": "every level, frozen set, stride, first, message", "why_tests_cant": "all schedules", "anchors": ["polar_parity_aided.hh: PolarParityEncoder, PolarParityDecoder, PolarParityNode"]}
{"id": "C40", "title": "Polar freezers report and produce domination-closed sets", "statement": "For any floating-point arithmetic: PolarFreezer freezes index i exactly when the recursively computed erasure probability exceeds the threshold, returns the number of unfrozen indices and leaves other bits of the buffer alone; PolarCodeConst0 unfreezes exactly K indices, no frozen one having a smaller probability than an unfrozen one; PolarSeqConst0 returns a permutation sorted by probability. In exact arithmetic the unfrozen sets are closed under bit inclusion (so the systematic encoder works) and the mean of the probabilities is that of the channel. With IEEE doubles the order fails from length 256 on.", "quantifier": "every level, erasure probability in [0,1], threshold, K", "why_tests_cant": "all levels and probabilities", "anchors": ["polar_freezer.hh: PolarFreezer, PolarCodeConst0", "polar_sequence.hh: PolarSeqConst0"]}
{"id": "C41", "title": "Cauchy Reed-Solomon erasure code: any block_cnt blocks reconstruct the data", "statement": "Encoding data of block_cnt blocks under any block_cnt distinct ids in block_cnt..2^M-1 and decoding each block index from those blocks returns the original data block, for every order of the ids (also when the array of ids is longer), as long as the offset of the last block is below 2^31 symbols (with more, int overflows); all assertions hold and results do not depend on previous calls.", "quantifier": "every field, block count, block length, data, and choice of distinct block ids", "why_tests_cant": "all subsets of ids and all data", "anchors": ["cauchy_reed_solomon_erasure_coding.hh: CauchyReedSolomonErasureCoding"]}
{"id": "C42", "title": "SIMD nibble-table multiply-accumulate equals scalar field multiply-accumulate", "statement": "The 8-bit and 16-bit table-lookup kernels (low/high nibble tables, byte (de)interleaving) compute for every element exactly b*a (or b*a + c), as the scalar fallback does.", "quantifier": "every multiplier and every array whose length is a multiple of the vector width", "why_tests_cant": "2^32 operand pairs for 16 bit", "anchors": ["cauchy_reed_solomon_erasure_coding.hh: mac_simd, multiply_accumulate"]}
{"id": "C43", "title": "Cauchy prime-field erasure code: any block_cnt blocks reconstruct the data", "statement": "With P = 257/uint32_t/uint8_t or 65537/uint64_t/uint16_t (and any prime meeting the stated no-overflow bounds), encode returns a substitute value that does not occur in the block, all emitted symbols fit the IO type, and decoding from any block_cnt distinct ids in block_cnt..P/2-1 with their substitutes returns the original data; lazy reductions never overflow.", "quantifier": "every data, block count, block length <= MAX_LEN < P-1, distinct ids", "why_tests_cant": "all data and id subsets; overflow margins", "anchors": ["cauchy_prime_field_erasure_coding.hh: CauchyPrimeFieldErasureCoding"]}
{"id": "C44", "title": "LDPC encoder output satisfies the decoder's parity checks", "statement": "For every well-formed table, encoding any +-1 message gives parity such that the decoder, fed with message and parity scaled by any positive amplitudes, finds no unsatisfied check: it returns `trials` unchanged with message and parity unmodified. For any input and any earlier use of the decoder object there is no undefined behaviour, and the returned number is non-negative exactly if the output signs form a codeword.", "quantifier": "every well-formed code table, message, amplitudes, soft input, trials and earlier use of the object", "why_tests_cant": "all messages and tables", "anchors": ["ldpc_encoder.hh: LDPCEncoder", "ldpc_decoder.hh: LDPCDecoder::bad, LDPCDecoder::LDPCDecoder, operator()"]}
{"id": "C45", "title": "Linear encoder and generator matrices agree with the BCH encoder", "statement": "The generated matrix has K rows that are shifts of the generator polynomial (or, if systematic, has the identity in its first K columns with the same row space), so LinearEncoder with it yields the BCH codeword of the message (systematic) respectively message times generator; LinearEncoder computes the GF(2) vector-matrix product. Polynomials that are not odd or whose degrees do not sum to N-K never yield a matrix without a failed assertion or an out-of-bounds access.", "quantifier": "every N, K, list of minimal polynomials with matching degree, message", "why_tests_cant": "all messages and codes", "anchors": ["osd.hh: LinearEncoder, BoseChaudhuriHocquenghemGenerator"]}
{"id": "C46", "title": "Ordered statistics decoder returns the best codeword of its search set", "statement": "For a full-rank generator matrix with at most 32768 columns (the permutation is an array of int16_t; with more columns it overflows) the decoder always writes a codeword of the code; its correlation is maximal among all codewords obtained by flipping at most min(O,6) of the K most reliable independent positions; it returns true exactly when no other tested candidate ties, except when the re-encoded hard decisions are themselves best with negative correlation (-1 always gives false, less always true); a tested codeword with non-negative correlation larger than that of all other tested codewords is returned with true; a soft input whose signs form a codeword (non-zero values) decodes to that codeword and true.", "quantifier": "every full-rank generator matrix, order O, soft input", "why_tests_cant": "all soft inputs", "anchors": ["osd.hh: OrderedStatisticsDecoder"]}
{"id": "C47", "title": "Ordered statistics list decoder returns the L best candidates", "statement": "The first n <= L words of the list are pairwise different tested codewords with non-negative, non-increasing correlation; ranks start at 0 and increment exactly when the correlation drops; every tested codeword with non-negative correlation is in the list, or the list is full and no entry has a smaller correlation; the first word always is a tested codeword; nothing outside the L output words and ranks is written. If L tested codewords have non-negative correlation the list is full (otherwise the rest of the list may be what the object held before). A tested codeword with non-negative correlation larger than that of all others is the first word, with rank 0, and the second word of the list has rank 1 (L >= 2); a soft input whose signs form a codeword (non-zero values) has it first.", "quantifier": "every full-rank generator matrix with at most 32768 columns, O, L and soft input", "why_tests_cant": "all inputs", "anchors": ["osd.hh: OrderedStatisticsListDecoder"]}
{"id": "C48", "title": "Rotate implements cyclic rotation in every variant", "statement": "rotate(a, s) for -WIDTH <= s < WIDTH (s=-WIDTH only in the generic version's range s+WIDTH) moves lane n to lane (n+s) mod WIDTH for n < WIDTH; generic, single-shuffle (SSE/NEON) and two-shuffle (AVX2) versions agree on those lanes; rotate by s then -s is the identity.", "quantifier": "every WIDTH <= SIZE, shift and vector", "why_tests_cant": "all widths, shifts and lanes", "anchors": ["rotate.hh: Rotate"]}
{"id": "C49", "title": "Polar fixed-point helper: SIMD and scalar agree and never leave [-127,127]", "statement": "For int8 values prod, qabs, and madd (with hard decision a in {-1,0,1} and b in the symmetric range [-127,127], the only range quant/prod/madd produce; b = -128 makes scalar and SIMD madd differ) computed by the x86 SIMD helper, the NEON helper formula and the scalar helper agree lane by lane; prod and madd results are in [-127,127]; prod's sign is the product of signs and its magnitude the minimum of saturated magnitudes. quant of a float or double is the nearest integer (ties to even) saturated to [-127,127], for infinities too; it is monotone, odd, and undefined exactly for NaN.", "quantifier": "every pair/triple of int8 operands, every float or double to quantise", "why_tests_cant": "2^24 operand triples per operation and three implementations", "anchors": ["polar_helper.hh: PolarHelper<int8_t>, PolarHelper<SIMD<int8_t, WIDTH>>", "simd.hh: vsign, vqadd, vqabs, vmin, vmax, vmul, vsignum"]}
{"id": "C50", "title": "LDPC decoder computes self-corrected offset min-sum message passing exactly", "statement": "For every well-formed table in which no check has two data bits in one SIMD register, and offset BETA from 0 to 64, the decoder returns exactly the soft values, hard decisions and remaining trials of layered self-corrected offset min-sum message passing with saturating 8-bit arithmetic, stopped at the first iteration in which all checks are satisfied; results depend neither on std::sort, on uninitialised memory, nor on earlier calls on the same object.", "quantifier": "every such table, soft input, number of trials, earlier use of the object", "why_tests_cant": "all soft inputs and histories", "anchors": ["ldpc_decoder.hh: LDPCDecoder::update, bad, operator(), simd helpers"]}
{"id": "C51", "title": "LDPC decoder: checks that share a register take turns", "statement": "For tables with several data bits of a check in one SIMD register, if no check has a single bit in the highest register above a shared one, the decoder computes message passing in which in each iteration exactly one of the checks of a layer that share a data bit updates it, and each of them once in every g iterations; turns go on from call to call, so the result can depend on earlier calls. Otherwise (DVB-T2 table A3 with AVX2) the turn mask is rotated wrongly: two checks write the same register and one update is lost.", "quantifier": "every well-formed table, soft input, number of trials, number of earlier iterations", "why_tests_cant": "all soft inputs and histories", "anchors": ["ldpc_decoder.hh: LDPCDecoder::LDPCDecoder (wd), update, wd"]}
{"id": "C52", "title": "SSE4.1 back end computes what the portable templates compute", "statement": "With sse4_1.hh, and with its double, triple and quadruple width variants, each of the overloads (vdup, vzero, vreinterpret, arithmetic, saturating arithmetic, absolute values, signs, bit operations, comparisons, minimum, maximum, clamp, shuffle on int8..int64, uint8..uint64, float and double vectors) gives in every lane the result of the template in simd.hh. Exceptions, stated exactly: float vsignum, vmin, vmax, vclamp and vsign differ for NaN and, in the sign of a zero result, for zeros; vshuf differs for indices from the number of lanes to 127 (or more in the wide variants).", "quantifier": "every register content, lane and lane type", "why_tests_cant": "2^256 operand pairs per overload, 512 overloads", "anchors": ["sse4_1.hh", "sse4_1_double.hh", "sse4_1_triple.hh", "sse4_1_quadruple.hh", "simd.hh"]}
{"id": "C53", "title": "AVX2 back end computes what the portable templates compute", "statement": "The same for avx2.hh and avx2_double.hh; 8-bit vshuf additionally differs for indices 128..143 (175 in the double variant), and 32-bit vshuf takes indices modulo 8.", "quantifier": "every register content, lane and lane type", "why_tests_cant": "2^512 operand pairs per overload, 262 overloads", "anchors": ["avx2.hh", "avx2_double.hh", "simd.hh"]}
{"id": "C54", "title": "NEON back end computes what the portable templates compute", "statement": "The same for neon.hh (AArch64 and 32 bit), neon_double.hh, neon_triple.hh and neon_quadruple.hh; vshuf agrees for every index, vzero gives zero whatever the register held.", "quantifier": "every register content, lane and lane type", "why_tests_cant": "2^256 operand pairs per overload, 426 overloads", "anchors": ["neon.hh", "neon_double.hh", "neon_triple.hh", "neon_quadruple.hh", "simd.hh"]}
{"id": "C55", "title": "Polar and LDPC vector kernels give the same numbers on every target", "statement": "On all twelve targets (portable, SSE4.1 x1..x4, AVX2 x1..x2, NEON x1 (two variants)..x4), in every lane: prod of the polar decoders is the min-sum product, madd the saturated a*b+c, qmul the product (hard decision operand), vshuf with a lane map the named lane, and each vector function of the LDPC decoder (eor, orr, other, mine, selfcorr, magnitudes with offset, output message) is the function its message passing specification is proved for.", "quantifier": "every target, register content and lane", "why_tests_cant": "all register contents times twelve targets", "anchors": ["polar_helper.hh: PolarHelper<SIMD<int8_t, WIDTH>>", "ldpc_decoder.hh: eor, orr, other, mine, selfcorr, update", "simd.hh", "sse4_1*.hh", "avx2*.hh", "neon*.hh"]}
{"id": "C56", "title": "Polar list decoders are the textbook's successive cancellation list decoder", "statement": "On any int8 soft values the list decoder and the parity-aided list decoder return exactly the list of successive cancellation list decoding as in the textbook: starting from one path of metric 0 and L-1 of metric 1000000, a frozen position (or a block of up to 32 frozen ones) continues every path with 1 and charges it for soft values that point to -1, any other position splits every path in two, of which the L of least metric are kept, in ascending order and with ties in the order of listing; a parity symbol has to be the product of the symbols since the last one. The metrics, the message symbols of all L lanes and the ranks are those of this list; nothing else is written, and nothing depends on earlier calls.", "quantifier": "every level 5..MAX_M <= 16, 1 <= L <= 256, frozen set with a free position, parity schedule and soft input", "why_tests_cant": "all soft inputs and frozen sets; the decoder keeps lane maps instead of paths", "anchors": ["polar_list_decoder.hh: PolarListDecoder", "polar_parity_aided.hh: PolarParityDecoder"]}
{"id": "C57", "title": "Polar list decoder metrics bound the distance, and a full list decoder is a maximum likelihood decoder", "statement": "The metric of a lane (below 1000000) is at most the sum of the magnitudes of the soft values whose sign disagrees with the codeword the encoder makes of the lane's message, and equal to it if either is below 127. If L is at least the number of messages, every message whose codeword disagrees by less than 1000000 is in the list. If furthermore the last position is not frozen and some codeword disagrees by less than 127, then no codeword has a larger correlation with the soft values than that of lane 0. The same for the parity-aided decoder and the messages completed with parity symbols.", "quantifier": "every call as above", "why_tests_cant": "all soft inputs, all codewords", "anchors": ["polar_list_decoder.hh: PolarListDecoder", "polar_parity_aided.hh: PolarParityDecoder", "polar_encoder.hh: PolarEncoder"]}
{"id": "C58", "title": "Polar SC decoder makes the textbook's decisions", "statement": "The successive cancellation decoder for int8 (soft values -127..127) and every lane of the SIMD decoder (-128..127) writes exactly the decisions of position by position successive cancellation - 1 at a frozen position, otherwise the sign of the position's soft value given all decisions before it - at the positions that are not frozen, if none of these soft values is 0; skipping frozen blocks and deciding free blocks at once changes nothing. (On a soft value of 0 the symbol 0 is written, and later decisions can differ.)", "quantifier": "every level 5..MAX_M <= 20, frozen set, soft input, earlier use of the object, contents of the other lanes", "why_tests_cant": "all soft inputs and frozen sets", "anchors": ["polar_decoder.hh: PolarDecoder", "polar_helper.hh: PolarHelper"]}
{"id": "C59", "title": "Polar encoder and SC decoder on float and double", "statement": "With float or double values (and in every lane of SIMD<float>, SIMD<double>): the encoder, the systematic encoder and the parity-aided encoder map +-1.0 messages exactly as the integer ones do; the SC decoder returns the message whenever all soft values have the signs of its codeword - any magnitudes, including infinities and sums that overflow; on any finite soft values that cannot overflow it makes the decisions of textbook successive cancellation with the min-sum rule in which each sum is rounded once to nearest even (unless a decision falls on 0); and if the soft values are multiples of one power of two with at most 24 - level (double: 53 - level) significant bits, nothing is ever rounded and the decisions are those of exact arithmetic.", "quantifier": "every level 5..MAX_M <= 20, frozen set, message, float soft input", "why_tests_cant": "2^(32*2^level) soft inputs", "anchors": ["polar_helper.hh: PolarHelper<TYPE>, PolarHelper<SIMD<VALUE, WIDTH>>", "polar_encoder.hh: PolarEncoder", "polar_decoder.hh: PolarDecoder"]}
{"id": "C60", "title": "The polar coders give the same results on every SIMD target", "statement": "On each of the twelve targets (portable, SSE4.1 x1..x4, AVX2 x1..x2, NEON x1 (two variants)..x4) and whatever the lanes held before: the encoder, the systematic encoder and the parity-aided encoder on int8 vectors give every lane the codeword of its message; the SC decoder gives every lane the decisions of the textbook; the list decoder and the parity-aided list decoder return the textbook's list. Two targets with the same number of lanes return the same ranks, metrics and message symbols, whatever their registers, buffers and object state held.", "quantifier": "every target, call as in C35-C39 and C56-C58, register content", "why_tests_cant": "all inputs times twelve targets", "anchors": ["polar_helper.hh: PolarHelper<SIMD<int8_t, WIDTH>>", "polar_encoder.hh: PolarEncoder, PolarSysEnc", "polar_decoder.hh: PolarDecoder", "polar_list_decoder.hh: PolarListDecoder", "polar_parity_aided.hh: PolarParityEncoder, PolarParityDecoder", "simd.hh", "sse4_1*.hh", "avx2*.hh", "neon*.hh"]}
{"id": "C61", "title": "The LDPC decoder gives the same results on every SIMD target", "statement": "On each target the decoder is compiled for (portable with 16 lanes of which 15 are used, SSE4.1, AVX2 with 32 lanes of which 30 are used, NEON 64 bit and 32 bit) and whatever its registers, the lanes not in use and uninitialised registers hold: no undefined behaviour, the returned number is non-negative exactly if the output is a codeword, the results are those of the message passing algorithm (C50) or the algorithm with turns (C51). Any two targets with the same number of lanes return the same number, buffers and write disable masks, also for tables those two do not cover.", "quantifier": "every target, well-formed code table, soft input, trials >= 0 and contents of the registers", "why_tests_cant": "all inputs times five targets", "anchors": ["ldpc_decoder.hh: LDPCDecoder", "rotate.hh: Rotate", "simd.hh", "sse4_1.hh", "avx2.hh", "neon.hh"]}
{"id": "C62", "title": "Polar list decoders on float and double", "statement": "PolarListDecoder and PolarParityDecoder with SIMD<float, L> or SIMD<double, L>, on any finite soft values that cannot overflow (at most B in magnitude with B * 2^level in range): they return exactly the list of textbook successive cancellation list decoding with the min-sum rule in which every sum of soft values and every addition to a metric is rounded once - the same paths in the same order with the same metrics (infinite once they overflow), ranks counting the changes of the metric, nothing else written, nothing depending on earlier calls. If the soft values have the signs of the codeword of a message (completed with parity symbols for the parity-aided decoder), then lane 0 holds the message with metric and rank 0, and all other lanes have larger metrics and ranks.", "quantifier": "every level 5..MAX_M <= 16, number of lanes, frozen set with a free position, parity schedule with first >= 1, float soft input", "why_tests_cant": "2^(32*2^level) soft inputs", "anchors": ["polar_list_decoder.hh: PolarListDecoder", "polar_parity_aided.hh: PolarParityDecoder", "polar_helper.hh: PolarHelper<SIMD<VALUE, WIDTH>>"]}
{"id": "C63", "title": "Polar list decoders on float and double: exact metrics and maximum likelihood", "statement": "If the float or double soft values and 1000000 are multiples of one power of two 2^e, and 1000000 plus the sum of their magnitudes is at most 2^(24+e) (double: 2^(53+e)), then nothing is rounded in PolarListDecoder and PolarParityDecoder: all metrics are finite, and a metric below 1000000 is exactly the sum of the magnitudes of the soft values whose sign disagrees with the codeword the encoder makes of the lane's message. If L is at least the number of messages, every message whose codeword disagrees by less than 1000000 is in the list with its disagreement as metric. If furthermore the last position is not frozen and there is such a message, then no codeword has a larger correlation with the soft values than that of lane 0. The same for the parity-aided decoder and the messages completed with parity symbols.", "quantifier": "every call as in C62 with such soft values, every message", "why_tests_cant": "all soft inputs, all codewords", "anchors": ["polar_list_decoder.hh: PolarListDecoder", "polar_parity_aided.hh: PolarParityDecoder", "polar_encoder.hh: PolarEncoder", "polar_helper.hh: PolarHelper<SIMD<VALUE, WIDTH>>"]}
{"id": "C64", "title": "CRC is polynomial division; odd and two-bit errors", "statement": "The register after any bits, bytes and words is the remainder of message * X^W + start value * X^length modulo the generator polynomial X^W + poly (highest coefficient in the lowest bit). With the top bit of the constant set, two messages of equal length give the same register exactly if the generator divides their difference; if the generator has an even number of terms every odd number of flipped bits is detected; two flipped bits are missed exactly if their distance is a multiple of the order of X modulo the generator, which is 2^32-1, 65534, 65537, 64897 and 127 for the five polynomials of the tests.", "quantifier": "every width, polynomial, start value, message and error pattern", "why_tests_cant": "unbounded message lengths", "anchors": ["crc.hh: CRC::update, CRC::operator()", "tests/crc_test.cc"]}
{"id": "C65", "title": "Interleaving spreads bursts, and interleaved Reed-Solomon words survive them", "statement": "If ORDER rows of L symbols are interleaved and only b consecutive symbols of the block are changed, every row differs after deinterleaving in at most ceil(b / ORDER) symbols. Hence ORDER Reed-Solomon code words correcting t errors each are all restored after a burst of ORDER * t consecutive symbols.", "quantifier": "every order, length, symbol block, burst position and content; Reed-Solomon codes over the fields of the tests", "why_tests_cant": "all bursts of all contents", "anchors": ["interleave.hh: Interleave, Deinterleave", "reed_solomon_decoder.hh: ReedSolomonDecoder"]}
{"id": "C66", "title": "Every polynomial accepted by bad() gives a maximum length sequence", "statement": "If MLS(poly).bad(r0) returns false for a polynomial of degree n and a non-zero start register below 2^n, then from every non-zero register: each non-zero n-bit register is visited exactly once in 2^n-1 calls and the register returns exactly after multiples of 2^n-1 calls; the symbols +1/-1 of one period sum to -1; the periodic autocorrelation is 2^n-1 at shifts that are multiples of the period and -1 at all others; every n-bit pattern other than all zeros is output exactly once per period.", "quantifier": "every polynomial of degree 1..30, every start register, shift and pattern", "why_tests_cant": "periods up to 2^30-1, all shifts", "anchors": ["mls.hh: MLS::bad, MLS::operator()"]}
{"id": "C67", "title": "The polar coders on float and double give the same results on every SIMD target", "statement": "On each of the targets for SIMD<float, n> and SIMD<double, n> (portable with any number of lanes, SSE4.1 x1..x4, AVX2 x1..x2, and for float NEON x1..x4), if its additions and multiplications are those of IEEE 754: the encoder, the systematic and the parity-aided encoder give every lane with a message of +-1.0 its codeword; the SC decoder gives every lane of finite soft values that cannot overflow the decisions of textbook min-sum decoding with every sum rounded once, whatever the other lanes hold; the list decoder and the parity-aided list decoder return the textbook's list in that arithmetic. Two targets of the same format and number of lanes return the same ranks, metrics and message symbols, whatever their registers, buffers and object state held. If the soft values have the signs of the codeword of a message, lane 0 holds that message with metric and rank 0 and all other lanes are worse.", "quantifier": "every target, level 5..MAX_M <= 16, frozen set with a free position, parity schedule, float soft input, register content", "why_tests_cant": "all inputs times eighteen targets", "anchors": ["polar_helper.hh: PolarHelper<SIMD<VALUE, WIDTH>>", "polar_encoder.hh: PolarEncoder, PolarSysEnc", "polar_decoder.hh: PolarDecoder", "polar_list_decoder.hh: PolarListDecoder", "polar_parity_aided.hh: PolarParityEncoder, PolarParityDecoder", "simd.hh", "sse4_1*.hh", "avx2*.hh", "neon*.hh"]}
{"id": "C68", "title": "CRC-aided polar frames", "statement": "A frame as tests/polar_list_regression_test.cc builds it - data bits, the bits of their CRC, polar encoder (plain, systematic or parity-aided), list decoder, first lane whose CRC is zero - is accepted, with lane 0 and the data bits, whenever all soft values have the signs of the codeword (int8, float and double). Whatever is received: the frame is refused exactly if no lane holds a message with a matching CRC, otherwise the chosen lane is the first that does, and if the last position is not frozen no lane with a matching CRC is ranked better, and its codeword correlates at least as well with the received values (for metrics below 127). A wrong message that is accepted differs from the sent one by a multiple of the generator polynomial, not only within as many neighbouring positions as the CRC has bits, and with the polynomial of the test in at least five positions.", "quantifier": "every level, frozen set, CRC of at least 8 bits with its top bit set, number of lanes, parity schedule, data, received values, earlier use of the objects", "why_tests_cant": "all data and all received values", "anchors": ["crc.hh: CRC", "polar_encoder.hh: PolarEncoder, PolarSysEnc", "polar_list_decoder.hh: PolarListDecoder", "polar_parity_aided.hh: PolarParityEncoder, PolarParityDecoder", "tests/polar_list_regression_test.cc"]}
{"id": "C69", "title": "Frozen masks from reliability sequences", "statement": "Setting the bits of the first n entries of a sequence in a cleared mask freezes exactly those positions and leaves N - n others if they are distinct. The table of tests/sequence.h contains each of 0..1023 once; with its first n positions frozen the systematic encoder works for every message exactly if n = 0 or n >= 26, and for n >= 26 the rest is closed under bit inclusion. Masks from PolarSeqConst0 in exact arithmetic are closed for every n. With the parity schedule of the tests exactly K / (S + 1) of the K non-frozen positions hold parity symbols.", "quantifier": "every sequence, n, previous content of the mask; every level 5..MAX_M and erasure probability strictly between 0 and 1; every K and stride", "why_tests_cant": "all n, all messages", "anchors": ["tests/polar_list_regression_test.cc", "tests/sequence.h: sequence", "polar_sequence.hh: PolarSeqConst0", "polar_encoder.hh: PolarSysEnc"]}
{"id": "C70", "title": "Lifetime of the Galois field tables", "statement": "In any program that constructs, copies, assigns and destroys objects of GaloisField classes (several fields at once, again after destruction) and calls index and value: every call that returns gives the right result in its own field, and a call with an argument in its domain fails only in the assertion on a null pointer - it never reads an object that is gone. A program without copies and assignments runs without failed assertion exactly if every construction has a primitive polynomial and happens while no other object of that class lives, and every call while one lives. The living objects are always as many as the fields in use plus the copies made, so a program that copies an object and destroys all objects in the end always fails an assertion; destroying an original or a copy makes the calls of that field fail, and of no other field.", "quantifier": "every finite history of constructions, copies, assignments, destructions and calls, every set of fields", "why_tests_cant": "unbounded histories", "anchors": ["galois_field.hh: GF::Tables::Tables, GF::Tables::~Tables, GF::index, GF::value, GaloisField"]}
{"id": "C71", "title": "Whole buffers through the erasure codes, in bytes", "statement": "Encoding the bytes of a buffer block by block into a second buffer with the void* overloads and decoding all blocks into a third returns the bytes of the first, on machines of either byte order, for any instruction set and alignment of each call, whatever the buffers and the object held; for symbols that use all bits of their type every byte sequence is allowed. The bytes are refused by an assertion unless they are a multiple of the symbol size, and nothing behind the blocks is written. The same holds for the prime field code with the substitutes stored as IO values and one object used for all calls. Hence every trial of the two regression tests passes, whatever numbers they draw.", "quantifier": "every data, block size and count (last offset below 2^31), distinct identifiers, byte order, compile options and alignment per call, every random draw", "why_tests_cant": "all buffers and all draws; tests run one byte order", "anchors": ["cauchy_reed_solomon_erasure_coding.hh: encode(const void *), decode(void *)", "cauchy_prime_field_erasure_coding.hh: encode, decode", "tests/crs_regression_test.cc: crs_test", "tests/cpf_regression_test.cc: cpf_test"]}
{"id": "C72", "title": "Trials of the algebraic regression tests", "statement": "One trial of the regression tests of Reed-Solomon, BCH (packed and Reference) and short BCH codes - encode random data, damage it at distinct random positions (errors and announced erasures up to the capability), decode, compare all data and parity - passes whatever numbers are drawn, provided every position is drawn again and again so that the search for a fresh position ends. This holds for the six BCH codes and the four short BCH codes of the tests and for the Reed-Solomon codes over fields without excluded pairs. A Reed-Solomon trial whose drawing has ended fails exactly if the erasures together with the symbols really changed form one of the excluded pairs of C26; the third Reed-Solomon test, over GF(2^16) with polynomial 0b10001000000001011, can draw such numbers and then fails its assertion.", "quantifier": "every data, length, number of errors, position and value drawn, previous contents of all arrays", "why_tests_cant": "all random draws; the failing draws of the third Reed-Solomon test are too rare to be met", "anchors": ["tests/rs_regression_test.cc: rs_test", "tests/bch_regression_test.cc: bch_test, bch_reference_test", "tests/short_bch_code_regression_test.cc: bch_test", "reed_solomon_decoder.hh", "bose_chaudhuri_hocquenghem_decoder.hh", "short_bch_code_decoder.hh"]}
{"id": "C73", "title": "Trials of the tests with soft values", "statement": "One trial of the regression tests of the Hadamard, simplex and short BCH codes with soft values - encode random data, add the drawn noise, quantise, decode, count - is defined for every message, every positive factor and every finite noise. The quantised values are the nearest integers to the rounded product of the factor and the rounded noisy symbol, saturated to [-127,127]. The counts are what they are named after: symbols with wrong sign, symbols erased, and for the Hadamard and simplex codes no wrong data bit and no ambiguity exactly if the received values correlate strictly best with the sent word; a tie of best words counts as ambiguous with all bits wrong; otherwise the data is compared with that of the best word. For a short BCH code of minimum distance d the bits counted as wrong are none or at least d (7 for the four codes of the test); there are none if at most T symbols are wrong or erased and the sent word correlates strictly best. If the noise is too weak to turn or erase a symbol, nothing is counted as erased, ambiguous or wrong.", "quantifier": "every message, factor, noise, floating point format, previous contents of all arrays", "why_tests_cant": "all noise values; the tests only bound the average error rate", "anchors": ["tests/hadamard_regression_test.cc: main", "tests/simplex_regression_test.cc: main", "tests/soft_bch_regression_test.cc: main", "hadamard_decoder.hh", "simplex_decoder.hh", "short_bch_code_decoder.hh"]}
{"id": "C74", "title": "Trials of the polar code test", "statement": "In a trial of the polar code test (systematic or not, any level and frozen mask) the assertion on the systematic encoder holds for every message exactly if between any two information positions there is an even number of frozen ones, which closed masks satisfy; then the trial is defined for every message, every factor other than 0 and every finite noise, and no data symbol counts as wrong exactly if the successive cancellation decoder's decisions are all right. The counter of erasures counts the received zeros; the counter of channel errors adds up received values and is no number of errors. If the noise is too weak to turn or erase a symbol, nothing is counted as erased or wrong.", "quantifier": "every level, frozen mask, message, factor, noise, floating point format, previous contents of all arrays", "why_tests_cant": "all noise values and masks; the test only bounds the average error rate of its codes", "anchors": ["tests/polar_regression_test.cc: main", "polar_encoder.hh: PolarEncoder, PolarSysEnc", "polar_decoder.hh: PolarDecoder"]}
{"id": "C75", "title": "Trials of the ordered statistics tests", "statement": "In a trial of the tests of both ordered statistics decoders, with a primitive BCH code, both encoders - generator matrix and BCH encoder - agree bit by bit as the tests assert, and the trial is defined for every message, order, factor other than 0 and finite noise. The counters count symbols with wrong sign, erased symbols, wrong bits of the decoder's word, the block length if the decoder reports a tie, one frame if there is a tie or a wrong bit, and the wrong bits left by the BCH decoder after it was told the first NR erased positions; these are none if twice the wrong symbols plus the erased ones are at most NR and the decoder's known gap (C26) is not met. If the sent word is in the search set, correlates strictly better than the other words of it and not negatively, nothing but channel errors is counted. With the oracle of the list decoder's test a frame counts as wrong exactly if the sent word is not in the list; without it the first word of the list counts, as ambiguous if the second has the same rank. If the noise is too weak to turn or erase a symbol, nothing is counted. The codes of the tests qualify.", "quantifier": "every primitive BCH code, order, list length of at least 2, message, factor, noise, floating point format, previous contents of all arrays", "why_tests_cant": "all noise values; the tests only bound the average error rate of two codes", "anchors": ["tests/osd_regression_test.cc: main", "tests/osld_regression_test.cc: main", "osd.hh: LinearEncoder, OrderedStatisticsDecoder, OrderedStatisticsListDecoder", "bose_chaudhuri_hocquenghem_decoder.hh"]}
{"id": "C76", "title": "Trials of the LDPC test", "statement": "Any sequence of trials of the LDPC test on the same arrays and the same encoder and decoder objects is defined, for every well-formed table (those of the test qualify), drawn bits, factors other than 0 and finite noise. In each trial the numbers are what they are named after: symbols with wrong sign, erased symbols, symbols wrong or undecided after decoding, and those among them that were right before. The iteration count is between 0 and the limit. A decoder that gives up leaves a word that is no codeword, hence at least one wrong symbol, and the limit is reported; if no symbol is wrong the decoder has converged. Wrong symbols at the end are at most the sum of channel errors, erasures and decoder errors. If the received signs form a codeword nothing is changed and no iteration counted; weak noise leaves all numbers at 0.", "quantifier": "every table, bits, factor, noise, floating point format, sequence of trials, previous contents of arrays and objects", "why_tests_cant": "all noise values and histories of the decoder object", "anchors": ["tests/ldpc_regression_test.cc: main", "ldpc_encoder.hh: LDPCEncoder", "ldpc_decoder.hh: LDPCDecoder"]}
{"id": "C77", "title": "Trials of the polar list decoder test", "statement": "A trial of the test of the polar list decoders (plain, systematic or parity-aided code, with or without CRC, any level, frozen mask and number of lanes) is defined for every draw of the bits, every factor other than 0 and every finite noise: the message is the drawn bits (followed by their CRC), the decoder gets the quantised noisy symbols of its codeword. With CRC the first lane with a matching CRC is compared with the message; if there is none, lane 0 is, and a frame error counts. Without CRC lane 0 is compared, and a frame error counts if it is wrong or if lane 1 has the same metric. Nothing counts as ambiguous. A frame error with CRC comes with at least one wrong bit; wrong bits without frame error form a multiple of the generator polynomial, with the test's polynomial at least five. Weak noise leaves all these counts at 0. With the test's choice of the first parity symbol coder and decoder use exactly the number of message symbols the test allots; with CRC the choice is 0, which the decoder does not support, exactly if the number of information positions is a multiple of the stride plus one.", "quantifier": "every kind of code, level, mask, number of lanes up to 256, data, factor, noise, floating point format, previous contents of arrays and objects", "why_tests_cant": "all noise values and masks; the test only bounds the average error rate of one code", "anchors": ["tests/polar_list_regression_test.cc: main", "polar_list_decoder.hh: PolarListDecoder", "polar_parity_aided.hh: PolarParityEncoder, PolarParityDecoder", "polar_encoder.hh: PolarEncoder, PolarSysEnc", "crc.hh: CRC"]}
{"id": "C78", "title": "Hamming distance of the CRC polynomials", "statement": "With the polynomial 0xC8DF352F two different bit strings of the same length up to 32768 bits (payload of 32736 bits and checksum) give the same CRC only if they differ in at least 6 positions; with 0xD419CC15 up to 65537 bits (payload 65505) in at least 5; with 0xA8F4 up to 83 bits in at least 5 (so for payloads up to 64 bits); with 0x8C up to 127 bits in at least 4. This holds for every start value and any grouping of the data into calls with bits, bytes and words. A received payload and checksum that end in a zero register, but are not what was sent, contain at least that many wrong bits. With one more bit none of these distances holds.", "quantifier": "every start value, every pair of strings up to the length, every grouping into calls", "why_tests_cant": "2^32768 strings; the test only cites the literature", "anchors": ["crc.hh: CRC", "tests/crc_test.cc: main"]}
{"id": "C79", "title": "Polar codes on the erasure channel", "statement": "A codeword of the polar encoder is received with 0 at the erased positions and values of the right sign elsewhere (int8, float or double). The input at a position is lost if it does not follow from the symbols that are left and the inputs before it. The successive cancellation decoder returns the message if no position that is not frozen is lost, otherwise at least one of its decisions is 0. If every symbol is erased independently with the same probability, the number the code construction computes for a position in exact arithmetic is exactly the probability that it is lost; hence decoding fails with a probability of at most the sum of these numbers over the positions that are not frozen, and at least each of them: at most K times the threshold for the code of PolarFreezer, and PolarCodeConst0 makes this sum least among all codes with K positions. The list decoder with room for two alternatives for every lost position that is not frozen holds, in the lanes of metric 0, exactly the messages that fit the symbols that are left, the one sent among them; with 2^r lanes it misses the message with a probability of at most that sum divided by r + 1. The same holds for the parity-aided list decoder, where only lost message symbols need room and count in the sum, not lost parity symbols.", "quantifier": "every level, frozen mask, message, set of erased symbols, erasure probability, threshold, K", "why_tests_cant": "2^(2^level) sets of erased symbols", "anchors": ["polar_freezer.hh: PolarFreezer, PolarCodeConst0", "polar_encoder.hh: PolarEncoder", "polar_decoder.hh: PolarDecoder", "polar_list_decoder.hh: PolarListDecoder", "polar_helper.hh: PolarHelper"]}
{"id": "C80", "title": "Soft decoders on the erasure channel", "statement": "A codeword is received with 0 at the erased positions and values of the right sign and any amplitude elsewhere. The Hadamard, simplex and short BCH soft decoder (K up to 4) return the message (or word) sent exactly if no other codeword fits the symbols that are left, otherwise -1; in particular they return it with fewer than 2^(K-2), 2^(K-1) or minimum distance many erasures. The short BCH soft decoder returns the word sent for every K with up to T erasures if the minimum distance is at least 2T+1. The ordered statistics decoder of any order returns a codeword that fits; if no other codeword fits it is the one sent and the result is true; otherwise the result is false from order 1 on, and true with order 0. The first word of the list decoder fits; it is the word sent and alone in its rank if no other fits, otherwise, from order 1 on, the second word fits too and has the same rank.", "quantifier": "every message, set of erased positions, amplitudes, code of full rank, order, list length, previous contents of all arrays", "why_tests_cant": "2^N sets of erased symbols times all amplitudes", "anchors": ["osd.hh: OrderedStatisticsDecoder, OrderedStatisticsListDecoder", "hadamard_decoder.hh: HadamardDecoder", "simplex_decoder.hh: SimplexDecoder", "short_bch_code_decoder.hh: ShortBCHCodeDecoder"]}
{"id": "C81", "title": "LDPC decoder on the erasure channel", "statement": "A codeword is received with 0 at the erased symbols and values of the right sign elsewhere. Whatever the offset (0 to 64), the number of iterations and the earlier use of the decoder object, no value ever turns against the symbol sent or gets weaker, and if the decoder reports success all symbols are right. Peeling means: a symbol that is the only unknown of a check becomes known. Symbols that peeling never finds stay 0, and then the decoder returns -1. Symbols that peeling finds in L rounds are right in the end if the received amplitudes are at least 1 + L BETA, (L-1) BETA is at most 30 and at least G L iterations are allowed, where G (1 for most tables and builds, at most the number of lanes) is how many of the checks handled at once share a data bit; if all are found the decoder is done after G L iterations. With offset 0 and G iterations per erasure the decoder is exactly the peeling decoder, for any amplitudes. All this holds on every target of C61.", "quantifier": "every well-formed table that is fair for the word size (see C51), offset, set of erased symbols, amplitudes, number of iterations, earlier calls, behaviour of std::sort", "why_tests_cant": "2^N sets of erased symbols times all amplitudes and histories", "anchors": ["ldpc_decoder.hh: LDPCDecoder::update, LDPCDecoder::bad, LDPCDecoder::operator()"]}
{"id": "C82", "title": "Decoding does not depend on the codeword sent", "statement": "If the same noise hits another codeword, the decoders behave the same. Adding a codeword to the block given to the Reed-Solomon and BCH decoders (any number of errors, any erasures) changes neither the returned number nor whether the call is defined, and the corrected block is the former one plus the codeword, also when the decoder gives up or corrects to a wrong codeword. The same holds for the short BCH hard decoder, for the short BCH soft decoder up to K = 4 with the signs of the soft values changed as the codeword says; not for its Chase algorithm (K above 4), which treats the zero codeword differently. The Hadamard and simplex decoders return the former message plus the message of the codeword, or again -1. The ordered statistics decoder returns the former word plus the codeword and the same tie flag, as long as the symbols that are not 0 determine the codeword; its list version returns the former words plus the codeword in the same order and with the same ranks (those with a non-negative correlation, behind which the list is unused). The successive cancellation polar decoder on soft values with the signs changed by the codeword of a message makes the same decisions times the symbols of the message, zero decisions included: for int8, float and double, scalar and in every lane of SIMD registers, for saturated sums, erasures, infinities and NaN. The LDPC decoder on soft values with the signs changed by a codeword returns the former soft values with these signs and the same number, as long as none of its sums saturates; for codes of small degree and soft values small enough none ever does. So the error rate of a symmetric channel can be measured with the zero codeword alone.", "quantifier": "every code, block, number of errors, soft values, codeword or message, frozen mask, previous contents of all arrays", "why_tests_cant": "2^K codewords times all received words", "anchors": ["reed_solomon_decoder.hh: ReedSolomonDecoder", "reed_solomon_error_correction.hh: ReedSolomonErrorCorrection", "bose_chaudhuri_hocquenghem_decoder.hh: BoseChaudhuriHocquenghemDecoder, BoseChaudhuriHocquenghemDecoderReference", "short_bch_code_decoder.hh: ShortBCHCodeDecoder", "hadamard_decoder.hh: HadamardDecoder", "simplex_decoder.hh: SimplexDecoder", "osd.hh: OrderedStatisticsDecoder, OrderedStatisticsListDecoder", "polar_decoder.hh: PolarDecoder", "polar_helper.hh: PolarHelper", "ldpc_decoder.hh: LDPCDecoder"]}
{"id": "C83", "title": "What the portable SIMD functions compute", "statement": "Every function template of simd.hh, for any number of lanes and whatever the uninitialised result held: the integer ones compute in each lane the number their name says (vneg, vabs, vadd, vsub, vmul, vsign exactly if the results fit; otherwise 8 and 16 bit lanes wrap around and 32 and 64 bit lanes are undefined behaviour, so vabs and vneg of the least number are undefined there), vqadd, vqsub and vqabs the nearest representable number, unsigned vqsub stops at 0; comparisons, signed and unsigned, give lanes of all ones or zeros, with which vbsl selects lanes; vmin, vmax, vclamp, vsignum, the bit operations, vdup, vzero, vreinterpret, vmask, vsigned, vunsigned and vshuf (0 for indices that name no lane) likewise. On float and double lanes comparisons follow IEEE 754 on the numbers (false for NaN, -0 equals 0), vneg, vabs, vsignum, vmin, vmax, vclamp and vcopysign do what they say, vmin and vmax return the first operand if one is NaN; vadd, vsub and vmul are the machine's arithmetic, and vsign returns its first operand, exactly that with the other sign, or 0.", "quantifier": "every number of lanes, lane type, operands and previous contents of the result", "why_tests_cant": "2^(2*w*W) operand pairs, any W", "anchors": ["simd.hh"]}
{"id": "C84", "title": "Tests of sorting and of the fields", "statement": "The sorting test passes for everything it can draw, for any number of passes on the same arrays: in each pass insertion sort, merge sort and the index-tracking sort give what std::stable_sort gives (any function that sorts stably), on the first `size` elements of the arrays, whatever they and the merge sort object held before. The SIMD sorting test passes likewise: vsort gives what std::sort gives and vorder what std::stable_sort of the lane numbers by their values gives, for any number of lanes that the lane numbers can represent. The comparisons of the tests mean equality of the two ranges. The prime field test passes for a parameter PRIME that fits in TYPE exactly if PRIME is a prime and the product of two reduced values fits in TYPE; both instances of the test do. The Galois field test passes, whatever the uninitialised tables held: the asserted expressions have the asserted values and table and reference arithmetic agree on all products and reciprocals; with another polynomial (of degree up to 32) a block of the test passes exactly if the polynomial is primitive, given that its asserted number is right.", "quantifier": "every size up to MAX_N (2^30), every drawn value, number of passes and previous contents; every TYPE and PRIME; every polynomial", "why_tests_cant": "the drawn values: 128^128 arrays per size; the tests draw a million", "anchors": ["tests/sort_regression_test.cc: main", "tests/simd_sort_regression_test.cc: main", "tests/pf_test.cc: exhaustive_test", "tests/gf_test.cc: main", "sort.hh: insertion_sort, MergeSort", "simd_sort.hh: vsort, vorder", "prime_field.hh: PrimeField", "galois_field.hh: GaloisField, GaloisFieldReference"]}
