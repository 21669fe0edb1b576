{"id": "C01", "title": "Goldilocks add/sub/neg/double/mul/square are exact modular arithmetic", "statement": "For all field elements a, b obtained from the API, the integer value (as_int) of a+b, a-b, -a, 2a, a*b and a^2 is the corresponding integer operation modulo p = 2^64-2^32+1, and the result is again a canonical element (usable as an operand and comparable with ==).", "quantifier": "all pairs of elements of the Goldilocks field (2^64-ish squared inputs), including those for which the 64-bit additions carry or borrow", "why_tests_cant": "2^128 operand pairs; the carry/borrow branches and the dropped top limb of the Montgomery reduction are hit with probability 2^-32 by random tests", "anchors": ["fields/src/field_gl.rs: add_assign, sub_assign, negate, double, mul_assign, square, mont_reduce, reduce, add_nocarry, sub_noborrow, mul2"]}
{"id": "C02", "title": "Integer <-> Goldilocks conversion round-trips and rejects out-of-range values", "statement": "from_repr succeeds exactly on integers < p; for those, as_int/into_repr returns the integer back; every element is from_repr of its as_int; From<u64> panics exactly when the argument is >= p; from_raw_repr/into_raw_repr are mutually inverse.", "quantifier": "all 64-bit integers and all field elements", "why_tests_cant": "needs all 2^64 values; the boundary between p-1, p and 2^64-1 and the uniqueness of representatives cannot be sampled", "anchors": ["fields/src/field_gl.rs: from_repr, into_repr, from_raw_repr, into_raw_repr, as_int, From<u64>, is_valid"]}
{"id": "C03", "title": "Goldilocks inversion and division", "statement": "For every nonzero element x, inverse() is Some(y) with x*y = 1, inverse() of zero is Some(0) (never None), and (a/b)*b = a for every b != 0.", "quantifier": "all field elements", "why_tests_cant": "the 72-multiplication addition chain must equal x^(p-2) for all 2^64 elements; p must be prime", "anchors": ["fields/src/field_gl.rs: inverse, exp_acc, Div"]}
{"id": "C04", "title": "Goldilocks exponentiation", "statement": "exp(x, e) and pow(x,[e]) equal the e-th power of x for every element and every 64-bit exponent (with x^0 = 1, also for x = 0).", "quantifier": "all field elements and all 64-bit exponents", "why_tests_cant": "2^128 pairs; the constant-time bit mask selection must be right for each exponent bit", "anchors": ["fields/src/field_gl.rs: Fr::exp; ff::Field::pow"]}
{"id": "C05", "title": "Legendre symbol and square roots", "statement": "legendre() classifies every element correctly, sqrt() terminates, returns Some(r) with r^2 = x iff x is a square, and None iff it is not.", "quantifier": "all field elements", "why_tests_cant": "Tonelli-Shanks loop must terminate and be right for every element; half of all inputs take different numbers of iterations", "anchors": ["fields/src/field_gl.rs: legendre, sqrt"]}
{"id": "C06", "title": "Goldilocks equality, zero test and order are those of the integer values", "statement": "a == b iff as_int(a) = as_int(b), is_zero iff as_int = 0, and the Ord comparison is the order of as_int; the order is total.", "quantifier": "all pairs of field elements", "why_tests_cant": "equality is decided on Montgomery limbs, so it needs canonicity of every representation reachable through any history of operations", "anchors": ["fields/src/field_gl.rs: PartialEq, Ord, is_zero"]}
{"id": "C07", "title": "Representation bit utilities", "statement": "For a 64-bit representation, num_bits is the bit length, div2/shr by n are floor division by 2^n, shl/is_odd/is_even agree with the integer. (num_bits is violated by the code: it reports 64 more than the bit length.)", "quantifier": "all 64-bit representations and all shift amounts", "why_tests_cant": "all 2^64 x 2^32 inputs", "anchors": ["fields/src/field_gl.rs: num_bits, shr, shl, div2, mul2, is_odd, is_even"]}
{"id": "C08", "title": "Raw u64 conversion", "statement": "Converting a field element to u64 with From<Fr> and back with Fr::from gives the element back. (Violated: the conversion returns the Montgomery limb.) It is inverse to from_raw_repr.", "quantifier": "all field elements", "why_tests_cant": "needs all elements; the two notions agree on zero and differ elsewhere", "anchors": ["fields/src/field_gl.rs: From<Fr> for u64, From<u64> for Fr"]}
{"id": "C09", "title": "Cubic extension arithmetic is that of F_p[x]/(x^3-x-1)", "statement": "For all F3G operands of either dimension, +, -, negation, *, square and mul_scalar compute the operation of the quotient ring F_p[x]/(x^3-x-1), with dimension-1 operands embedded as constants, and the result dimension is 3 unless both are 1.", "quantifier": "all pairs of F3G values, all four dimension combinations", "why_tests_cant": "2^384 operand pairs; the Karatsuba cross terms must cancel identically", "anchors": ["starky/src/f3g.rs: Add, Sub, Neg, Mul, square, mul_scalar"]}
{"id": "C10", "title": "Cubic extension inversion", "statement": "x * inv(x) = 1 for every nonzero F3G value, inv(0) = 0, and x/y*y = x for y != 0; in particular the extension has no zero divisors.", "quantifier": "all F3G values", "why_tests_cant": "the norm computed by inv must be nonzero for every nonzero element: this is irreducibility of x^3-x-1 over F_p", "anchors": ["starky/src/f3g.rs: inv, _inv, Div"]}
{"id": "C11", "title": "Cubic extension exponentiation", "statement": "exp(x,e) = x^e for every F3G x and every exponent e.", "quantifier": "all F3G values and all exponents", "why_tests_cant": "unbounded exponents and 2^192 bases", "anchors": ["starky/src/f3g.rs: exp"]}
{"id": "C12", "title": "Cubic extension comparisons", "statement": "gt is the lexicographic (constant coefficient first) strict order on operands of equal dimension, lt/geq/leq are its converse/complement, exactly one of lt, eq, gt holds.", "quantifier": "all pairs of F3G values of equal dimension", "why_tests_cant": "all pairs", "anchors": ["starky/src/f3g.rs: gt, geq, lt, leq, _eq"]}
{"id": "C13", "title": "Quintic extension arithmetic, inversion and totality", "statement": "F5G +,-,*,square,inv are those of F_p[x]/(x^5-3), with x*inv(x)=1 for every nonzero x; negation and comparison are total. (Violated: negation of a dimension-5 value panics; lt diverges when gt holds; gt is not lexicographic.)", "quantifier": "all F5G values", "why_tests_cant": "2^320 values; Frobenius constants must be right", "anchors": ["starky/src/f5g.rs: Add, Sub, Neg, Mul, square, inv, gt, lt"]}
{"id": "C14", "title": "Batch inversion", "statement": "batch_inverse returns the list of inverses of its inputs whenever no input is zero, for every length. (If any input is zero the code returns all zeros.)", "quantifier": "all lists of field elements of every length", "why_tests_cant": "unbounded length; the prefix/suffix product recursion", "anchors": ["starky/src/polutils.rs: batch_inverse"]}
{"id": "C15", "title": "Polynomial evaluation and scaling helpers", "statement": "eval_pol(p,x) = sum p_i x^i, and after pol_mul_axi(p, init, acc) every evaluation satisfies new(x) = init * old(acc*x).", "quantifier": "all coefficient lists of every length, all points", "why_tests_cant": "unbounded length", "anchors": ["starky/src/polutils.rs: eval_pol, pol_mul_axi"]}
{"id": "C16", "title": "Serial FFT is the discrete Fourier transform", "statement": "For every input of length 2^k (k < 32), fft(p)[i] = sum_j p_j w^(ij), with w the primitive 2^k-th root of unity of the domain table.", "quantifier": "all sizes 2^k and all coefficient vectors over F_p or its extension", "why_tests_cant": "unbounded sizes and values", "anchors": ["starky/src/fft.rs: fft, set_roots; starky/src/constant.rs: MG"]}
{"id": "C17", "title": "Serial inverse FFT inverts the FFT", "statement": "ifft(fft(p)) = p and fft(ifft(e)) = e for every power-of-two length.", "quantifier": "all sizes and vectors", "why_tests_cant": "unbounded sizes and values", "anchors": ["starky/src/fft.rs: fft, ifft"]}
{"id": "C18", "title": "Low-degree extension", "statement": "extend_pol(e, b) returns the evaluations on the coset 49*<w'> of the unique polynomial of degree < n whose evaluations on <w> are e.", "quantifier": "all sizes, blow-ups and vectors", "why_tests_cant": "unbounded sizes and values", "anchors": ["starky/src/polutils.rs: extend_pol"]}
{"id": "C19", "title": "Parallel blocked FFT equals the serial FFT", "statement": "fft_p's fft/ifft of an n x n_pols matrix equals, column by column, the serial DFT/inverse DFT, for every n=2^k, number of columns and number of worker threads (hence block size), and for either parity of the number of transpositions.", "quantifier": "all sizes, column counts, worker counts and matrices", "why_tests_cant": "the block size depends on the number of CPUs; most (nbits, blockbits) combinations are never exercised by tests", "anchors": ["starky/src/fft_p.rs: _fft, fft, ifft, bit_reverse, inv_bit_reverse, transpose; starky/src/fft_worker.rs: fft_block, _fft_block"]}
{"id": "C20", "title": "Parallel interpolate computes the low-degree extension", "statement": "interpolate(src) of every column is its low-degree extension to the coset, regardless of worker count and of the previous contents of the destination buffer. (The independence of the destination contents holds when the second phase performs an even number of transposes.)", "quantifier": "all sizes, column counts, worker counts, matrices and previous buffer contents", "why_tests_cant": "buffer-history dependence", "anchors": ["starky/src/fft_p.rs: interpolate, interpolate_bit_reverse, interpolate_prepare; fft_worker.rs: interpolate_prepare_block"]}
{"id": "C21", "title": "Bit-reversal permutation", "statement": "BR(x, k) is the k-bit reversal of x for x < 2^k, is an involution, and its answer does not depend on the calls made before. (The cached version can panic for x > 2^k after certain histories.)", "quantifier": "all x, k and all call histories", "why_tests_cant": "the answer goes through a process-global cache: every history matters", "anchors": ["starky/src/fft_p.rs: BR, BRs cache"]}
{"id": "C22", "title": "Roots of unity table", "statement": "MG.0[k] has multiplicative order exactly 2^k for every k <= 32 and MG.0[k]^2 = MG.0[k-1]; the coset shift 49 is not in the subgroup of order 2^32, so x^N - 1 never vanishes on an evaluation coset.", "quantifier": "all table indices and all coset points", "why_tests_cant": "needs order of elements and all coset points, not samples", "anchors": ["starky/src/constant.rs: MG, SHIFT"]}
{"id": "C23", "title": "Coset multipliers are in distinct cosets", "statement": "get_ks(n) yields multipliers 1, k, k^2, ... which lie in pairwise distinct cosets of the largest two-adic subgroup (for the sizes used by the compressor, n <= 11), so the cells of a connection argument have distinct labels.", "quantifier": "all pairs of cells (column, row) of every domain size 2^k, k <= 32", "why_tests_cant": "all pairs of cells in domains of up to 2^32 rows", "anchors": ["starky/src/helper.rs: get_ks; recursion/src/compressor12/plonk_setup.rs"]}
{"id": "C24", "title": "Linear hash length handling", "statement": "LinearHash output is determined by the inputs through the documented sponge: inputs of at most 4 elements are returned zero-padded, longer ones are absorbed 8 at a time with zero padding; in particular lengths are not bound: trailing zeros inside a padding block do not change the digest.", "quantifier": "all input lists, batch sizes and all permutations as Poseidon", "why_tests_cant": "unbounded lengths", "anchors": ["starky/src/linearhash.rs: hash, _hash"]}
{"id": "C25", "title": "Merkle tree (Goldilocks) completeness", "statement": "For every matrix of height >= 2 and every index < height, get_group_proof returns the row and a path that verify_group_proof accepts against root(); an index >= height is an error. (Violated for height 1: root() is a default node.)", "quantifier": "all matrices of every width and height, all indices, any hash function", "why_tests_cant": "unbounded heights incl. odd level sizes", "anchors": ["starky/src/merklehash.rs: merkelize, get_group_proof, verify_group_proof, root"]}
{"id": "C26", "title": "Merkle tree (Goldilocks) binding", "statement": "If verify_group_proof accepts two different rows for the same root, index and path length, then one can read off the two openings an explicit collision of the row hash or of the node hash.", "quantifier": "all roots, indices, rows and paths (including adversarial ones)", "why_tests_cant": "adversarial inputs cannot be enumerated", "anchors": ["starky/src/merklehash.rs: verify_group_proof, calculate_root_from_group_proof"]}
{"id": "C27", "title": "Merkle tree construction is independent of the worker count", "statement": "merkelize yields the same node array for every number of worker threads and hence every chunking.", "quantifier": "all worker counts, matrices and sizes", "why_tests_cant": "chunk size depends on the machine; only one machine is tested", "anchors": ["starky/src/merklehash.rs: merkelize, merklize_level, do_merklize_level"]}
{"id": "C28", "title": "Merkle tree (BN128) completeness and binding", "statement": "For height >= 2 honest openings verify; an accepted opening binds the row. (Binding is violated: when the path is nonempty, the code never looks at the row or the index, so the honest path opens to ANY row at ANY index.)", "quantifier": "all matrices, roots, rows, indices and hash functions", "why_tests_cant": "the attack needs an adversarial opening, tests only check honest ones", "anchors": ["starky/src/merklehash_bn128.rs: merkle_calculate_root_from_proof, verify_group_proof, merkle_gen_merkle_proof"]}
{"id": "C29", "title": "Transcript (Goldilocks) is a deterministic sponge insensitive to put boundaries", "statement": "Splitting a put into several puts of the same concatenated elements gives the same state and all later challenges; a get between puts discards buffered output and pads with zeros; two transcripts differing only in trailing zero padding before the first get produce equal challenges.", "quantifier": "all histories of put/get operations", "why_tests_cant": "unbounded operation histories", "anchors": ["starky/src/transcript.rs: put, get_field, get_fields1, update_state, add_1"]}
{"id": "C30", "title": "Transcript (BN128) challenges depend on everything absorbed before them", "statement": "A challenge element drawn after a put is squeezed from a state that has absorbed the put. (Violated by get_fields1 when a previous field was only partly consumed: out3 is not cleared.) It holds when challenges are drawn three at a time as get_field does.", "quantifier": "all histories of put / get operations", "why_tests_cant": "unbounded histories; the stale buffer only shows for particular interleavings", "anchors": ["starky/src/transcript_bn128.rs: add_1, get_fields1, get_field, put"]}
{"id": "C31", "title": "Query index derivation", "statement": "get_permutations(n, nbits) returns n indices each < 2^nbits whose bits are the successive 63-bit (253-bit for BN128) windows of the squeezed fields, each bit used exactly once.", "quantifier": "all n, nbits and transcript states", "why_tests_cant": "all transcript states", "anchors": ["starky/src/transcript.rs: get_permutations; starky/src/transcript_bn128.rs: get_permutations"]}
{"id": "C32", "title": "FRI folding is polynomial folding and the verifier recomputes it", "statement": "The value the verifier computes from an opened group at query y (ifft of the group, evaluated at challenge/(shift*w^y)) equals the value the prover put at index y of the next layer, and equals the folded polynomial sum_j x^j p_j evaluated at the next domain's point.", "quantifier": "all layer sizes, folding factors, polynomials, challenges and indices", "why_tests_cant": "unbounded sizes and all challenges", "anchors": ["starky/src/fri.rs: prove, verify; starky/src/polutils.rs"]}
{"id": "C33", "title": "FRI completeness", "statement": "For an honest prover and a polynomial of degree below the rate, every check of verify passes for every step configuration and all challenges.", "quantifier": "all step schedules, polynomials, challenges and query indices", "why_tests_cant": "all challenge values", "anchors": ["starky/src/fri.rs: prove, verify"]}
{"id": "C34", "title": "FRI final degree check", "statement": "verify rejects a last-layer polynomial that has degree >= the bound. (Slack in the code: the coefficient at index max_deg is not checked.)", "quantifier": "all last layers", "why_tests_cant": "all last layers", "anchors": ["starky/src/fri.rs: verify"]}
{"id": "C35", "title": "Proof equality", "statement": "Two FRI query objects compare equal iff they are equal componentwise. (Violated: lengths are ignored because zip is used.)", "quantifier": "all pairs of query objects", "why_tests_cant": "all pairs", "anchors": ["starky/src/fri.rs: PartialEq for Query"]}
{"id": "C36", "title": "Vanishing polynomial inverse", "statement": "build_Zh_Inv/Zi returns, at every point x of the extended coset, the inverse of x^N - 1.", "quantifier": "all domain sizes, blow-ups and points", "why_tests_cant": "unbounded sizes", "anchors": ["starky/src/stark_gen.rs: build_Zh_Inv"]}
{"id": "C37", "title": "Plookup sorted columns", "statement": "For every f all of whose entries occur in t (same length n), calculate_H1H2 succeeds and the interleaving h1[0],h2[0],h1[1],... is a permutation of f ++ t in which equal values are contiguous in the order of t (the plookup precondition); it fails when some f_i is not in t.", "quantifier": "all columns f, t of every length", "why_tests_cant": "unbounded lengths with repetitions", "anchors": ["starky/src/stark_gen.rs: calculate_H1H2"]}
{"id": "C38", "title": "Grand product column", "statement": "calculate_Z(num,den) with nonzero denominators returns z with z[0]=1 and z[i+1]*den[i] = z[i]*num[i] cyclically; it panics iff the product of num differs from that of den.", "quantifier": "all columns of every length", "why_tests_cant": "unbounded lengths", "anchors": ["starky/src/stark_gen.rs: calculate_Z"]}
{"id": "C39", "title": "Out-of-domain openings", "statement": "The evals computed by the prover from the coset evaluations (LEv dot product) equal the committed polynomial evaluated at xi (and at w*xi for 'prime' columns).", "quantifier": "all polynomials, sizes and challenges", "why_tests_cant": "all challenge values", "anchors": ["starky/src/stark_gen.rs: evals / LEv"]}
{"id": "C40", "title": "Quotient splitting", "statement": "The committed pieces q_i satisfy q(x) = sum_i x^(N i) q_i(x), which is what the verifier recombines.", "quantifier": "all quotient polynomials, sizes and degrees", "why_tests_cant": "unbounded sizes", "anchors": ["starky/src/stark_gen.rs: qq1/qq2; starky/src/stark_verify.rs: q recombination"]}
{"id": "C41", "title": "Compiled expression programs compute what their source segments mean", "statement": "For every segment, running the compiled block over row i writes exactly the value obtained by evaluating the segment's instructions directly on the section columns at row i, with 'prime' references reading row (i+next) mod N, and leaves every other cell unchanged (provided each written value has the dimension of its column; a one-dimensional value written into a three-dimensional column overwrites only the first cell).", "quantifier": "all segments, rows, and buffer contents", "why_tests_cant": "all programs", "anchors": ["starky/src/interpreter.rs: compile_code, Block::eval"]}
{"id": "C42", "title": "Parallel expression evaluation is independent of the worker count", "statement": "For each of the prover's steps and any number of workers from 1 to 2048, calculate_exps_parallel leaves in every section exactly what the sequential calculate_exps leaves there (started from the context in which the sections that are only outputs of the step are zero), for segments that do not read 'prime' rows of columns they write. (With more workers the last chunk can be shorter than the look-ahead and the evaluation panics.)", "quantifier": "all chunk sizes and programs", "why_tests_cant": "chunking depends on the CPU count", "anchors": ["starky/src/stark_gen.rs: calculate_exps_parallel"]}
{"id": "C43", "title": "Prover and verifier derive the same challenges", "statement": "The sequences of transcript operations performed by the prover and by the verifier on an honest proof are identical, so all challenges agree.", "quantifier": "all proofs, step schedules and numbers of publics", "why_tests_cant": "all histories", "anchors": ["starky/src/stark_gen.rs; starky/src/stark_verify.rs; starky/src/fri.rs"]}
{"id": "C44", "title": "Code generation preserves expression meaning", "statement": "Executing the three-address code generated for an expression tree yields the value of the tree, for every tree, shift ('prime') and environment; already-computed subexpressions are not recomputed but keep their meaning.", "quantifier": "all expression trees and environments", "why_tests_cant": "all trees", "anchors": ["starky/src/starkinfo_codegen.rs: pil_code_gen, eval_exp, eval_single_op, find_muladd, iterative_postorder_traversal"]}
{"id": "C45", "title": "Intermediate-polynomial selection respects the degree bound", "statement": "When calculate_im_pols selects a set of expressions to commit, replacing them by columns makes the degree of the constraint expression and of every selected expression at most the bound.", "quantifier": "all expression trees and bounds", "why_tests_cant": "all trees", "anchors": ["starky/src/starkinfo_cp_prover.rs: calculate_im_pols, _calculate_im_pols, get_exp_dim"]}
{"id": "C46", "title": "Column layout has no overlaps", "statement": "map_section assigns to the polynomials of a section pairwise disjoint, in-range column ranges that cover the row exactly.", "quantifier": "all sets of polynomials and dimensions", "why_tests_cant": "all layouts", "anchors": ["starky/src/starkinfo_map.rs: map_section"]}
{"id": "C47", "title": "Polynomial table save/load round-trip", "statement": "Loading a saved table gives it back for every number of columns and rows, for any split of the byte stream into reads that are multiples of 8 bytes. (Reads not multiple of 8 lose bytes; a truncated file makes load loop forever.)", "quantifier": "all tables and all read splits", "why_tests_cant": "short reads depend on the OS", "anchors": ["starky/src/polsarray.rs: save, load"]}
{"id": "C48", "title": "zkin join", "statement": "The joined input contains for every key k of the first (second) input the key a_k (b_k) with its value, its publics minus the trailing verification-key root, and rootC; no entry is lost or overwritten.", "quantifier": "all pairs of input maps", "why_tests_cant": "all maps", "anchors": ["starky/src/zkin_join.rs"]}
{"id": "C49", "title": "R1CS to PLONK conversion preserves satisfiability", "statement": "A witness satisfies the R1CS iff its extension by the addition gates satisfies all generated PLONK gates. (Violated for constraints with a constant A or B factor: the sign of C is flipped.)", "quantifier": "all constraint systems and witnesses", "why_tests_cant": "all systems and witnesses", "anchors": ["recursion/src/r1cs2plonk.rs: r1cs2plonk"]}
{"id": "C50", "title": "Witness extension", "statement": "The compressor's exec fills every added variable with the linear combination its addition gate demands and every cell with the value of its signal.", "quantifier": "all witnesses, addition lists and signal maps", "why_tests_cant": "unbounded lists", "anchors": ["recursion/src/compressor12/compressor12_exec.rs"]}
{"id": "C51", "title": "Exec file round-trip", "statement": "read_exec_file(write_exec_file(adds, s_map)) returns the same additions and signal map.", "quantifier": "all lists", "why_tests_cant": "unbounded lists", "anchors": ["recursion/src/compressor12/compressor12_exec.rs, compressor12_setup.rs: read_exec_file, write_exec_file"]}
{"id": "C52", "title": "Copy-constraint permutation", "statement": "The S polynomials encode a permutation of the 12 x N cells whose cycles are exactly the sets of cells carrying the same nonzero signal; hence a filling satisfies the permutation iff it is constant on each signal.", "quantifier": "all signal maps", "why_tests_cant": "all maps", "anchors": ["recursion/src/compressor12/plonk_setup.rs: S polynomials"]}
{"id": "C53", "title": "PLONK row allocation has enough rows", "statement": "The number of rows computed in advance suffices for the rows used by the gate placement. (Violated: gates with different selectors used once each.)", "quantifier": "all gate lists", "why_tests_cant": "all lists", "anchors": ["recursion/src/compressor12/plonk_setup.rs"]}
{"id": "C54", "title": "Digest <-> scalar conversion", "statement": "An ElementDigest built from a BN128 scalar converts back to it; serialised digests and extension elements deserialise to themselves.", "quantifier": "all digests / elements", "why_tests_cant": "all values", "anchors": ["starky/src/digest.rs; starky/src/serializer.rs"]}
{"id": "C55", "title": "Witness file round-trip", "statement": "A witness written by save_witness_from_bin_writer is read back unchanged by load_witness_from_bin_reader, and malformed headers are rejected.", "quantifier": "all witnesses of every length and all byte strings", "why_tests_cant": "unbounded lengths", "anchors": ["algebraic/src/witness/witness_calculator.rs; algebraic/src/reader.rs"]}
{"id": "C56", "title": "R1CS file parsing is independent of section order", "statement": "Parsing an r1cs file gives the same circuit whatever the order of its sections, and the parse of an encoded circuit is the circuit (up to sorting of the linear combinations).", "quantifier": "all circuits and section orders", "why_tests_cant": "all files", "anchors": ["algebraic/src/r1cs_file.rs: from_reader"]}
{"id": "C57", "title": "Limb conversion", "statement": "from_array32(to_array32(n, size)) = n for every 0 <= n < 2^(32*size); larger values panic.", "quantifier": "all integers and sizes", "why_tests_cant": "unbounded integers", "anchors": ["algebraic/src/witness/witness_calculator.rs: to_array32, from_array32"]}
{"id": "C58", "title": "PIL number parsing", "statement": "parse_pil_number returns the canonical residue mod p of the parsed integer. (Violated for integers below -p.)", "quantifier": "all 128-bit integers", "why_tests_cant": "2^128 inputs", "anchors": ["starky/src/types.rs: parse_pil_number"]}
{"id": "C59", "title": "Circuit synthesis preserves constraints", "statement": "Synthesising a circom circuit enforces exactly the R1CS constraints: a witness satisfies the synthesised system iff it satisfies the R1CS (skipping 0*LC=0 loses nothing), and public inputs are wires 1..num_inputs.", "quantifier": "all circuits and witnesses", "why_tests_cant": "all circuits", "anchors": ["algebraic/src/circom_circuit.rs"]}
{"id": "C60", "title": "Iterative postorder equals recursive postorder", "statement": "The explicit-stack traversal used to avoid recursion visits the nodes of every expression tree in recursive postorder.", "quantifier": "all trees", "why_tests_cant": "unbounded trees", "anchors": ["starky/src/starkinfo_codegen.rs: iterative_postorder_traversal"]}
{"id": "C61", "title": "log2_any", "statement": "log2_any(n) = floor(log2 n) for every 1 <= n < 2^32, and 0 for n = 0.", "quantifier": "all n < 2^32", "why_tests_cant": "2^32 values; wrong above", "anchors": ["starky/src/helper.rs: log2_any"]}
{"id": "C62", "title": "BN128 row hash: build and verify agree", "statement": "For the BN128-hashed Merkle tree, the leaf digest computed while building the tree equals the leaf digest recomputed when a query is verified, for every row. (Violated exactly at width 4.)", "quantifier": "all rows of every width", "why_tests_cant": "all rows; the width-4 disagreement is a corner", "anchors": ["starky/src/linearhash_bn128.rs"]}
{"id": "C63", "title": "Plookup grand product closes for honest columns", "statement": "For the columns h1, h2 that calculate_H1H2 returns for f and t, and every pair of challenges beta, gamma, the product over all rows of the plookup numerators (f+gamma)(t+beta t'+gamma(1+beta))(1+beta) equals the product of the denominators (h1+beta h2+gamma(1+beta))(h2+beta h1'+gamma(1+beta)), with ' the cyclically next row, so the prover's grand product column closes.", "quantifier": "all columns f, t of equal length with f contained in t, all challenges", "why_tests_cant": "a multiset identity over columns of any length and all field elements, including repeated table entries", "anchors": ["starky/src/stark_gen.rs: calculate_H1H2; starky/src/starkinfo_Z.rs: generate_plookup_Z"]}
{"id": "C64", "title": "Gate placement preserves the PLONK gates", "statement": "After placing a list of PLONK gates on rows (four per row, grouped by selectors, with the completion of incomplete rows), an assignment of the wires satisfies the row identities of the generated PIL on the placed rows iff it satisfies every gate; nothing else is written outside the placed rows.", "quantifier": "all lists of gates, all assignments, all starting rows", "why_tests_cant": "the packing depends on the multiset of selectors and their order", "anchors": ["recursion/src/compressor12/plonk_setup.rs: plonk_setup_compressor L262-379; recursion/src/compressor12/compressor12_pil.rs L106-124"]}
{"id": "C65", "title": "No gate depends on the unconnected wire 0", "statement": "Cells of wire 0 are not covered by the copy constraints, so a cheating prover can put any value there; every gate produced from an R1CS has coefficient zero on wire 0, hence its identity does not depend on such cells.", "quantifier": "all R1CS instances and all cell values", "why_tests_cant": "all constraint systems", "anchors": ["recursion/src/compressor12/plonk_setup.rs L699-702; recursion/src/r1cs2plonk.rs"]}
{"id": "C66", "title": "Custom gates impose their template", "statement": "The rows written for a use of CMulAdd, Poseidon12, EvPol4 or FFT4 make the PIL identities hold iff the values of the signals satisfy the template: a*b+c in the cubic extension, the 30 Poseidon rounds, evaluation of a degree 4 polynomial, the scaled radix-4/2 butterflies.", "quantifier": "all uses, all signal lists, all values", "why_tests_cant": "all field values over 372 cells", "anchors": ["recursion/src/compressor12/plonk_setup.rs L381-662; recursion/src/compressor12/compressor12_pil.rs L126-362"]}
{"id": "C67", "title": "Each custom gate use is handled as its declared template", "statement": "The setup treats a use whose id refers to a declared template as that template. (Violated when CMulAdd or Poseidon12 is not declared: id 0 is taken for it.)", "quantifier": "all lists of declarations and ids", "why_tests_cant": "depends on the presence and order of declarations", "anchors": ["recursion/src/compressor12/plonk_setup.rs: CustomGateInfo::from_r1cs"]}
{"id": "C68", "title": "Compressor setup: end-to-end equivalence with the R1CS", "statement": "The columns of the compressor can be filled so that the public, gate and connection identities hold for given public values iff there is a witness with these public values satisfying the R1CS and all its custom gates. In particular an arbitrary (malicious) filling yields a witness. (Violated: a CMulAdd that falls beyond the reserved rows is dropped silently; constraints with a non-null constant factor.)", "quantifier": "all R1CS instances with custom gates, all fillings of the columns, all public values", "why_tests_cant": "soundness quantifies over all fillings", "anchors": ["recursion/src/compressor12/plonk_setup.rs; recursion/src/r1cs2plonk.rs; recursion/src/compressor12/compressor12_pil.rs"]}
{"id": "C69", "title": "R1CS files over another field are rejected", "statement": "A file whose header carries a field modulus other than the one of the curve the reader was instantiated for is rejected. (Violated: the reader for BN254 accepts a BLS12-381 file.)", "quantifier": "all byte strings", "why_tests_cant": "all files", "anchors": ["algebraic/src/r1cs_file.rs: from_reader"]}
{"id": "C70", "title": "A STARK proof is recovered from its JSON", "statement": "Deserialising the JSON object written for a proof gives the proof back, for every number of FRI steps up to 31, of queries and of openings. (Violated for the scalar-field trees: an authentication path element with a 64-bit limb at or above the Goldilocks modulus is read back as another scalar.)", "quantifier": "all proofs of the shape the prover produces", "why_tests_cant": "all numbers of steps and queries, all field values; colliding limbs have probability 2^-32 per limb", "anchors": ["starky/src/serializer.rs: Serialize/Deserialize for StarkProof; starky/src/digest.rs"]}
{"id": "C71", "title": "The STARK verifier accepts honest proofs (protocol level)", "statement": "If the prover returns a proof and the values it computed are consistent (the trees open to their rows, the constraint identity holds at xi on the openings, the FRI polynomial has degree below the trace length and the query program computes it from the opened rows), then the verifier accepts that proof and ends in the same transcript state.", "quantifier": "all Merkle schemes, transcripts, configurations, FRI step schedules and computed values", "why_tests_cant": "all challenges and query positions", "anchors": ["starky/src/stark_gen.rs: stark_gen; starky/src/stark_verify.rs: stark_verify; starky/src/fri.rs"]}
{"id": "C72", "title": "What STARK acceptance guarantees", "statement": "If the verifier accepts any proof, then for the challenges drawn from the transcript of that proof: the constraint program evaluated on the openings equals Q(xi)*Z(xi), FRI accepts, and every query carries rows that open the proof's roots and the given constant root at the transcript-derived index, from which the query program computes exactly the value the next FRI layer has there.", "quantifier": "all proofs, also malicious ones", "why_tests_cant": "all byte contents of a proof", "anchors": ["starky/src/stark_verify.rs: stark_verify, execute_code"]}
{"id": "C73", "title": "The verifier programs compute the constraint and the FRI expression", "statement": "The generated constraint program, run on openings that hold a value for every column at xi and w*xi, computes the value of the constraint expression for those values (intermediate polynomials through their columns), and the positions recorded for the quotient pieces are those of their openings; the generated query program computes the FRI expression from the opened rows.", "quantifier": "all constraint systems, all sets of intermediate polynomials, all openings and rows", "why_tests_cant": "all programs", "anchors": ["starky/src/starkinfo_cp_ver.rs; starky/src/starkinfo_fri_ver.rs; starky/src/starkinfo_map.rs; starky/src/stark_verify.rs: execute_code"]}
{"id": "C74", "title": "The FRI polynomial is a low-degree polynomial built from every opening", "statement": "With at least one committed column and one opening at xi, the FRI expression is vf1-Horner over the committed columns combined with the vf2-Horner of all differences to the openings divided by (x - xi) and (x - w xi); if the columns have degree below n and the openings are their values, it is the evaluation of one polynomial of degree below n.", "quantifier": "all numbers of columns and openings, all column polynomials and challenges", "why_tests_cant": "all polynomials", "anchors": ["starky/src/starkinfo_fri_prover.rs: generate_fri_polynomial"]}
{"id": "C75", "title": "An honest prover convinces the verifier (end to end)", "statement": "For every well-formed constraint system and every trace that satisfies its constraints for the drawn challenges, the Goldilocks prover (low-degree extension, commitments, constraint quotient, openings, FRI polynomial, FRI) returns a proof, and the verifier with the generated programs accepts it, unless the evaluation challenge falls on the evaluation coset.", "quantifier": "all constraint systems accepted by the setup, all satisfying traces, public inputs, sizes, FRI schedules, worker counts and query numbers", "why_tests_cant": "the statement is about all traces, circuits and challenges together", "anchors": ["starky/src/stark_gen.rs: stark_gen; starky/src/stark_verify.rs: stark_verify; starky/src/starkinfo.rs: StarkInfo::new; starky/src/starkinfo_cp_prover.rs; starky/src/starkinfo_fri_prover.rs; starky/src/fft_p.rs; starky/src/fri.rs"]}
{"id": "C76", "title": "The dimension of an expression bounds its values", "statement": "If the dimension computed for an expression is 1 then the expression takes values in the base field wherever its columns of dimension 1, the constants, the public inputs and its literals do; so a quotient stored with one coordinate loses nothing.", "quantifier": "all expressions, column assignments and challenges", "why_tests_cant": "all values", "anchors": ["starky/src/starkinfo_map.rs: get_exp_dim"]}
{"id": "C77", "title": "Permutation identities are sound", "statement": "If the selected tuples of the two sides of a permutation identity are different as multisets, then for all challenges u, defVal, beta outside sets of size at most (2N)^2(m-1), 2N and N, drawn in this order after the first columns are fixed, no later columns and challenges satisfy all identities of the system the setup generates.", "quantifier": "all PILs, tables, selectors, permutation identities and all later columns", "why_tests_cant": "all adversarial columns and challenges", "anchors": ["starky/src/starkinfo_Z.rs: generate_permutation_LC, generate_permutation_Z; starky/src/starkinfo.rs: StarkInfo::new"]}
{"id": "C78", "title": "Plookup identities are sound", "statement": "If a selected looked-up tuple does not occur among the selected tuples of the table, then for all challenges u, defVal outside sets of size at most (2N)^2(m-1) and 2N, for every choice of the h1, h2 columns, and all beta, gamma outside sets of size at most (4N)^2+1 and 2N, no running-product columns satisfy all identities of the generated system.", "quantifier": "all PILs, tables, selectors, plookup identities and all adversarial columns in protocol order", "why_tests_cant": "all adversarial columns and challenges", "anchors": ["starky/src/starkinfo.rs: generate_step2; starky/src/starkinfo_Z.rs: generate_plookup_Z"]}
{"id": "C79", "title": "Connection identities are sound", "statement": "If the connection column of a cell holds the label of another cell and the two cells carry different values, then for all beta, gamma outside sets of size at most (2Nm)^2 and Nm no other columns and challenges satisfy all identities of the generated system; over Goldilocks the labels of all cells are different.", "quantifier": "all PILs, tables, connection identities of any number of columns and all adversarial columns", "why_tests_cant": "all adversarial columns and challenges", "anchors": ["starky/src/starkinfo_Z.rs: generate_connections_Z; starky/src/helper.rs: get_ks"]}
{"id": "C80", "title": "Lookup, permutation and connection arguments are complete", "statement": "If a table fulfils the identities, lookups, permutations and connections of the PIL, then the columns that the prover computes with calculate_H1H2 and calculate_Z exist for all challenges for which no denominator vanishes (all beta, gamma outside small explicit sets) and satisfy every identity of the generated system on every row; a prover trace with these columns satisfies the constraint system in the sense of the end-to-end theorem.", "quantifier": "all PILs, fulfilling tables, selectors and challenges", "why_tests_cant": "all tables and challenges", "anchors": ["starky/src/starkinfo_Z.rs; starky/src/starkinfo.rs: generate_step2; starky/src/stark_gen.rs: calculate_H1H2, calculate_Z"]}
{"id": "C81", "title": "Native Goldilocks Poseidon is the textbook permutation and the circuit's", "statement": "For every 8 inputs and 4 capacity elements, Poseidon::hash over Goldilocks, computed with sparse matrices and merged constants, returns the first elements of the textbook Poseidon permutation (4 full, 22 partial, 4 full rounds) with the round constants and matrix that the recursion circuit's Poseidon12 custom gate enforces; so signals satisfying the gate carry the native hash, and every input can be hashed in the circuit. No table access is out of range and no constant reaches the modulus.", "quantifier": "all states of twelve field elements and all signals of the gate", "why_tests_cant": "2^768 states; the optimized form is an algebraic rewriting that can differ on rare inputs only if a table entry is wrong", "anchors": ["starky/src/poseidon_opt.rs: Poseidon::hash, load_constants; starky/src/poseidon_constants_opt.rs; recursion/src/compressor12/constants.rs; recursion/src/compressor12_setup.rs: Poseidon12 rows"]}
{"id": "C82", "title": "Optimized Poseidon over BN254 and BLS12-381 computes plain Poseidon", "statement": "For every vector of inputs, every initial state and every number of outputs, hash and hash_ex of the optimized BN254 Poseidon return exactly what the plain BN254 Poseidon returns, errors and panics included (an error unless there are 1 to 16 inputs); the optimized BLS12-381 hash is the plain Poseidon of its matrix with the round constants obtained from its tables. The deprecated BLS12-381 hash is not replaced by an equal function.", "quantifier": "all input vectors of all sixteen widths, initial states and output counts", "why_tests_cant": "the domain is p^17; two implementations with independent tables of thousands of constants", "anchors": ["starky/src/poseidon_bn128.rs; starky/src/poseidon_bn128_opt.rs; starky/src/poseidon_bls12381.rs; starky/src/poseidon_bls12381_opt.rs and their constants files"]}
{"id": "C83", "title": "The Poseidon permutations are bijections", "statement": "Goldilocks Poseidon maps the states of twelve elements one to one onto themselves; for each number of inputs from 1 to 16, the full output of hash_ex over BN254 and over BLS12-381 determines inputs and initial state, and every vector of that width is an output.", "quantifier": "all states of all widths", "why_tests_cant": "injectivity over domains of size p^t cannot be sampled", "anchors": ["starky/src/poseidon_opt.rs: hash; starky/src/poseidon_bn128_opt.rs: hash_ex; starky/src/poseidon_bls12381_opt.rs: hash_ex"]}
{"id": "C84", "title": "The prover's lookup, permutation and connection columns satisfy the generated identities", "statement": "Run the generated programs on every row, apply calculate_H1H2 and calculate_Z, and store the results with set_pol: if this does not panic, the stored columns, read back, satisfy every identity that the setup generates for the lookups, permutations, connections and intermediate polynomials, whatever the buffers held before; the proof the prover then returns is accepted by the verifier.", "quantifier": "all PILs, tables, column layouts, challenges and initial buffer contents", "why_tests_cant": "all traces, layouts and challenges", "anchors": ["starky/src/stark_gen.rs: stark_gen, set_pol, get_pol, calculate_H1H2, calculate_Z; starky/src/starkinfo.rs: generate_step2; starky/src/starkinfo_Z.rs: generate_step3; starky/src/starkinfo_cp_prover.rs; starky/src/stark_verify.rs: stark_verify"]}
{"id": "C85", "title": "A table that fulfils its lookups, permutations and connections is proved", "statement": "If a table fulfils all identities, plookups, permutations and connections of the PIL, then for all u and defVal there are at most N#permutations + 1 values of beta and, for every other beta, at most 2N#plookups + N(connected columns) values of gamma outside of which the prover computes all its columns without panic, returns a proof and the verifier accepts it.", "quantifier": "all PILs, fulfilling tables, layouts, challenges and transcripts", "why_tests_cant": "all tables and challenges; the bad challenges are too rare to meet in a test", "anchors": ["starky/src/stark_gen.rs: stark_gen; starky/src/starkinfo_Z.rs; starky/src/starkinfo.rs: StarkInfo::new; starky/src/stark_verify.rs: stark_verify"]}
{"id": "C86", "title": "Vectorized Goldilocks arithmetic is the scalar arithmetic in every lane", "statement": "Packing field elements into a vector of four (AVX2) or eight (AVX-512) lanes, adding, subtracting, multiplying, squaring or dividing, and unpacking gives in every lane exactly the scalar result, in canonical form, whatever the other lanes hold; for lanes that are not canonical the result still has the right residue class.", "quantifier": "all lane values, all 64-bit patterns", "why_tests_cant": "2^256 to 2^1024 operand pairs; the carry corrections differ only on rare operands", "anchors": ["fields/src/arch/x86_64/avx2_field_gl.rs; fields/src/arch/x86_64/avx512_field_gl.rs: add, sub, mul, square, reduce128"]}
{"id": "C87", "title": "Vectorized negation is the scalar negation in every lane", "statement": "Negating a packed vector gives in every lane the canonical negative of the lane.", "quantifier": "all lane values", "why_tests_cant": "only lanes equal to zero differ", "anchors": ["fields/src/arch/x86_64/avx2_field_gl.rs: neg; fields/src/arch/x86_64/avx512_field_gl.rs: neg"]}
{"id": "C88", "title": "Interleaving vectors permutes the lanes as documented", "statement": "interleave(other, block_len) transposes the blocks of block_len lanes of the two vectors, for every supported block length, and applying it twice gives the original vectors.", "quantifier": "all lane values and block lengths", "why_tests_cant": "all 64-bit patterns", "anchors": ["fields/src/arch/x86_64/avx2_field_gl.rs: interleave; fields/src/arch/x86_64/avx512_field_gl.rs: interleave; fields/src/packed.rs"]}
{"id": "C89", "title": "AVX2 and AVX-512 Poseidon are the scalar Poseidon", "statement": "For every input, capacity and up to four outputs, the AVX2 Poseidon::hash returns what the scalar one returns, rejections included; the AVX-512 one, given two inputs and two capacities woven together, returns the two scalar digests. Beyond four (eight) outputs the vectorized hashes panic.", "quantifier": "all inputs, capacities and output counts", "why_tests_cant": "2^768 states; separate tables and separate modular arithmetic", "anchors": ["starky/src/arch/x86_64/avx2_poseidon_gl.rs: Poseidon::hash; starky/src/arch/x86_64/avx512_poseidon_gl.rs: Poseidon::hash; starky/src/poseidon_constants_avx2.rs; starky/src/poseidon_constants_avx512.rs; starky/src/poseidon_opt.rs: hash"]}
{"id": "C90", "title": "Linear hashes do not depend on the instruction set", "statement": "For every two inputs of the same length and every batch size, the AVX-512 LinearHash::hash of their concatenation returns the two digests of the scalar code without panicking; hash_element_matrix and the AVX2 build return the scalar digest for every input.", "quantifier": "all inputs, lengths and batch sizes", "why_tests_cant": "unbounded input lengths", "anchors": ["starky/src/linearhash.rs: hash, _hash, hash_element_matrix (three cfg variants)"]}
{"id": "C91", "title": "Merkle trees do not depend on the instruction set", "statement": "For every matrix (odd numbers of rows and of nodes included) and every number of worker threads, the AVX-512 and the AVX2 MerkleTreeGL::merkelize build exactly the tree of the scalar code, and verify_group_proof gives the same verdict for every root, path, index and row; so proofs made on one machine verify on another.", "quantifier": "all matrices, thread counts, roots, paths, indices and rows", "why_tests_cant": "unbounded sizes; the pairing of rows and nodes goes wrong only at odd boundaries", "anchors": ["starky/src/merklehash.rs: merkelize, do_merklize_level, calculate_root_from_group_proof, verify_group_proof (cfg variants)"]}
{"id": "C92", "title": "Every committed column has its own place in its Merkle tree", "statement": "After the setup, column k of the trace, of the lookups, of the grand products, of the intermediate polynomials and of the quotient (in this order) has a position in exactly one tree, the tree of its round; it has the same position on the trace domain and on the extended domain, it fits in the row, and no two columns share a cell. There is no further column.", "quantifier": "all circuits: numbers of columns, arguments, intermediate polynomials and degrees, for which the setup does not panic", "why_tests_cant": "unbounded numbers of columns and mixtures of one-cell and three-cell columns", "anchors": ["starky/src/starkinfo_map.rs: map, map_section, set_map_offsets, get_pol"]}
{"id": "C93", "title": "Every expression that the prover stores has its own column", "statement": "Both sides of every lookup, numerator and denominator of every grand product, and every intermediate polynomial have a column recorded in exp2pol, an intermediate polynomial exactly its committed column; the column fits in its row and two such expressions never share a cell, even when an expression is used by several arguments. The quotient and the FRI polynomial fill their own sections.", "quantifier": "all circuits", "why_tests_cant": "unbounded numbers of arguments, expressions shared in any pattern", "anchors": ["starky/src/starkinfo_map.rs: map (exp2pol, tmpexp_n, q_2ns, f_2ns)"]}
{"id": "C94", "title": "Columns are as wide as what they hold", "statement": "The number of cells of a committed column is the dimension of what it holds, computed from the final dimensions: 1 for the trace, the larger of the two sides for a lookup, 3 for a grand product, the dimension of its expression for an intermediate polynomial and for the quotient; it is 1 or 3. This holds for intermediate polynomials that do not refer to a grand product or contain a challenge; for others it fails (the setup overwrites the dimension of the grand products).", "quantifier": "all circuits whose lookups refer to earlier columns and whose intermediate polynomials do not refer to grand products, or contain a challenge", "why_tests_cant": "expressions refer to other expressions to any depth", "anchors": ["starky/src/starkinfo_map.rs: map, get_exp_dim"]}
{"id": "C95", "title": "The layout of the setup is the layout of the prover", "statement": "For every well-formed circuit the positions, widths and dimensions computed by the setup satisfy all the layout conditions under which the prover was shown to produce accepted proofs (C75, C76, C84, C85): columns of a tree are disjoint and inside the row, quotient pieces are consecutive, one-cell columns hold base field values.", "quantifier": "all well-formed circuits with lookups, permutations and connections", "why_tests_cant": "links two components for every circuit", "anchors": ["starky/src/starkinfo.rs: StarkInfo::new; starky/src/starkinfo_map.rs: map"]}
{"id": "C96", "title": "References in generated code become the right columns and fresh temporaries", "statement": "Rewriting generated code for the prover replaces every reference to an expression that has a column by that column, every other reference by a temporary, and nothing else; these temporaries are new, two references share one exactly when they name the same expression at the same row, and the rewriting only panics on a committed column that does not exist.", "quantifier": "all generated programs, all assignments of columns to expressions", "why_tests_cant": "programs have any length and refer to any expressions", "anchors": ["starky/src/starkinfo_map.rs: fix_prover_code", "starky/src/starkinfo_codegen.rs: iterate_code"]}
{"id": "C97", "title": "The compiled program fills every column with the value of its expression", "statement": "For every list of expressions and every buffers: the program the setup generates for the requested expressions, rewritten for the prover and run by the interpreter on all rows, succeeds; afterwards the column of every requested expression holds, at every row, the value the expression has in the rows of the buffers (references to the next row wrap around), and every cell outside the columns of expressions is unchanged.", "quantifier": "all expression lists, all requests, all layouts whose columns do not overlap, all buffer contents, all numbers of rows", "why_tests_cant": "composes code generation, rewriting, compilation and interpretation for arbitrary programs; a column written by one row is read by another", "anchors": ["starky/src/starkinfo_codegen.rs: pil_code_gen, build_code", "starky/src/starkinfo_map.rs: fix_prover_code", "starky/src/interpreter.rs: compile_code, eval", "starky/src/stark_gen.rs: calculate_exps_parallel"]}
{"id": "C98", "title": "The trace-domain programs run correctly on the buffers the setup laid out", "statement": "For every circuit with lookups, permutations and connections for which the setup succeeds: the program of a round, compiled for the layout that the setup computed, runs without panicking on the prover's buffers and leaves in the column of every requested expression its value at every row; columns already computed keep their values, all other cells are unchanged, and no value wider than its column is ever written.", "quantifier": "all circuits, all requests, all buffer contents, all numbers of rows", "why_tests_cant": "links layout computation, rewriting and interpretation for every circuit; widths go wrong only for particular mixtures of one-cell and three-cell values", "anchors": ["starky/src/starkinfo_map.rs: map, fix_prover_code", "starky/src/starkinfo_cp_prover.rs: im_exp2cm", "starky/src/starkinfo_pu_prover.rs; starky/src/starkinfo_pe_prover.rs; starky/src/starkinfo_ci_prover.rs", "starky/src/stark_gen.rs: calculate_exps"]}
{"id": "C99", "title": "The parallel run of a program gives the same columns for every number of workers", "statement": "For every program the setup generates, including programs that write a column at the next row: run by the parallel evaluator on any number of workers up to 2048, it succeeds whenever the requested expressions have values at every row, and afterwards the column of every requested expression holds its value at every row, whichever chunk the row was in; other columns are unchanged or hold their own expression's value, other cells and the sections that the step does not output are unchanged.", "quantifier": "all expression lists, requests, layouts, buffer contents, numbers of rows and workers", "why_tests_cant": "a row is computed by one worker and its next row, possibly, by another; chunk boundaries depend on the number of workers and rows", "anchors": ["starky/src/stark_gen.rs: calculate_exps_parallel", "starky/src/starkinfo_codegen.rs: build_code", "starky/src/interpreter.rs: compile_code, eval"]}
{"id": "C100", "title": "Batch inversion, the grand product and the sorted lookup columns on the prover's tagged elements", "statement": "On well-formed elements (dimension tag 1 or 3) batch inversion never panics and returns the inverses (0 for 0); the grand-product function returns the elements whose values are the running quotients of the values, and panics exactly when the field computation does (the product is not 1, as a value, whatever its tag); the lookup function, when all elements carry the same tag, returns the sorted merge of the values and panics exactly when some value is missing from the table; when the two inputs carry different tags it panics although every value may be present.", "quantifier": "all lists of elements with any tags", "why_tests_cant": "equality of tagged elements, of values and of map keys differ; only proofs over all elements and tags relate the Rust computation to the field statement", "anchors": ["starky/src/stark_gen.rs: calculate_H1H2, calculate_Z", "starky/src/polutils.rs: batch_inverse", "starky/src/f3g.rs: PartialEq, _eq, Hash/as_elements"]}
{"id": "C101", "title": "Writing a polynomial to the prover's buffers and reading it back", "statement": "set_pol followed by get_pol of the same polynomial returns the values written, in every row, for one-cell and three-cell polynomials; get_pol of every polynomial that lies in other cells, of the same or another section, returns what it returned before, and no other section changes. (A one-cell column accepts an extension element unchecked: it is stored whole and read back whole.)", "quantifier": "all layouts, all buffers, all polynomials, all numbers of rows", "why_tests_cant": "offset arithmetic over rows and widths must not collide for any layout", "anchors": ["starky/src/stark_gen.rs: set_pol, get_pol, get_pol_ref", "starky/src/starkinfo_map.rs: map_deg"]}
{"id": "C102", "title": "The second and third round of the prover fill its buffers with the columns of the arguments", "statement": "For every circuit with lookups, permutations and connections, the buffers of the prover before the second round, and all challenges: whenever the columns of the arguments exist (every looked-up value is in its table and the grand products end at 1), the two rounds - parallel evaluation of the compiled programs, reading the sides out of the buffers, sorting, grand products, writing the results back - succeed on any number of workers and leave in the committed sections exactly these columns, with the trace itself unchanged. The two sides of a lookup must be stored in equally wide columns, which always holds when neither side is an intermediate polynomial; a one-cell left side against a three-cell right side makes the prover panic.", "quantifier": "all circuits, layouts computed by the setup, traces, initial buffer contents, challenges, numbers of workers", "why_tests_cant": "composes code generation, rewriting, layout, the parallel interpreter, get_pol/set_pol and the column algorithms over arbitrarily many arguments; each intermediate buffer state must keep the columns already written", "anchors": ["starky/src/stark_gen.rs: stark_gen (rounds 2 and 3), calculate_exps_parallel, get_pol, set_pol, calculate_H1H2, calculate_Z", "starky/src/starkinfo.rs: StarkInfo::new", "starky/src/starkinfo_map.rs: map, fix_prover_code", "starky/src/starkinfo_Z.rs", "starky/src/starkinfo_cp_prover.rs"]}
{"id": "C103", "title": "The quotient and the FRI polynomial computed in the prover's buffers", "statement": "For every setup with its generated constraint program and FRI program, compiled for the extended domain: if the buffers hold the extended committed columns, the constants and the challenges, the parallel run of the program of step 4 (with the division by the vanishing polynomial appended) succeeds on any number of workers and leaves in the quotient section, at every row of the extended domain, exactly the cells of the constraint polynomial divided by the vanishing polynomial; the run of step 5 leaves in the FRI section the values of the FRI polynomial at every row; no other section changes. The committed quotient pieces (C76) are what is split from these cells.", "quantifier": "all expression lists, setups, layouts, buffer contents, challenges, evaluations, blow-up factors, numbers of rows and workers", "why_tests_cant": "links code generation, rewriting, compilation, chunked interpretation with tables that depend on the absolute row, and the algebraic quotient, for every circuit", "anchors": ["starky/src/stark_gen.rs: calculate_exps_parallel, stark_gen (steps 4 and 5)", "starky/src/starkinfo_cp_prover.rs: generate_constraint_polynomial", "starky/src/starkinfo_fri_prover.rs: generate_fri_polynomial", "starky/src/starkinfo_map.rs: fix_prover_code", "starky/src/interpreter.rs: compile_code, eval", "starky/src/zhinv.rs: ZhInv"]}
{"id": "C104", "title": "stark_gen, run on its buffers with the compiled programs, returns a proof the verifier accepts", "statement": "For every circuit with polynomial identities, lookups, permutations and connections that the setup accepts, and every trace that fulfils these relations: stark_gen as the program it is - allocate the buffers, extend and merkelize each section, run the compiled programs on the workers, move polynomials in and out of the buffers, divide and split the quotient, open the columns, build the FRI polynomial, prove it - runs without a panic and returns a proof that stark_verify accepts, unless one of the challenges falls into an exceptional set of bounded size. It returns exactly the proof and the transcript state of the mathematical prover on named columns (C84, C85), for every number of workers up to 2048 and whatever the reused buffers held before.", "quantifier": "all circuits, traces, layouts computed by the setup, numbers of workers, previous contents of reused buffers, hash functions (for the refinement: all Merkle trees and transcripts)", "why_tests_cant": "end-to-end correctness of a composition of some twenty passes over mutable buffers; each pass must leave exactly what the next one reads, for every circuit", "anchors": ["starky/src/stark_gen.rs: stark_gen, extend_and_merkelize, merkelize, calculate_exps_parallel, get_pol, set_pol, get_pol_ref", "starky/src/stark_setup.rs: StarkSetup::new", "starky/src/starkinfo.rs: StarkInfo::new", "starky/src/starkinfo_map.rs: map, fix_prover_code", "starky/src/stark_verify.rs: stark_verify"]}
{"id": "C105", "title": "The public inputs a proof carries are the values the trace gives them", "statement": "For every trace and every list of public inputs - a cell of the trace, or the value of an expression at a row, which may read the next row and earlier public inputs - the setup generates the programs of the expressions, and the prover computes exactly the value of every public input, changes nothing else but its temporaries, and carries these values into the proof that the verifier accepts. (The code satisfies this only if the expressions come before the cells: the programs are stored without gaps but looked up by the position among all public inputs, so an expression after a cell makes the prover panic whatever the trace.)", "quantifier": "all circuits, traces, lists of public inputs", "why_tests_cant": "positions in one list index another list; only a proof over all lists separates the orders that work from those that panic", "anchors": ["starky/src/stark_gen.rs: stark_gen (publics), calculate_exp_at_point", "starky/src/starkinfo.rs: generate_public_calculators", "starky/src/starkinfo_codegen.rs: pil_code_gen, build_code, iterate_code", "starky/src/types.rs: Public"]}
{"id": "C106", "title": "The circuit prints the verifier's programs faithfully", "statement": "For every program the native verifier evaluates (constraint check and query check) that runs to a value v: the dimension pass succeeds, the generator prints the program for every combination of one- and three-element operands, the printed circom statements declare every signal once, type-check (scalars and triples) and determine their signals, and the signal named as the result stands for v, with as many elements as the dimension pass says. Programs generated by the setup assign every temporary exactly once.", "quantifier": "all programs, all operand dimensions, all inputs, openings, challenges and public inputs", "why_tests_cant": "the printed text is compiled by another tool; agreement with the native evaluator must hold for every generated program and every combination of dimensions", "anchors": ["starky/src/stark_verifier_circom.rs: unrollCode, ref_", "starky/src/starkinfo_map.rs: set_code_dimensions_first, get_dim, set_dim", "starky/src/stark_verify.rs: execute_code", "starky/src/starkinfo_codegen.rs: build_code"]}
{"id": "C107", "title": "The circuit's transcript is the verifier's transcript", "statement": "For every sequence of absorbed inputs, drawn challenges and one final drawing of query indices: the transcript printer of the circuit does not panic, every printed signal is declared once, and the signals of the challenges and of the bits of the query indices are forced to be exactly the challenges and bits the native transcript computes after the same calls.", "quantifier": "all sequences of calls of all lengths, all inputs, every 12-element permutation", "why_tests_cant": "sponge state, pending buffer and unused outputs evolve over an unbounded history; a single misplaced index makes an unsound circuit that still compiles", "anchors": ["starky/src/stark_verifier_circom.rs: Transcript", "starky/src/transcript.rs: TranscriptGL"]}
{"id": "C108", "title": "The circuit's constraint check is the verifier's constraint check", "statement": "For all challenges, openings and public inputs: the template VerifyEvaluations compiles and its constraints hold exactly when it is disabled or the value of the constraint program equals the recombined quotient times the vanishing polynomial at the evaluation point, which is the comparison stark_verify makes.", "quantifier": "all programs, domain sizes, numbers of quotient pieces, challenges, openings, publics", "why_tests_cant": "equality of a constraint system and a program for every assignment of the inputs", "anchors": ["starky/src/stark_verifier_circom.rs: verify_evaluations", "starky/src/stark_verify.rs: stark_verify"]}
{"id": "C109", "title": "The circuit's query check is the verifier's query check", "statement": "For every query index given by its bits, all challenges, openings and opened rows: the templates MapValues and VerifyQuery compile, and the output is forced to be the value the native verifier computes for this query; at the two points where the native verifier divides by zero no assignment satisfies the circuit.", "quantifier": "all programs, layouts, domain sizes, query indices, challenges, openings, rows", "why_tests_cant": "the point is accumulated from bits and columns are located by position; agreement must hold for every index and layout", "anchors": ["starky/src/stark_verifier_circom.rs: verify_query, map_values", "starky/src/stark_verify.rs: check_query"]}
{"id": "C110", "title": "The recursive verifier circuit accepts exactly what the verifier accepts", "statement": "For every setup and every proof of the declared sizes: the printed template StarkVerifier compiles and, enabled, is satisfiable exactly when stark_verify accepts the same proof with the same constant root; disabled, it is satisfiable unless a query falls on one of the two opened points. (The code satisfies the first part only up to two differences: the circuit also requires the coefficient of the last polynomial at the degree bound to be zero, and with a single FRI step it checks neither the opened rows nor any commitment, so it accepts any constant root.)", "quantifier": "all setups with at least two FRI steps, all proofs of the declared sizes, every 12-element permutation, both values of enable", "why_tests_cant": "equivalence of a constraint system with a program over all proofs; a missing comparison still accepts every honest proof", "anchors": ["starky/src/stark_verifier_circom.rs: stark_verifier", "starky/src/stark_verify.rs: stark_verify", "starky/src/fri.rs: FRI::verify", "starky/src/starkinfo_cp_ver.rs: generate_constraint_polynomial_verifier"]}
{"id": "C111", "title": "Goldilocks arithmetic inside the on-chain circuit is sound and complete", "statement": "For every operand in the range the generator uses and whatever the prover assigns: the outputs of GLNorm, GLCNorm, GLMul, GLMulAdd, GLCMul, GLCMulAdd, GLInv and GLCInv are 64-bit integers standing for the sum, product or inverse in Goldilocks (or its cubic extension), inverses exist only for non-zero inputs, and the values the witness program assigns satisfy the constraints. The output is determined by the inputs. (The last sentence is false of the code: an output below 2^32-1 may be replaced by itself plus p; and below -16p no output exists.)", "quantifier": "all operands of absolute value below 2^120 (soundness), in [-16p, 48p) (completeness), every assignment, every prime field above 2^250", "why_tests_cant": "a missing range check still accepts every honest witness; soundness ranges over all assignments of the prover", "anchors": ["stark-circuits/circuits/gl.circom: GLNorm, GLCNorm, GLMul, GLMulAdd, GLCMul, GLCMulAdd, GLInv, GLCInv, _inv1"]}
{"id": "C112", "title": "Challenges and query bits drawn in the on-chain circuit are those of the native transcript", "statement": "For every scalar the transcript produces, the three challenge words (BN1toGL3) and the bits used for the query indices (Num2Bits(255)) are determined by the scalar and equal to what the native transcript derives from it. (The code satisfies this only for scalars with value at least 2^255 - r: for the others, about 10 percent, over BLS12-381 the prover can choose between two decompositions and so between two challenges.)", "quantifier": "all scalars of the field, all assignments of the bits", "why_tests_cant": "only the wrap-around of the field gives the second decomposition; an honest witness never shows it", "anchors": ["stark-circuits/circuits/bn1togl3.circom: BN1toGL3", "starky/src/stark_verifier_circom_onchain.rs: Transcript::getPermutations", "starky/src/transcript_bls12381.rs: get_fields1"]}
{"id": "C113", "title": "Public inputs of the on-chain circuit are canonical Goldilocks elements", "statement": "CompConstant64 outputs 1 exactly when the number given by 64 bits is above the constant; hence the check the generator prints for every public input accepts exactly the integers below p.", "quantifier": "all constants and numbers of 64 bits, all scalars", "why_tests_cant": "the comparison is a weighted sum of 32 digit comparisons; boundary errors show at single values", "anchors": ["stark-circuits/circuits/compconstant64.circom: CompConstant64", "starky/src/stark_verifier_circom_onchain.rs: stark_verifier"]}
{"id": "C114", "title": "The selection of a value by index in the on-chain circuit is exact", "statement": "For every number of levels, every table and every index given by its bits, TreeSelector outputs the entry at the index and nothing else.", "quantifier": "all depths, element sizes, tables, indices", "why_tests_cant": "the intermediate signals are addressed by running offsets", "anchors": ["stark-circuits/circuits/treeselector.circom: TreeSelector"]}
{"id": "C115", "title": "Poseidon in the on-chain circuit is the native Poseidon", "statement": "For 1 to 16 inputs, every initial state and any number of outputs up to the width, the constraints of PoseidonEx hold exactly for the outputs of the native hash_ex over BLS12-381, and Poseidon exactly for the native hash.", "quantifier": "all inputs, initial states, widths, assignments of the internal signals", "why_tests_cant": "every signal of 63 to 67 rounds has to be constrained; a dropped constraint accepts honest witnesses", "anchors": ["stark-circuits/circuits/poseidon.circom: Sigma, Ark, Mix, MixLast, MixS, PoseidonEx, Poseidon", "starky/src/poseidon_bls12381_opt.rs: hash_ex, hash"]}
{"id": "C116", "title": "The leaf hash in the on-chain circuit is the native leaf hash and binds the row", "statement": "For every non-empty matrix the constraints of LinearHash hold exactly for the native hash_element_matrix of the same integers, and two rows with the same leaf are the same row or give a collision of Poseidon. (The second part is false of the code: three values are packed in one scalar and their ranges are not checked, so (2^64,0,0) and (0,1,0) have the same leaf and different values modulo p.)", "quantifier": "all matrices of scalars", "why_tests_cant": "the packing boundary (three values, sixteen scalars) and the malleability only show for particular values", "anchors": ["stark-circuits/circuits/linearhash.circom: LinearHash", "starky/src/linearhash_bls12381.rs: hash_element_matrix", "starky/src/stark_verifier_circom_onchain.rs: stark_verifier"]}
{"id": "C117", "title": "Merkle openings in the on-chain circuit", "statement": "For every depth, index given by bits and path: the constraints of Merkle hold exactly for the root obtained by putting the running value at its position on every level; for one index and root the value is determined or a collision of Poseidon on 16 inputs can be read off; and every opening produced by the native BLS12-381 tree of 2^n rows (width other than 4) satisfies MerkleHash with the root of the tree.", "quantifier": "all depths up to 32, indices, paths, trees, worker counts", "why_tests_cant": "position and level arithmetic for every index and every tree shape", "anchors": ["stark-circuits/circuits/merkle.circom: Merkle", "stark-circuits/circuits/merklehash.circom: MerkleHash", "starky/src/merklehash_bls12381.rs: merkelize, get_group_proof"]}
{"id": "C118", "title": "Polynomial evaluation and Fourier transforms in the on-chain circuit are the native ones", "statement": "For every number of coefficients EvalPol forces the value of the native eval_pol; for every size up to 2^31 and both directions FFT forces the values of the native fft and ifft over the cubic extension; honest assignments satisfy the constraints.", "quantifier": "all coefficients, points, sizes, both directions, every assignment", "why_tests_cant": "the transform is one sum per output with tabulated roots; agreement for all sizes needs the algebra", "anchors": ["stark-circuits/circuits/evalpol.circom: EvalPol", "stark-circuits/circuits/fft.circom: FFT, roots", "starky/src/fft.rs: FFT::fft, FFT::ifft", "starky/src/polutils.rs: eval_pol"]}
{"id": "C119", "title": "The on-chain circuit draws the challenges of the native transcript", "statement": "For every order of transcript operations the generator performs: the printed circuit has an assignment, and in it every challenge and every query index is the one the native BLS12-381 transcript gives (up to the choice of v or v + p for a limb); every assignment that satisfies the constraints gives these values, provided no split or decomposed scalar is below 2^255 - r. For such scalars there are two assignments with different challenges.", "quantifier": "all sequences of put, field and query operations, all inputs, every assignment of the signals", "why_tests_cant": "the prover is free in the assignment; agreement with the native sponge must hold for every buffer state", "anchors": ["starky/src/stark_verifier_circom_onchain.rs: Transcript (getField, getFields1, getFields253, updateState, put, _add1, getPermutations)", "starky/src/transcript_bls12381.rs: put, get_field, get_permutations", "stark-circuits/circuits/bn1togl3.circom: BN1toGL3"]}
{"id": "C120", "title": "The program printed for the on-chain circuit computes the native program's value", "statement": "For every verifier program that the generator prints (dimensions propagated, products by GLMul/GLCMul, sums left unreduced): every assignment of the signals that satisfies the printed statements gives the output signals whose residues modulo p are the value of the native execution of the program, provided the tracked interval of no operand exceeds 2^50 multiples of p; and when the operands of products stay within [-16p, 48p) an assignment exists.", "quantifier": "all programs, all inputs, every assignment of the signals over any prime field above 2^250", "why_tests_cant": "the prover is free in the assignment and sums are not reduced, so agreement depends on interval bounds over all programs", "anchors": ["starky/src/stark_verifier_circom_onchain.rs: unrollCode, ref_", "starky/src/stark_verify.rs: execute_code", "stark-circuits/circuits/gl.circom: GLMul, GLCMul, GLMulAdd, GLCMulAdd"]}
{"id": "C121", "title": "The on-chain VerifyEvaluations accepts exactly when the native constraint check does", "statement": "For every constraint program and every vector of challenges, openings and public inputs given as 64-bit numbers: the constraints of the printed template VerifyEvaluations with enable = 1 can be satisfied if and only if the native verifier's equation (constraint value = quotient at the challenge times the vanishing polynomial) holds.", "quantifier": "all programs, trace sizes, numbers of quotient pieces, inputs; every assignment of the signals", "why_tests_cant": "the equation must be forced for every assignment the prover may choose", "anchors": ["starky/src/stark_verifier_circom_onchain.rs: VerifyEvaluations", "starky/src/stark_verify.rs: stark_verify"]}
{"id": "C122", "title": "The on-chain VerifyQuery computes the native query value", "statement": "For every query program, query index, challenges, openings and opened rows given as 64-bit numbers: the constraints of the printed template VerifyQuery can be satisfied if and only if the native verifier does not divide by zero at that query, and in every satisfying assignment the output stands for the value the native verifier computes from the opened rows.", "quantifier": "all programs, indices, domain sizes, rows, challenges; every assignment of the signals", "why_tests_cant": "the prover chooses the assignment; the evaluation point is built bit by bit from the query index", "anchors": ["starky/src/stark_verifier_circom_onchain.rs: VerifyQuery, MapValues", "starky/src/stark_verify.rs: check_query", "stark-circuits/circuits/gl.circom: GLCInv, GLMul, GLCMul, GLCNorm"]}
{"id": "C123", "title": "The folding steps and the degree check of the on-chain circuit accept exactly what the native FRI verifier accepts", "statement": "For every layer size, query index, opened rows, challenge and next layer given as 64-bit numbers: the constraints the generator prints for a folding step can be satisfied if and only if the native verifier's check of that step succeeds; the printed degree check can be satisfied if and only if the native degree check succeeds and the coefficient at the bound is zero.", "quantifier": "all step sizes, indices, rows, challenges; every assignment of the signals", "why_tests_cant": "each step combines an inverse transform, an evaluation and a selection, and the prover is free in every assignment", "anchors": ["starky/src/stark_verifier_circom_onchain.rs: stark_verifier (steps s >= 1, lastIFFT)", "starky/src/fri.rs: FRI::verify", "stark-circuits/circuits/treeselector.circom: TreeSelector"]}
{"id": "C124", "title": "After its transcript the on-chain verifier circuit accepts exactly what the native verifier accepts", "statement": "For every shape (layers, queries, trees, programs) and all inputs given as 64-bit numbers, with the transcript's signals standing for the native challenges and query indices: the constraints of the template StarkVerifier after its transcript (constraint check, Merkle paths of all trees and layers, value of every query against the first folded layer, folding of every layer into the next, degree of the last polynomial) can be satisfied with enable = 1 if and only if every one of the corresponding checks of the native verifier succeeds.", "quantifier": "all shapes with layers of at least two bits, all inputs, all queries; every assignment of the signals", "why_tests_cant": "the template wires some hundred components per query; that no wire is crossed and no check is lost must hold for all shapes and for every assignment the prover may choose", "anchors": ["starky/src/stark_verifier_circom_onchain.rs: stark_verifier (L1030-1578)", "starky/src/stark_verify.rs: stark_verify", "starky/src/fri.rs: FRI::verify", "starky/src/merklehash_bls12381.rs: verify_group_proof"]}
{"id": "C125", "title": "The on-chain verifier circuit accepts exactly the proofs the native verifier accepts", "statement": "For every shape and all 64-bit inputs: the generator's transcript draws challenges and queries from publics, roots, openings, layer roots and last polynomial in the native order; when all checks of the native verifier succeed with the native challenges, the whole template StarkVerifier has a satisfying assignment; and every satisfying assignment implies that they succeed.", "quantifier": "all shapes with layers of at least two bits, all inputs; every assignment of all signals, transcript included", "why_tests_cant": "acceptance must coincide with the native verifier for every proof and every assignment, the challenges being part of the assignment", "anchors": ["starky/src/stark_verifier_circom_onchain.rs: stark_verifier (L722-1578), Transcript", "starky/src/stark_verify.rs: stark_verify", "starky/src/transcript_bls12381.rs: put, get_field, get_permutations"]}
{"id": "C126", "title": "The on-chain transcript draws the challenges, folding points and queries of the native verifier", "statement": "For every shape of the on-chain circuit, every native proof and all inputs of the circuit that are the parts of that proof (publics, roots, openings, layer roots, last polynomial): the values the on-chain transcript's calls produce are exactly the challenges that stark_verify draws from the proof, the folding points that FRI::verify draws, and the query indices that its transcript returns.", "quantifier": "all shapes (number of publics, openings, layers, queries), all proofs, all states of the transcript", "why_tests_cant": "the two sides are written independently, one as a generator of circuit text; that the order of all puts and draws agrees must hold for every shape and every proof", "anchors": ["starky/src/stark_verifier_circom_onchain.rs: stark_verifier (L993-1021)", "starky/src/stark_verify.rs: stark_verify (L35-60)", "starky/src/fri.rs: FRI::verify (L196-216)", "starky/src/transcript_bls12381.rs: put, get_field, get_permutations"]}
{"id": "C127", "title": "The on-chain verifier circuit and stark_verify accept the same proofs", "statement": "For every shape, all 64-bit inputs and the native proof with the same contents: stark_verify (with the BLS12-381 transcript and tree) returns true if and only if the template StarkVerifier has a satisfying assignment with enable = 1.", "quantifier": "all shapes with layers of at least two bits, all proofs, all assignments of all signals", "why_tests_cant": "whoever pays out on the circuit's word relies on it accepting nothing else than the native verifier; both quantify over every proof", "anchors": ["starky/src/stark_verifier_circom_onchain.rs: stark_verifier (L722-1578)", "starky/src/stark_verify.rs: stark_verify", "starky/src/fri.rs: FRI::verify"]}
{"id": "C128", "title": "Groth16 JSON files read back to what was written", "statement": "For every proof, every verification key (any number of IC points) and every list of public inputs, in decimal and in hexadecimal, over any base field that fits the limbs: writing the JSON file succeeds, and reading it returns exactly the same coordinates, curve name and public inputs; the public-input file written with a proof holds the circuit's public inputs.", "quantifier": "all field elements, all numbers of limbs, all proofs, keys, curve names, witness and wire mappings, both formats", "why_tests_cant": "every limb boundary and leading zero matters; a test vector exercises one value per coordinate (the tests compare a single point)", "anchors": ["groth16/src/json_utils.rs: serialize_proof, to_proof, serialize_vk, to_verification_key, to_public_input, render_scalar_to_str, render_str_to_scalar", "algebraic/src/utils.rs: repr_to_big", "algebraic/src/circom_circuit.rs: get_public_inputs_json"]}
{"id": "C129", "title": "A coordinate or public-input string denotes a unique field element", "statement": "render_str_to_scalar accepts exactly the numerals (decimal, or hexadecimal after 0x) below the modulus and returns their value; every other string is rejected.", "quantifier": "all strings, all moduli", "why_tests_cant": "a verifier that identifies statements by their public-input file relies on uniqueness for every string", "anchors": ["groth16/src/json_utils.rs: render_str_to_scalar, to_public_input"]}
{"id": "C130", "title": "The witness calculator gives the circuit program exactly the inputs and returns exactly its wires", "statement": "For every compiled circuit program that exchanges numbers through a shared memory of n 32-bit words, every list of named inputs and both settings of the sanity check: calculate_witness returns, for every wire in order, the number the program computes after it was given every value of every input (by the 64-bit FNV-1a hash of the name, and its position, in order); a value that is negative or needs more than n words makes it panic before the program sees it; it fails where the program fails.", "quantifier": "all programs (states, memory contents left behind by every call), word counts, inputs, values", "why_tests_cant": "word order is reversed twice on the way in and twice on the way out; only a proof over every word count and value shows that no word is lost or swapped", "anchors": ["algebraic/src/witness/witness_calculator.rs: calculate_witness, calculate_witness_circom, to_array32, from_array32", "algebraic/src/witness/mod.rs: fnv", "algebraic/src/witness/circom.rs: Wasm"]}
{"id": "C131", "title": "Nested input arrays are flattened in row-major order", "statement": "For every number of dimensions and every size: loading an input file whose entry is a nested array of integers (numbers, decimal strings, booleans, of any sign) succeeds, yields as many values as the array has elements, and the element with a given index stands at its row-major position; null and objects inside are rejected, never skipped.", "quantifier": "all dimensions, sizes, indices and element texts", "why_tests_cant": "the nesting depth is unbounded and the position depends on every dimension", "anchors": ["algebraic/src/witness/mod.rs: load_input_for_witness", "algebraic/src/witness/witness_calculator.rs: flat_array"]}
{"id": "C132", "title": "The on-chain circuit's only public output commits to the prover's address and to every public input", "statement": "For every number of public inputs and every assignment of the signals of Main: the constraints hold exactly when the address is a number of 160 bits, every public input is the canonical number (below p) of a Goldilocks element, and publicsHash is the digest, as a big-endian number reduced modulo the scalar field, of the address in 20 bytes followed by every public input in 8 bytes, big endian. So two proofs with different addresses or different public inputs and the same publicsHash are a collision of that digest.", "quantifier": "all numbers of public inputs, all signal assignments", "why_tests_cant": "the bits are placed by index arithmetic that must cover every position for every length, and a dropped or non-canonical bit would only show for chosen values", "anchors": ["starky/src/stark_verifier_circom_onchain.rs: template Main, publicsHasher, n2bProverAddr, n2bPublics, cmpPublics, n2bPublicsHash"]}
{"id": "C133", "title": "The exported PIL says what the analyzed program says", "statement": "For every analyzed PIL program (any declarations in any order, arrays of intermediate columns used before or after their definition): export does not panic, in particular the expression number of every intermediate column is the one computed in advance; for all column values, publics and challenges, every way to fill the intermediate columns according to their definitions gives values of the exported expressions, and the reverse, such that polynomial, lookup, permutation and connection identities are, kind by kind and in order, about the same values, and every public is the same row of the same column with its position as number. Exactly the expressions whose degree exceeds what is allowed of them (2 for a polynomial identity, 1 otherwise) get a quotient number, and those count up from 0.", "quantifier": "all programs, expressions, columns, publics, challenges", "why_tests_cant": "the numbers are predicted by one pass and assigned by another, and every reference to an intermediate column depends on everything declared before it", "anchors": ["recursion/src/pilcom/export.rs: export, extract_expression, expression_to_json, polynomial_reference_to_json", "recursion/src/pilcom/expression_counter.rs: compute_intermediate_expression_ids"]}
{"id": "C134", "title": "The line reported for an identity is the line it stands on", "statement": "For every source text and every offset: offset_to_line_col does not panic; the line is one more than the number of newlines before the offset, and the column is the number of bytes since the last newline before the offset, or since the beginning.", "quantifier": "all sources, all offsets (past the end too)", "why_tests_cant": "the two outcomes of the binary search are adjusted differently, and the offset may be on, before or after a newline or at a line start", "anchors": ["recursion/src/pilcom/export.rs: compute_line_starts, offset_to_line_col"]}
{"id": "C135", "title": "A column x of namespace ns is exported as ns.x", "statement": "For every namespace and every column name of an analyzed PIL program: a name of the form ns::x is exported as ns.x, so that the rest of the prover, which splits names at the dot and looks up Global.L1, finds it; names that have a dot are kept; different names stay different.", "quantifier": "all names", "why_tests_cant": "the last :: has to be found in names of any nesting, and the replacement depends on its length", "anchors": ["recursion/src/pilcom/export.rs: fixup_name", "starky/src/starkinfo_Z.rs: Global.L1", "starky/src/polsarray.rs: name_vec"]}
{"id": "C136", "title": "The generated Solidity verifier accepts exactly what groth16_verify accepts", "statement": "For every BN254 verification key, every list of public inputs and every proof: the contract that generate_verifier writes contains the points of the key at the places where they belong (and one assignment per IC point); verifyTx returns true if and only if every input is below the group order, the coordinates are those of points, and groth16_verify accepts the same points and inputs. Two accepted input lists that are equal in the field are equal.", "quantifier": "all keys, input lists, proofs, in any groups with a bilinear map", "why_tests_cant": "the two verifiers arrange the pairing product differently, and the template is filled by successive pattern replacements", "anchors": ["groth16/src/template.rs: CONTRACT_TEMPLATE", "groth16/src/api.rs: generate_verifier, solidity_pairing_lib, groth16_verify", "groth16/src/groth16.rs: verify_with_processed_vk"]}
