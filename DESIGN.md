# Formal model of eigen-zkvm in Lean 4

## 1. What this is

`/verif/lean/Verif` holds a Lean 4 model of the pure core of eigen-zkvm (field
arithmetic, FFTs, hashing trees, transcripts, FRI, the STARK setup, prover and
verifier, code generation, PLONK arithmetisation, file formats) and theorems
about it.  `properties.jsonl` lists the properties in terms of the API,
`MANIFEST.json` maps them to theorems, `seeded/LOG.jsonl` records the attempts
to break the theorems by editing the model.

One directory per area.  `Model.lean` (or `Model`-like files) hold the
definitions; every definition cites file and lines of `/repo` and says where it
simplifies.  `Spec` sections hold small specifications that do not use model
helpers.  `Props` files hold the property theorems, each with an `example`
showing that a concrete non-trivial case meets its hypotheses.  A theorem whose
name ends in `_partial` proves part of a property; next to it stands the
negation or what is missing.

## 2. Conventions

* A `&mut` function becomes a function returning the new value; `Result`,
  `Option` and panics become explicit `Option` values.  Out-of-bounds indexing
  and `unwrap` on `None`/`Err` are panics (`none`), which is how totality
  claims are stated.
* Machine integers: `Nat` with explicit `% 2^64` in the limb-level Goldilocks
  model, in `log2_any` and in the byte-level readers (overflow matters there);
  elsewhere unbounded `Nat` with the bounds under which the code does not
  overflow stated as hypotheses where they matter.  Release-mode wrapping is
  modelled where it is reachable (`u32` counters of the PLONK exec file).
* Above the field layer, base-field values are elements of `ZMod p`, justified
  by C01-C06 (the limb operations are the ring operations of `ZMod p`, and
  canonical limbs correspond one to one to residues); extension elements are
  elements of the field `K = F[x]/(x^3 - x - 1)`, justified by C09-C11.
* Loops become folds or structural recursion; loops whose termination is not
  structural take fuel, and the theorems show that enough fuel exists.
* Hash permutations (Poseidon) are *parameters* of trees, transcripts, FRI and
  the STARK.  Theorems hold for every such function; no collision resistance is
  assumed (binding theorems output an explicit collision).  The crate's Poseidon
  functions are modelled and verified separately (C81-C83).
* Threads: rayon's indexed parallel iterators are modelled as maps over the
  list of chunks in order, the chunking (a function of the number of workers)
  is modelled exactly, theorems quantify over the number of workers.  Data
  races are excluded by Rust's type system and are not modelled.
* Hash maps are modelled as functions or finite sets; where iteration order is
  observable the theorem quantifies over all orders.

## 3. Trusted base

* Lean 4.33.0's kernel; the axioms `propext`, `Classical.choice`, `Quot.sound`
  (`#print axioms` of every theorem named in `MANIFEST.json` shows a subset of
  these three).  No axioms of our own, no compiled-code evaluation.
* Mathlib definitions used in statements: `ZMod`, `Polynomial`, `Finset`,
  `Multiset`, `orderOf`, `List.Perm`, `Equiv.Perm`.
* The reading of `/repo` by which the model was written.  The code was not run.
* The semantics of the AVX2/AVX-512 intrinsics (`Simd/Intrinsics.lean`), written
  after Intel's documentation.
* External crates are modelled by their documented behaviour: `ff` (`adc`,
  `sbb`, `mac_with_carry`, `Field::pow`), `rayon`, `serde` (only the tree of
  values, not JSON syntax), `bellman` (`ConstraintSystem`), std collections,
  std `Read`/`Write` (short reads included).

## 4. What is modelled

| directory | code |
|---|---|
| `GL` | `fields/src/field_gl.rs`: limb arithmetic, Montgomery form, inversion chain, exponentiation, Legendre/sqrt, conversions, ordering, bit utilities |
| `F3G`, `F5G` | `starky/src/f3g.rs`, `f5g.rs`: arithmetic with dimension tags, inversion, exponentiation, comparisons, division, batch inversion |
| `FFT`, `FftP` | `polutils.rs`, `fft.rs`, `fft_p.rs`, `constant.rs`, `helper.rs`: serial FFT/IFFT, extension, the blocked parallel FFT and interpolate with their dirty buffers, bit reversal with its cache, root tables, coset multipliers |
| `Helper` | `log2_any` |
| `Hash` | `linearhash.rs`, `linearhash_bn128.rs`, `merklehash.rs`, `merklehash_bn128.rs` |
| `Transcript` | `transcript.rs`, `transcript_bn128.rs`, query index derivation |
| `Fri` | `fri.rs` prover and verifier, for abstract tree and transcript, instantiated at Goldilocks |
| `Stark` | `stark_gen.rs` (all rounds, `calculate_H1H2`, `calculate_Z`, openings, zerofier inverse), `stark_verify.rs`, `starkinfo_cp_prover.rs`, `starkinfo_cp_ver.rs`, `starkinfo_fri_prover.rs`, `starkinfo_fri_ver.rs` |
| `Interp` | `interpreter.rs`: compilation of code blocks to flat programs, evaluation, `calculate_exps_parallel` |
| `Codegen` | `starkinfo_codegen.rs`, `expressionops.rs`, traversal |
| `StarkInfo` | `starkinfo_map.rs` layout and positions, `starkinfo_cp_prover.rs` choice of intermediate polynomials |
| `Map` | `starkinfo_map.rs: map` and its callees, `fix_prover_code` |
| `Stage` | `stark_gen.rs` rounds 2 and 3 on the prover's buffers: `set_pol`, `get_pol`, `calculate_H1H2`, `calculate_Z` on tagged elements, the parallel runs of the programs; steps 4 and 5 (quotient and FRI polynomial) on the buffers of the extended domain; the whole of `stark_gen` on its buffers (`Stage/FullModel.lean`, whose header lists what is simplified) |
| `Circom` | `stark_verifier_circom.rs`: the printed programs, transcript, `VerifyEvaluations`, `MapValues`, `VerifyQuery`, `StarkVerifier` (meaning of the printed circom text; the templates of the circuit library, which are not in the repository, are assumed to do what their names say) |
| `Gadget` | `stark-circuits/circuits/*.circom`, the template library of the on-chain (BLS12-381) verifier circuit: `gl`, `bn1togl3`, `compconstant64`, `treeselector`, `evalpol`, `fft`, `poseidon`, `linearhash`, `merkle`, `merklehash`, as constraints over the signals (any assignment of the prover), with the assignments of the witness program for completeness. `Num2Bits`, `Bits2Num` of circomlib (not in the repository) are modelled by their constraints; `poseidon_constants.circom` is read through the Rust tables; `starky/src/stark_verifier_circom_onchain.rs` L33-187 (the transcript of names and the statements it prints), L189-414 (the printed verifier program), L416-532 (`VerifyEvaluations`), L534-808 (`VerifyQuery`, `MapValues`), L722-1578 (`StarkVerifier`: calls of the transcript, wiring of all components, checks), L1776-1823 (`Main`: hash of the public inputs; circomlib's `Sha256`, not in the repository, is any relation that computes a digest) |
| `Grand` | `starkinfo.rs: generate_step2`, `starkinfo_Z.rs`: the lookup, permutation and connection arguments |
| `Plonk` | `r1cs2plonk.rs`, `compressor12*.rs` (setup, exec, placement, custom gates, S polynomials), circuit synthesis in `algebraic` |
| `Pil` | `recursion/src/pilcom/export.rs`, `expression_counter.rs`: export of an analyzed PIL program, line numbers (powdr's analyzer itself is not modelled) |
| `Poseidon` | `poseidon_opt.rs`, `poseidon_bn128*.rs`, `poseidon_bls12381*.rs` with all their tables |
| `Simd` | `fields/src/arch/x86_64/*`, `starky/src/arch/x86_64/*`, `poseidon_constants_avx*.rs`, the AVX-512 variants in `linearhash.rs` and `merklehash.rs` |
| `Io` | polynomial tables, witness and R1CS files, zkin join, digests, PIL numbers, proof JSON trees, Groth16 JSON files (`groth16/src/json_utils.rs`, CPU build), dialogue of the witness calculator with the circuit program, input files |

## 5. What is not modelled

* Circom/PIL compilers (but the export, C133), the Groth16/PLONK provers over pairing curves
  (`plonky`, `groth16`), GPU variants, CLI, dsl frontends, gRPC services,
  the EVM executor, file system and process handling, logging and timing.
* JSON syntax (only the tree of values), decimal printing by `num-bigint`.
* The Montgomery arithmetic of the 256-bit fields (ff crate).
* The choice of a variant by `cfg(target_feature)`: with some but not all of the
  AVX-512 features enabled, no variant of `LinearHash::hash` is compiled.
* Soundness of FRI and of the STARK in the cryptographic sense.  C72, C77-C79
  state the algebraic facts that such an argument starts from.
* In C75, C76, C84 and C85 the sections of the trace are functions of the
  challenges; that the prover's buffers hold these columns after the rounds is
  C102 (trace domain; the extension to the larger domain is C22/C76), and that
  the quotient and the FRI polynomial are what the programs of steps 4 and 5
  leave in the buffers is C103; the whole prover on the buffers is C104, and with
  the public inputs it computes C105.
* The dimension tag of extension elements above the field layer, except where
  it is observable (C37, C42, C76).

## 6. Where the code does not have the property

For each of these the property is kept in full in `properties.jsonl`, what
holds is proved, and a concrete negation is proved.

* BN128 Merkle verification ignores the value and the index when the path is
  non-empty (C28); BN128 leaf hashing differs between build and verify at width
  4 (C62); the BN128 transcript forgets absorbed data in some histories (C30).
* `interpolate` depends on the previous buffer content for an odd block length
  (more than 512 workers) (C20); bit reversal panics at the cache length (C21).
* Merkle trees of height 1 have root zero, width at least 2^21 + 8 panics
  (C25); the path length is not checked (C26).
* The FRI final check allows a coefficient at the bound (C34); equality of
  queries ignores lengths (C35).
* `calculate_H1H2` compares dimension tags (C37, C100), so a lookup with a
  one-cell intermediate polynomial on the left and a three-cell right side makes
  the prover panic although it is satisfied (C102, `lookupStep_mixed`).  A one-dimensional write into
  a three-dimensional column leaves stale cells; the parallel evaluator clears
  output-only sections and panics when the last chunk is shorter than the next
  step (C42).
* R1CS to PLONK flips the sign of C for constant factors (C49); the row count
  underestimates (C53); a CMulAdd row is dropped (C66/C68); an unknown custom
  gate id is taken to be gate 0 (C67).
* The BN254 R1CS reader accepts BLS12-381 files (C69); `read_to_string` loops
  forever at end of file, `PolsArray::load` loses bytes on short reads (C47,
  C56); `parse_pil_number` is wrong below -p (C58); digests above the modulus
  are not recovered (C54, C70).
* On-chain circuit library: a reduced value below 2^32 - 1 may also be given as itself
  plus p, and operands below -16p have no result (C111); `Num2Bits(255)` over
  BLS12-381 has two solutions for scalars below 2^255 - r, so the prover can choose
  between two challenges or sets of query indices (C112, C119); the opened values are
  not range-checked, so a leaf does not bind the row (C116).
* The on-chain generator prints invalid circom for the sum of two scalars (`a[0]`
  of a signal that is no array), their product (`GLCMul1` does not exist) and a scalar
  times a scalar plus a triple (mismatched bracket); sums are not reduced, so a
  program whose operands leave [-16p, 48p) before a product has no honest assignment
  (C120); openings, tree values and the final polynomial are not range-checked (C121).
* The on-chain circuit requires the coefficient of the last polynomial at the degree
  bound to vanish, `FRI::verify` does not (C34): for every shape with a blow-up there
  is a last polynomial the native check accepts and the circuit rejects (C127,
  `native_last_differs`).
* `render_str_to_scalar` reduces numbers from the modulus on instead of rejecting them,
  so a public-input file is not unique (C129, `str_alias`).
* The input loader accepts negative integers, the witness calculator panics on them
  (C130, `calcWitness_neg`).
* The PIL export replaces only one of the two colons of a name: `main::x` becomes
  `main.:x`, and `Global::L1` is not found by the prover (C135).
* The generated Solidity verifier reduces the second coordinate of `pi_c` modulo q when
  it negates it, so an accepted proof has several encodings (C136, contract_malleable).
* The on-chain generator subtracts 2 from the number of bits of a folding step when the
  first step has more than one bit, so a step of one bit makes it panic (C123).
* When no degree bound is feasible the setup continues with degree 0 (C45);
  a connection identity with a single column panics (C79).
* The packed negation of a zero lane returns the modulus, which is not a valid
  representation (C87); the vectorized Poseidon panics for more than four (eight)
  outputs (C89).
* The input table of step 4 lacks `cm4_2ns` and that of step 5 lacks `x_2ns`
  (`calculate_exps_parallel`); a program reading them would panic.  The generated
  programs never do (part of C103).
* The programs of the public inputs are stored without gaps but looked up by the
  position among all public inputs: a public input that is the value of an
  expression after one that is a cell of the trace makes the prover panic,
  whatever the trace (C105, `publics_mixed`).
* The circuit (`stark_verifier_circom.rs`) prints the checks of step 0 (roots of
  the trace, agreement of the query values with the first FRI layer) inside the loop over
  the later FRI steps, so with a single FRI step the circuit has none of them;
  its final degree check is stricter than the native one (which allows a
  coefficient at the bound, C34); the template `Main` without `verkey_input`
  declares the public input `rootC` but never connects it, and wires
  `s0_vals3` but never `s0_vals2`; the roots of the second and third tree are not
  compared when the section is empty; `nBits = 0` or no quotient piece
  makes the generator panic; `VerifyQuery` declares neither the public inputs nor
  `Z`, so a query program using them would not compile (it never does).

## 7. Plan and result per property

| id | property | model and proof | status |
|---|---|---|---|
| C01 | Goldilocks add/sub/neg/double/mul/square are exact modular arithmetic | Limb model of field_gl.rs on Nat with wrap-around; prove asInt commutes with each op (Montgomery with R=2^128). | proved |
| C02 | Integer <-> Goldilocks conversion round-trips and rejects out-of-range values | from_repr/into_repr modelled; round trip via R*R^-1=1 in ZMod p. | proved |
| C03 | Goldilocks inversion and division | Addition chain modelled; exponent bookkeeping gives x^(p-2); primality of p by Pratt/Lucas certificate. | proved |
| C04 | Goldilocks exponentiation | Bit-by-bit loop with xor mask, induction over the bits. | proved |
| C05 | Legendre symbol and square roots | Tonelli-Shanks with fuel for the two loops; invariant t^(2^(m-1))=1, r^2=x t; termination from m strictly decreasing. | proved |
| C06 | Goldilocks equality, zero test and order are those of the integer values | From C02 (bijection). | proved |
| C07 | Representation bit utilities | Nat bit operations; negation witness for num_bits. | partial |
| C08 | Raw u64 conversion | Negation witness + raw round trip. | partial |
| C09 | Cubic extension arithmetic is that of F_p[x]/(x^3-x-1) | F3G structure with dim tag over GL; equality in AdjoinRoot / explicit ring. | proved |
| C10 | Cubic extension inversion | norm nonzero via irreducibility of x^3-x-1 (Frobenius chain computed in the kernel). | proved |
| C11 | Cubic extension exponentiation | Square and multiply induction. | proved |
| C12 | Cubic extension comparisons | Case analysis on lexicographic order of canonical ints. | proved |
| C13 | Quintic extension arithmetic, inversion and totality | F5G as C09-C10 with x^5-3; panics as none; witnesses for violated parts. | partial |
| C14 | Batch inversion | Prefix products; induction over list. | proved |
| C15 | Polynomial evaluation and scaling helpers | Induction over list. | proved |
| C16 | Serial FFT is the discrete Fourier transform | Loop model of fft; induction over stages via even/odd split. | proved |
| C17 | Serial inverse FFT inverts the FFT | Orthogonality of characters. | proved |
| C18 | Low-degree extension | C16+C17 composed; polynomial interpolation uniqueness. | proved |
| C19 | Parallel blocked FFT equals the serial FFT | Block recursion model; invariant per layer: partial DFT. | proved |
| C20 | Parallel interpolate computes the low-degree extension | Composition of C19 pieces with stale buffer parameter. | proved |
| C21 | Bit-reversal permutation | State machine with cache; invariant over histories. | proved |
| C22 | Roots of unity table | orderOf in ZMod p by kernel computation of powers. | proved |
| C23 | Coset multipliers are in distinct cosets | k^(j 2^32) != 1 by kernel computation. | proved |
| C24 | Linear hash length handling | Sponge fold model with permutation parameter. | proved |
| C25 | Merkle tree (Goldilocks) completeness | Level arrays; induction over levels. | partial |
| C26 | Merkle tree (Goldilocks) binding | Induction over path; explicit collision extraction. | proved |
| C27 | Merkle tree construction is independent of the worker count | chunk-map = map lemma. | proved |
| C28 | Merkle tree (BN128) completeness and binding | Same as C25; universal negation for binding. | partial |
| C29 | Transcript (Goldilocks) is a deterministic sponge insensitive to put boundaries | State machine; append lemma for put. | proved |
| C30 | Transcript (BN128) challenges depend on everything absorbed before them | State machine; negation by history; positive for multiples of three. | partial |
| C31 | Query index derivation | Bit extraction loop induction. | proved |
| C32 | FRI folding is polynomial folding and the verifier recomputes it | Fold model; root-of-unity algebra. | proved |
| C33 | FRI completeness | Composition over the step list. | proved |
| C34 | FRI final degree check | Check as list predicate; witness. | partial |
| C35 | Proof equality | zip-equality; witness. | partial |
| C36 | Vanishing polynomial inverse | Periodicity of x^N on the coset. | proved |
| C37 | Plookup sorted columns | Index map + stable merge sort; Perm. | proved |
| C38 | Grand product column | Prefix products. | proved |
| C39 | Out-of-domain openings | Barycentric: ifft orthogonality. | proved |
| C40 | Quotient splitting | Coefficient rearrangement. | proved |
| C41 | Compiled expression programs compute what their source segments mean | Stack machine simulation. | proved |
| C42 | Parallel expression evaluation is independent of the worker count | Chunk independence by row-locality. | proved |
| C43 | Prover and verifier derive the same challenges | Transcript op traces. | proved |
| C44 | Code generation preserves expression meaning | Three-address codegen simulation relation. | proved |
| C45 | Intermediate-polynomial selection respects the degree bound | Structural induction over expression with get_exp_dim. | proved |
| C46 | Column layout has no overlaps | Prefix sums of dims. | proved |
| C47 | Polynomial table save/load round-trip | Byte stream model with read splits. | partial |
| C48 | zkin join | Finite map reasoning. | proved |
| C49 | R1CS to PLONK conversion preserves satisfiability | Per-constraint gate emission semantics; witness for constant case. | partial |
| C50 | Witness extension | Fold over additions. | proved |
| C51 | Exec file round-trip | List chunk layout. | proved |
| C52 | Copy-constraint permutation | Transposition products on cells; invariant on cycles. | proved |
| C53 | PLONK row allocation has enough rows | Counting; witness. | partial |
| C54 | Digest <-> scalar conversion | Limb base conversion. | partial |
| C55 | Witness file round-trip | Byte writers/readers. | proved |
| C56 | R1CS file parsing is independent of section order | Section table as finite map. | proved |
| C57 | Limb conversion | Base 2^32 digits. | proved |
| C58 | PIL number parsing | Int.emod; witness. | partial |
| C59 | Circuit synthesis preserves constraints | Constraint filter. | proved |
| C60 | Iterative postorder equals recursive postorder | Stack invariant. | proved |
| C61 | log2_any | Bit tricks induction. | proved |
| C62 | BN128 row hash: build and verify agree | linear hash BN model with the build-time and verify-time entry points; equality for every width except the one where they differ (negation). | partial |
| C63 | Plookup grand product closes for honest columns | List products; adjacency lemma: the interleaved sorted list has the pairs of t plus the pairs (f,f). | proved |
| C64 | Gate placement preserves the PLONK gates | Placement loop as a fold over gates with the two pending half rows; invariant: every placed gate is readable at its row. | proved |
| C65 | No gate depends on the unconnected wire 0 | Semantic: changing cell 0 of unconnected wires leaves every gate value unchanged. | proved |
| C66 | Custom gates impose their template | Each placed custom row, read through the PIL polynomials of compressor12_pil, gives the template's relation (MDS, Poseidon round with the round constants, CMulAdd, EvPol, FFT4, TreeSelector). | proved |
| C67 | Each custom gate use is handled as its declared template | Lookup of the gate id in the header; negation for the default 0. | partial |
| C68 | Compressor setup: end-to-end equivalence with the R1CS | Composition of C49, C50, C51, C52, C64, C66. | partial |
| C69 | R1CS files over another field are rejected | Parser model; negation for the prime check; which primes are accepted. | partial |
| C70 | A STARK proof is recovered from its JSON | Encoders/decoders per field on JSON trees; the round trip field by field. | partial |
| C71 | The STARK verifier accepts honest proofs (protocol level) | stark_gen / stark_verify over abstract Merkle scheme (laws proved for the two instances) and transcript; the Honest hypotheses spell out what the values must satisfy. | proved |
| C72 | What STARK acceptance guarantees | Inversion of the verifier model step by step. | proved |
| C73 | The verifier programs compute the constraint and the FRI expression | Code generator output for the verifier simulated against expression values over the openings. | proved |
| C74 | The FRI polynomial is a low-degree polynomial built from every opening | Horner folds; polynomial division by (X - xi) of P - P(xi). | proved |
| C75 | An honest prover convinces the verifier (end to end) | Trace columns as polynomials (C18, C20), the constraint expression as a polynomial through the code generator (C44, C73), divisibility by X^N - 1 (roots), quotient splitting (C40), openings (C39), FRI expression (C74), FRI (C33), protocol (C71); totality of every call. | proved |
| C76 | The dimension of an expression bounds its values | Structural induction over get_exp_dim with the cubic extension's base-field subring. | proved |
| C77 | Permutation identities are sound | genArgs models generate_step2/3; multiset product polynomials have few roots; Horner collisions; running product telescopes. | proved |
| C78 | Plookup identities are sound | As C77; a cyclic sequence whose adjacent pairs are those of t plus pairs (f,f) contains f only inside t. | proved |
| C79 | Connection identities are sound | Loop invariant over the columns; pairs (value, label); label injectivity from C23. | proved |
| C80 | Lookup, permutation and connection arguments are complete | C37, C38, C63 composed with the values of the generated expressions; bad challenges counted; x under primes excluded by a guardedness invariant. | proved |
| C81 | Native Goldilocks Poseidon is the textbook permutation and the circuit's | General theorem: optimized rounds = plain rounds for any power map when the tables satisfy linear identities (Compat); a list checker proved sound (check_sound) and run by the kernel on the verbatim tables; the gate equations of C65 unrolled. | proved |
| C82 | Optimized Poseidon over BN254 and BLS12-381 computes plain Poseidon | The same theorem and checker for the sixteen widths of each curve; primality by Pratt certificates. | proved |
| C83 | The Poseidon permutations are bijections | Composition of bijections: constants, power maps (exponent invertible modulo p-1), matrices with explicit inverses checked by the kernel. | proved |
| C84 | The prover's lookup, permutation and connection columns satisfy the generated identities | The three programs are generated by the modelled code generator and run on all rows; C44 gives their values; stores into disjoint cells are read back; then C80 and C75. | proved |
| C85 | A table that fulfils its lookups, permutations and connections is proved | C80 bounds the challenges with a vanishing denominator; outside of them every step is total (scoping invariant of the generated expressions); then C84. | proved |
| C86 | Vectorized Goldilocks arithmetic is the scalar arithmetic in every lane | Registers are functions from lanes to BitVec 64, the intrinsics are defined lane by lane; carries and borrows by case analysis on natural numbers, for every lane. | proved |
| C87 | Vectorized negation is the scalar negation in every lane | Same lemmas; the zero lane is computed. | partial |
| C88 | Interleaving vectors permutes the lanes as documented | Lane permutations, by cases on the lane. | proved |
| C89 | AVX2 and AVX-512 Poseidon are the scalar Poseidon | One model over g groups of four lanes; simulation of the scalar optimized permutation of C81 in each group, table rearrangement checked by the kernel. | proved |
| C90 | Linear hashes do not depend on the instruction set | Induction over the input with the buffer of the absorbing loop; two sponges side by side. | proved |
| C91 | Merkle trees do not depend on the instruction set | Loop invariants for the pairwise leaf pass and the fourwise level pass; the node array then goes through the same level loop as C24. | proved |
| C92 | Every committed column has its own place in its Merkle tree | Ghost list of (round, dimension) per column; invariant of the five loops of map; map_section positions are counts of earlier columns of the same section and dimension. | proved |
| C93 | Every expression that the prover stores has its own column | Invariant on exp2pol and tmpexps through the loops (an entry is added once), positions by the same counting. | proved |
| C94 | Columns are as wide as what they hold | cm_dims agrees with the final dimensions on the rounds already treated; get_exp_dim only depends on the columns an expression uses and is 3 when it contains a challenge. | proved |
| C95 | The layout of the setup is the layout of the prover | Scoping of the generated expressions (C84) gives the hypotheses of C94; the rest is C92. | proved |
| C96 | References in generated code become the right columns and fresh temporaries | State of iterate_code as a map from references to temporaries; invariant: entries are injective and in the new range, the final map extends every intermediate one. | proved |
| C97 | The compiled program fills every column with the value of its expression | Simulation: interpreter state vs. named registers (C44 semantics), instruction by instruction and row by row; a column either is new or already holds the value, and rows agree on what a row holds because values at the next row are values of the next row. | proved |
| C98 | The trace-domain programs run correctly on the buffers the setup laid out | The layout of map satisfies the placement hypotheses of C97; the shape of the expressions that genArgs adds (challenge in every argument expression) gives the dimension condition. | proved |
| C99 | The parallel run of a program gives the same columns for every number of workers | Every chunk is a run of C97 on the rows of the chunk and its look-ahead rows, with the values of the global rows; the result is assembled cell by cell from the chunks. | proved |
| C100 | Batch inversion, the grand product and the sorted lookup columns on the prover's tagged elements | Tagged model next to the field model of C37/C38; induction over the loops with WF invariants; h1h2 commutes with maps injective on the elements used. | proved |
| C101 | Writing a polynomial to the prover's buffers and reading it back | Row loop of set_pol: induction over rows with cell_row_ne; get_pol reads through the Hold predicate of C97. | proved |
| C102 | The second and third round of the prover fill its buffers with the columns of the arguments | Invariant Sync (buffers hold the committed columns below lim) through the runs of C99, the lookup loop and the product loop; values of the sides do not depend on later columns. | proved |
| C103 | The quotient and the FRI polynomial computed in the prover's buffers | Simulation of the generated program by chunk (as C97/C99) on the extended domain with next-row distance 2^ext; the Zi table is indexed by absolute row; values equal the quotRow/friRows of the prover model of C76. | proved |
| C104 | stark_gen, run on its buffers with the compiled programs, returns a proof the verifier accepts | Forward simulation: round by round the buffers of genBuf hold the columns of the rounds of C84/C85 (C102, C103 for the programs, C22 for extensions, C39 for openings); frames say what each pass leaves unchanged. | proved |
| C105 | The public inputs a proof carries are the values the trace gives them | Rewriting of the generated program into temporaries (pubFix equals fix_prover_code without columns), simulation at one row (C97), induction over the list with the first j public inputs known; counting argument for the panic; composed with C104. | partial |
| C106 | The circuit prints the verifier's programs faithfully | Printed statements as a small syntax (scalars and triples) with single-assignment semantics; simulation of execute_code instruction by instruction, case split on operation and dimensions; the generated programs are in single-assignment form by the invariants of C44/C73. | proved |
| C107 | The circuit's transcript is the verifier's transcript | Symbolic transcript (names of signals) against the native one: relation between the symbolic state, pending and output lists and the values; induction over the calls. | proved |
| C108 | The circuit's constraint check is the verifier's constraint check | The template as a function of its inputs; C106 for the code, induction for the repeated squaring and the recombination of the quotient. | proved |
| C109 | The circuit's query check is the verifier's query check | The point from the bits by induction (xacc_spec); MapValues by position; C106 for the code. | proved |
| C110 | The recursive verifier circuit accepts exactly what the verifier accepts | Transcript link by C107; every step of every query compared with the loop of FRI::verify (induction over the steps); C108 and C109 for the two templates; degree check by cases. Negations with concrete polynomials and with one step. | partial |
| C111 | Goldilocks arithmetic inside the on-chain circuit is sound and complete | Templates as relations over ZMod r; Num2Bits characterised by bits; the reduction m = k*p + out compared over the integers because both sides stay below r; completeness from the witness program including the extended Euclid loop (invariant) of _inv1. Negations with concrete assignments. | partial |
| C112 | Challenges and query bits drawn in the on-chain circuit are those of the native transcript | Num2Bits(255) characterised; two decompositions n and n + r when n + r < 2^255; comparison with splitInt of the native transcript. | partial |
| C113 | Public inputs of the on-chain circuit are canonical Goldilocks elements | Weighted sum of the digit comparisons by induction over the digits; then the range check of the publics. | proved |
| C114 | The selection of a value by index in the on-chain circuit is exact | Induction over the levels with the running offsets. | proved |
| C115 | Poseidon in the on-chain circuit is the native Poseidon | Every component as a relation between its signals; induction over the partial rounds; equality with optPerm of C81-C83. | proved |
| C116 | The leaf hash in the on-chain circuit is the native leaf hash and binds the row | The wiring loop by strong induction over triples; the chain of components by induction; C62 for the native closed form. | partial |
| C117 | Merkle openings in the on-chain circuit | One-hot selectors by cases; strong induction over the key bits; binding by induction over the path; native path by induction over the levels of the tree. | proved |
| C118 | Polynomial evaluation and Fourier transforms in the on-chain circuit are the native ones | Horner by induction; the sum of the transform bounded below 2^249; table of roots checked against the squaring loop; native fft/ifft by C16, C17. | proved |
| C119 | The on-chain circuit draws the challenges of the native transcript | Printed statements as a list over symbolic names; the symbolic transcript and the native one are related by an invariant kept by every operation (simulation); evaluation for completeness, agreement of every satisfying assignment with the evaluation for soundness. | partial |
| C120 | The program printed for the on-chain circuit computes the native program's value | Printed statements over signals of the scalar field; every temporary carries an integer interval in multiples of p; invariant over the program relating signals and native temporaries (residue and interval); for completeness the assignment is built instruction by instruction. | proved |
| C121 | The on-chain VerifyEvaluations accepts exactly when the native constraint check does | The squaring chain, the quotient sum and the final norm by induction over the components; the program by C120; field arithmetic for the closing equation. | proved |
| C122 | The on-chain VerifyQuery computes the native query value | The accumulated point by induction over the bits of the index (roots table = MG, C118); the two inverses force a nonzero denominator; the program by C120 with the opened rows as leaves. | proved |
| C123 | The folding steps and the degree check of the on-chain circuit accept exactly what the native FRI verifier accepts | The accumulated inverse point by induction over the bits; C118 for the inverse transform and the evaluation, C114 for the selection; the norm forces equality modulo p. | proved |
| C124 | After its transcript the on-chain verifier circuit accepts exactly what the native verifier accepts | C121, C122, C123 and C117 for the components; one new gadget fact: GLCNorm can output every 64-bit representative, so the value of a query can be made equal to any given row of the next layer with the same residues. Each check of the circuit is matched with one check of the specification NativeOk, for all queries and layers. | proved |
| C125 | The on-chain verifier circuit accepts exactly the proofs the native verifier accepts | The list of transcript calls of the generator as operations of C119; Calls (distinct names, one permutation) for every shape; the answers of C119 supply the hypotheses of C124. | partial |
| C126 | The on-chain transcript draws the challenges, folding points and queries of the native verifier | The list of transcript calls of the generator (C125) against putAll / getField / perms of the native verifier model (C43, C32), call by call, for every number of publics, openings, layers and values. | proved |
| C127 | The on-chain verifier circuit and stark_verify accept the same proofs | stark_verify and FRI::verify models (C43, C32) reduced to the list of checks NativeVer: loop over layers and queries unrolled by induction; NativeVer compared with the checks of C124; C125 and C126 join them. Witness that the native degree check is one coefficient weaker than the circuit. | partial |
| C128 | Groth16 JSON files read back to what was written | Digit strings: sixteen hex digits per limb read as one number (induction over digits and limbs), decimal text by C55; records of strings read back field by field, lists by induction. | proved |
| C129 | A coordinate or public-input string denotes a unique field element | The loop of from_str accepts exactly the decimal numerals without leading zero (induction on the string); witness x + k p for the violation. | partial |
| C130 | The witness calculator gives the circuit program exactly the inputs and returns exactly its wires | The dialogue as a fold over an abstract program; simulation of the program with memory by the ideal program without (write loop, read loop, regrouping of the words), conversion by C57. | proved |
| C131 | Nested input arrays are flattened in row-major order | flat_array as mutual recursion over the JSON tree; induction on the dimensions, decimal text as in C55 and C128. | proved |
| C132 | The on-chain circuit's only public output commits to the prover's address and to every public input | Num2Bits and CompConstant64 by C112/C113; the index arithmetic of the hasher input against the bits of the byte string (induction on the list of inputs); injectivity of the byte encoding. | proved |
| C133 | The exported PIL says what the analyzed program says | Both passes as folds over the declarations; invariant by induction on the prefix (the map of numbers is the table of positions); values of exported expressions by induction on the expression, both directions without an order on the definitions. | proved |
| C134 | The line reported for an identity is the line it stands on | The starts of lines are increasing; their number up to the offset and the last of them, by induction on the text. | proved |
| C135 | A column x of namespace ns is exported as ns.x | The last occurrence of :: by induction on the name; witness main::x for the violation. | partial |
| C136 | The generated Solidity verifier accepts exactly what groth16_verify accepts | The contract on coordinates, with the precompiles as partial functions; induction over the loop of verify, then bilinearity. The template as a list of pieces, and the replacements on it; induction over the points of the key. | proved |
