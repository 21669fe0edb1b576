{
 "claims": [
  {
   "property": "C01",
   "status": "proved",
   "theorems": [
    "Verif.GL.asInt_add",
    "Verif.GL.asInt_sub",
    "Verif.GL.asInt_neg",
    "Verif.GL.asInt_double",
    "Verif.GL.asInt_mul",
    "Verif.GL.asInt_square",
    "Verif.GL.add_no_overflow",
    "Verif.GL.elem_canonical"
   ],
   "note": "limb-level Montgomery model; all canonical operands"
  },
  {
   "property": "C02",
   "status": "proved",
   "theorems": [
    "Verif.GL.fromRepr_isSome",
    "Verif.GL.fromU64_panics",
    "Verif.GL.asInt_fromRepr",
    "Verif.GL.fromRepr_asInt",
    "Verif.GL.fromRawRepr_iff"
   ],
   "note": ""
  },
  {
   "property": "C03",
   "status": "proved",
   "theorems": [
    "Verif.GL.inverse_spec",
    "Verif.GL.inverse_zero",
    "Verif.GL.div_spec",
    "Verif.GL.prime_MODULUS"
   ],
   "note": ""
  },
  {
   "property": "C04",
   "status": "proved",
   "theorems": [
    "Verif.GL.asInt_exp",
    "Verif.GL.asInt_pow"
   ],
   "note": ""
  },
  {
   "property": "C05",
   "status": "proved",
   "theorems": [
    "Verif.GL.legendre_spec",
    "Verif.GL.sqrt_spec"
   ],
   "note": ""
  },
  {
   "property": "C06",
   "status": "proved",
   "theorems": [
    "Verif.GL.eq_iff_asInt",
    "Verif.GL.isZero_iff",
    "Verif.GL.cmp_spec",
    "Verif.GL.elem_canonical",
    "Verif.GL.deserialize_not_canonical"
   ],
   "note": "holds for every element built through the arithmetic API; deserialize_not_canonical records that derived Deserialize accepts non-canonical limbs"
  },
  {
   "property": "C07",
   "status": "partial",
   "theorems": [
    "Verif.GL.repr_utils_partial",
    "Verif.GL.numBits_off_by_64",
    "Verif.GL.numBits_ne_size"
   ],
   "note": "num_bits is violated by the code (always 64 too large): proved as a negation; the other clauses are proved"
  },
  {
   "property": "C08",
   "status": "partial",
   "theorems": [
    "Verif.GL.toU64_raw_partial",
    "Verif.GL.toU64_not_inverse"
   ],
   "note": "violated by the code: negation proved"
  },
  {
   "property": "C09",
   "status": "proved",
   "theorems": [
    "Verif.Ext3.add_spec",
    "Verif.Ext3.sub_spec",
    "Verif.Ext3.neg_spec",
    "Verif.Ext3.mul_spec",
    "Verif.Ext3.square_spec",
    "Verif.Ext3.double_spec",
    "Verif.Ext3.mulScalar_spec",
    "Verif.Ext3.const_spec",
    "Verif.Ext3.val_inj",
    "Verif.Ext3.val_surj"
   ],
   "note": "against AdjoinRoot (X^3-X-1) over ZMod p"
  },
  {
   "property": "C10",
   "status": "proved",
   "theorems": [
    "Verif.Ext3.inv_spec",
    "Verif.Ext3.mul_inv_spec",
    "Verif.Ext3.div_spec",
    "Verif.Ext3.no_zero_divisors",
    "Verif.Ext3.poly_irreducible"
   ],
   "note": ""
  },
  {
   "property": "C11",
   "status": "proved",
   "theorems": [
    "Verif.Ext3.exp_spec"
   ],
   "note": ""
  },
  {
   "property": "C12",
   "status": "proved",
   "theorems": [
    "Verif.Ext3.gt_spec",
    "Verif.Ext3.cmp_spec",
    "Verif.Ext3.trichotomy",
    "Verif.Ext3.eq_spec",
    "Verif.Ext3.cmp_mixed_dim"
   ],
   "note": "mixed dimensions panic in the code and are covered by cmp_mixed_dim"
  },
  {
   "property": "C13",
   "status": "partial",
   "theorems": [
    "Verif.Ext5.add_spec",
    "Verif.Ext5.sub_spec",
    "Verif.Ext5.mul_spec",
    "Verif.Ext5.square_spec",
    "Verif.Ext5.mulScalar_spec",
    "Verif.Ext5.inv_spec",
    "Verif.Ext5.div_spec",
    "Verif.Ext5.exp_spec",
    "Verif.Ext5.eq_spec",
    "Verif.Ext5.isZero_spec",
    "Verif.Ext5.neg_partial",
    "Verif.Ext5.neg_panics",
    "Verif.Ext5.lt_diverges",
    "Verif.Ext5.lt_of_not_gt",
    "Verif.Ext5.gt_partial",
    "Verif.Ext5.gt_not_lexicographic"
   ],
   "note": "arithmetic and inversion proved; negation of dim-5 values, lt and gt are violated by the code: negations proved"
  },
  {
   "property": "C14",
   "status": "proved",
   "theorems": [
    "Verif.FFT.batchInverse_spec",
    "Verif.FFT.batchInverse_zero"
   ],
   "note": ""
  },
  {
   "property": "C15",
   "status": "proved",
   "theorems": [
    "Verif.FFT.evalPol_spec",
    "Verif.FFT.polMulAxi_get",
    "Verif.FFT.polMulAxi_spec"
   ],
   "note": ""
  },
  {
   "property": "C16",
   "status": "proved",
   "theorems": [
    "Verif.FFT.fft_spec",
    "Verif.FFT.fft_spec_K",
    "Verif.FFT.fft_panics"
   ],
   "note": "generic over a field with a table of roots; fft_spec_K instantiates it to the code's table and field"
  },
  {
   "property": "C17",
   "status": "proved",
   "theorems": [
    "Verif.FFT.ifft_fft",
    "Verif.FFT.fft_ifft",
    "Verif.FFT.ifft_fft_K",
    "Verif.FFT.fft_ifft_K"
   ],
   "note": ""
  },
  {
   "property": "C18",
   "status": "proved",
   "theorems": [
    "Verif.FFT.extendPol_spec",
    "Verif.FFT.extendPol_spec_K",
    "Verif.FFT.interpolant_exists_unique"
   ],
   "note": ""
  },
  {
   "property": "C19",
   "status": "proved",
   "theorems": [
    "Verif.FftP.fft_spec",
    "Verif.FftP.ifft_spec",
    "Verif.FftP.fft_eq_serial",
    "Verif.FftP.fft_worker_independent",
    "Verif.FftP.fft_K"
   ],
   "note": "all worker counts >= 1, all sizes 2^1..2^32, any previous destination contents"
  },
  {
   "property": "C20",
   "status": "proved",
   "theorems": [
    "Verif.FftP.interpolate_spec",
    "Verif.FftP.interpolate_any_dst",
    "Verif.FftP.interpolate_K",
    "Verif.FftP.nTransposes_even",
    "Verif.FftP.interpolate_panics"
   ],
   "note": "destination independence proved for <= 512 workers and < 2^35 cells; for other configurations the exact condition (zero tail when the second phase transposes an odd number of times) is the hypothesis of interpolate_spec"
  },
  {
   "property": "C21",
   "status": "proved",
   "theorems": [
    "Verif.FftP.BR_value",
    "Verif.FftP.BR_answers",
    "Verif.FftP.never_poisoned",
    "Verif.FftP.BRs_table",
    "Verif.FftP.brCal_invol",
    "Verif.FftP.BR_history_dependent"
   ],
   "note": "history independence proved for the arguments x <= 2^k used by the FFT; BR_history_dependent exhibits the history dependence for larger x"
  },
  {
   "property": "C22",
   "status": "proved",
   "theorems": [
    "Verif.Roots.mg_order",
    "Verif.Roots.mg_sq",
    "Verif.Roots.mg_inv",
    "Verif.Roots.roots_mg",
    "Verif.Roots.coset_avoids_subgroup",
    "Verif.Roots.coset_avoids_subgroup_ext",
    "Verif.Roots.shift_inv"
   ],
   "note": ""
  },
  {
   "property": "C23",
   "status": "proved",
   "theorems": [
    "Verif.Roots.getKs_spec",
    "Verif.Roots.connection_labels_distinct"
   ],
   "note": "proved for up to 2^32-2 columns"
  },
  {
   "property": "C24",
   "status": "proved",
   "theorems": [
    "Verif.Linear.hash_spec",
    "Verif.Linear.hash_one_block",
    "Verif.Linear.hashInner_spec",
    "Verif.Linear.hashInner_trailing_zeros",
    "Verif.Linear.hash_trailing_zeros",
    "Verif.Linear.hash_short_inj",
    "Verif.Linear.hashElementMatrix_spec"
   ],
   "note": "the Poseidon permutation is a parameter"
  },
  {
   "property": "C25",
   "status": "partial",
   "theorems": [
    "Verif.MerkleGL.completeness",
    "Verif.MerkleGL.merkelize_too_wide",
    "Verif.MerkleGL.merkelize_no_worker",
    "Verif.MerkleGL.height_one",
    "Verif.MerkleGL.height_one_rejects"
   ],
   "note": "completeness proved for every height >= 2 and width < 2^21+8; for height 1 the code violates it (height_one_rejects)"
  },
  {
   "property": "C26",
   "status": "proved",
   "theorems": [
    "Verif.MerkleGL.binding",
    "Verif.MerkleGL.opens_only_rows",
    "Verif.MerkleGL.interior_opening",
    "Verif.MerkleGL.verify_idx_mod"
   ],
   "note": "extractor form: a second opening of the same path length yields an explicit collision; interior_opening records that the length itself is not checked by verify"
  },
  {
   "property": "C27",
   "status": "proved",
   "theorems": [
    "Verif.MerkleGL.worker_independent",
    "Verif.MerkleGL.level_worker_independent",
    "Verif.MerkleBN.worker_independent"
   ],
   "note": ""
  },
  {
   "property": "C28",
   "status": "partial",
   "theorems": [
    "Verif.MerkleBN.completeness",
    "Verif.MerkleBN.verify_ignores_row_and_index",
    "Verif.MerkleBN.binding_violated",
    "Verif.MerkleBN.accepted_binds_last_level",
    "Verif.MerkleBN.height_one",
    "Verif.MerkleBN.worker_independent"
   ],
   "note": "completeness holds; binding is violated by the code (row and index are ignored): negation proved, with the part that does hold (accepted_binds_last_level)"
  },
  {
   "property": "C29",
   "status": "proved",
   "theorems": [
    "Verif.TranscriptGL.put_flatten",
    "Verif.TranscriptGL.put_split",
    "Verif.TranscriptGL.run_total",
    "Verif.TranscriptGL.challenges_after_put",
    "Verif.TranscriptGL.first_challenges",
    "Verif.TranscriptGL.trailing_zeros_same_challenges",
    "Verif.TranscriptGL.challenges_bind",
    "Verif.TranscriptGL.getMany_split"
   ],
   "note": "permutation is a parameter; every history of put/get"
  },
  {
   "property": "C30",
   "status": "partial",
   "theorems": [
    "Verif.TranscriptBN.challenges_after_put_partial",
    "Verif.TranscriptBN.run_total",
    "Verif.TranscriptBN.stale_challenge",
    "Verif.TranscriptBN.stale_from_new",
    "Verif.TranscriptBN.splitInt_spec"
   ],
   "note": "holds for histories of put / get_field / get_permutations (the ones prover and verifier use); violated by single draws: stale_challenge, stale_from_new"
  },
  {
   "property": "C31",
   "status": "proved",
   "theorems": [
    "Verif.Perms.permutations_spec",
    "Verif.Perms.positions_distinct",
    "Verif.Perms.nFields_zero"
   ],
   "note": "window w = 63 (Goldilocks) and 253 (BN128/BLS12-381) are instances of w > 0"
  },
  {
   "property": "C32",
   "status": "proved",
   "theorems": [
    "Verif.Fri.verifier_recomputes",
    "Verif.Fri.layer_is_fold"
   ],
   "note": ""
  },
  {
   "property": "C33",
   "status": "proved",
   "theorems": [
    "Verif.Fri.completeness",
    "Verif.Fri.completeness_GL",
    "Verif.Fri.prove_total"
   ],
   "note": "generic over Merkle tree and transcript; completeness_GL instantiates to the Goldilocks tree and transcript (trees of >= 2 rows, see C25 for the single-row violation), Poseidon a parameter"
  },
  {
   "property": "C34",
   "status": "partial",
   "theorems": [
    "Verif.Fri.finalCheck_iff",
    "Verif.Fri.finalCheck_rejects_partial",
    "Verif.Fri.degree_bound_off_by_one",
    "Verif.Fri.verify_accepts"
   ],
   "note": "violated at the bound itself (a layer of degree exactly the bound is accepted): negation proved; everything above is rejected"
  },
  {
   "property": "C35",
   "status": "partial",
   "theorems": [
    "Verif.Fri.queryEq_iff_partial",
    "Verif.Fri.queryEq_ignores_length"
   ],
   "note": "violated when lengths differ: negation proved"
  },
  {
   "property": "C36",
   "status": "proved",
   "theorems": [
    "Verif.Stark.zhInv_spec",
    "Verif.Stark.zhInv_K"
   ],
   "note": ""
  },
  {
   "property": "C37",
   "status": "proved",
   "theorems": [
    "Verif.Stark.h1h2_spec",
    "Verif.Stark.h1h2_perm",
    "Verif.Stark.h1h2_missing",
    "Verif.Stark.h1h2_dim_mismatch"
   ],
   "note": "equality is the derived == of F3G, which includes the dimension tag; h1h2_dim_mismatch records that a dimension-1 column is never found in a dimension-3 table"
  },
  {
   "property": "C38",
   "status": "proved",
   "theorems": [
    "Verif.Stark.calculateZ_spec",
    "Verif.Stark.calculateZ_zero_den"
   ],
   "note": ""
  },
  {
   "property": "C39",
   "status": "proved",
   "theorems": [
    "Verif.Stark.openEval_spec",
    "Verif.Stark.openEval_K"
   ],
   "note": ""
  },
  {
   "property": "C40",
   "status": "proved",
   "theorems": [
    "Verif.Stark.splitQ_spec",
    "Verif.Stark.recombine_spec",
    "Verif.Stark.splitQ_K"
   ],
   "note": ""
  },
  {
   "property": "C41",
   "status": "proved",
   "theorems": [
    "Verif.Interp.compile_eval_spec",
    "Verif.Interp.compile_eval_ret",
    "Verif.Interp.calculateExps_spec",
    "Verif.Interp.run_frame",
    "Verif.Interp.write_short_partial"
   ],
   "note": "row-oriented spec in Interp/Spec.lean; write_short_partial exhibits the stale cells left by a dimension-1 value written into a dimension-3 column"
  },
  {
   "property": "C42",
   "status": "proved",
   "theorems": [
    "Verif.Interp.calcParN_spec",
    "Verif.Interp.calcPar_spec",
    "Verif.Interp.calcPar_workers",
    "Verif.Interp.execInfo_sections",
    "Verif.Interp.zhInv_offset",
    "Verif.Interp.calcParN_panics",
    "Verif.Interp.calcPar_many_workers"
   ],
   "note": "any chunking whose non-last chunks are followed by enough rows; shown for 1..2048 workers; panics with 4095 workers on 2^24 rows are exhibited"
  },
  {
   "property": "C43",
   "status": "proved",
   "theorems": [
    "Verif.Stark.challenges_agree",
    "Verif.Stark.transcript_agreement",
    "Verif.Stark.verChallenges_script",
    "Verif.Stark.friChallenges_script"
   ],
   "note": "the challenges up to FRI; FRI's own by Fri.completeness (C33)"
  },
  {
   "property": "C44",
   "status": "proved",
   "theorems": [
    "Verif.Codegen.codegen_spec",
    "Verif.Codegen.codegen_once",
    "Verif.Codegen.findMuladd_val",
    "Verif.Codegen.val_shift"
   ],
   "note": "the operand count of add/sub/mul nodes is two, as the PIL compiler emits"
  },
  {
   "property": "C45",
   "status": "proved",
   "theorems": [
    "Verif.ImPols.calculate_im_pols_degree",
    "Verif.ImPols.generate_degree_of_feasible",
    "Verif.ImPols.calculate_im_pols_feasible",
    "Verif.ImPols.generate_degree",
    "Verif.ImPols.selectLoop_minimal",
    "Verif.ImPols.infeasible_is_silent"
   ],
   "note": "For every expression list and bound, with degrees measured as degrees of the polynomials the expressions denote; also the degree of the final constraint polynomial and of its quotient, feasibility for quadratic expressions, and minimality of the chosen bound. infeasible_is_silent: when no bound is feasible the code continues with q_deg = 0."
  },
  {
   "property": "C46",
   "status": "proved",
   "theorems": [
    "Verif.StarkInfo.mapSection_spec",
    "Verif.StarkInfo.offsets_disjoint"
   ],
   "note": ""
  },
  {
   "property": "C47",
   "status": "partial",
   "theorems": [
    "Verif.Io.Pols.save_spec",
    "Verif.Io.Pols.load_save_partial",
    "Verif.Io.Pols.load_truncated",
    "Verif.Io.Pols.load_short_read"
   ],
   "note": "round trip for any read sizes that are positive multiples of 8; load_short_read is the negation for other read sizes"
  },
  {
   "property": "C48",
   "status": "proved",
   "theorems": [
    "Verif.Io.Zkin.joinZkin_spec"
   ],
   "note": "JSON text layer not modelled"
  },
  {
   "property": "C49",
   "status": "partial",
   "theorems": [
    "Verif.Plonk.r1cs2plonk_sound_partial",
    "Verif.Plonk.r1cs2plonk_exact",
    "Verif.Plonk.r1cs2plonk_sign"
   ],
   "note": "holds for every system in which a constant factor A or B is null (what circom emits for linear constraints); r1cs2plonk_exact gives the exact emitted relation for every system; r1cs2plonk_sign is the negation for a non-null constant factor (the sign of C is flipped)"
  },
  {
   "property": "C50",
   "status": "proved",
   "theorems": [
    "Verif.Plonk.exec_spec"
   ],
   "note": ""
  },
  {
   "property": "C51",
   "status": "proved",
   "theorems": [
    "Verif.Plonk.execFile_roundtrip"
   ],
   "note": "the JSON text layer (serde_json) is not modelled"
  },
  {
   "property": "C52",
   "status": "proved",
   "theorems": [
    "Verif.Plonk.SPoly.sInit_eq",
    "Verif.Plonk.SPoly.sPolys_cycles",
    "Verif.Plonk.SPoly.sPolys_filling",
    "Verif.Plonk.SPoly.sPolys_connection"
   ],
   "note": "sPolys_connection: the multiset identity checked by the connection argument holds iff linked cells carry equal values"
  },
  {
   "property": "C53",
   "status": "partial",
   "theorems": [
    "Verif.Plonk.rows_needed",
    "Verif.Plonk.reserved_rows_suffice_partial",
    "Verif.Plonk.reserved_rows_bounds",
    "Verif.Plonk.reserved_rows_violated"
   ],
   "note": "rows_needed gives the exact number of rows used; it fits under the stated condition; reserved_rows_violated is the negation for two gates with different selectors"
  },
  {
   "property": "C54",
   "status": "partial",
   "theorems": [
    "Verif.Io.Digest.deGL_serGL",
    "Verif.Io.Digest.deF3_serF3",
    "Verif.Io.Digest.deF5_serF5",
    "Verif.Io.Digest.fromScalar_asScalar",
    "Verif.Io.Digest.asScalar_fromScalar_partial",
    "Verif.Io.Digest.fromScalar_collision",
    "Verif.Io.Digest.deScalar_serScalar",
    "Verif.Io.Digest.deScalar_serScalar_partial",
    "Verif.Io.Digest.deScalar_ne",
    "Verif.Io.Digest.toScalar_spec"
   ],
   "note": "full for Goldilocks digests and extension elements; scalars exactly when all limbs are below the Goldilocks modulus, fromScalar_collision and deScalar_ne are the negations otherwise"
  },
  {
   "property": "C55",
   "status": "proved",
   "theorems": [
    "Verif.Io.loadWitness_iff",
    "Verif.Io.witness_roundtrip",
    "Verif.Io.witness_truncated"
   ],
   "note": ""
  },
  {
   "property": "C56",
   "status": "proved",
   "theorems": [
    "Verif.Io.fromReader_spec",
    "Verif.Io.parsed_sorted",
    "Verif.Io.fromReader_order"
   ],
   "note": ""
  },
  {
   "property": "C57",
   "status": "proved",
   "theorems": [
    "Verif.Io.limbs_roundtrip"
   ],
   "note": ""
  },
  {
   "property": "C58",
   "status": "partial",
   "theorems": [
    "Verif.Io.PilNumber.parsePil_partial",
    "Verif.Io.PilNumber.parsePil_below"
   ],
   "note": "canonical for integers not below -p; parsePil_below shows every integer below -p that is not a multiple of p is read as another field element"
  },
  {
   "property": "C59",
   "status": "proved",
   "theorems": [
    "Verif.Plonk.Circuit.enforceAll_iff",
    "Verif.Plonk.Circuit.synthesize_iff",
    "Verif.Plonk.Circuit.publicInputs_eq"
   ],
   "note": "bellman's constraint system is modelled, not proved"
  },
  {
   "property": "C60",
   "status": "proved",
   "theorems": [
    "Verif.Codegen.traverse_eq_postorder"
   ],
   "note": ""
  },
  {
   "property": "C61",
   "status": "proved",
   "theorems": [
    "Verif.Helper.log2Any_eq",
    "Verif.Helper.log2Any_zero",
    "Verif.Helper.log2Any_wrong_above"
   ],
   "note": ""
  },
  {
   "property": "C62",
   "status": "partial",
   "theorems": [
    "Verif.LinearBN.hashMatrix_spec",
    "Verif.LinearBN.row_hashes_agree",
    "Verif.LinearBN.row_hashes_differ_at_four"
   ],
   "note": "agreement proved for every width other than 4; negation at width 4"
  },
  {
   "property": "C63",
   "status": "proved",
   "theorems": [
    "Verif.Stark.plookup_pairs",
    "Verif.Stark.plookup_product"
   ],
   "note": ""
  },
  {
   "property": "C64",
   "status": "proved",
   "theorems": [
    "Verif.Plonk.placeAll_slots",
    "Verif.Plonk.placeAll_spec"
   ],
   "note": ""
  },
  {
   "property": "C65",
   "status": "proved",
   "theorems": [
    "Verif.Plonk.r1cs2plonk_guarded",
    "Verif.Plonk.Guarded.eval"
   ],
   "note": ""
  },
  {
   "property": "C66",
   "status": "proved",
   "theorems": [
    "Verif.Plonk.Custom.placeUse_spec",
    "Verif.Plonk.Custom.placeUses_spec",
    "Verif.Plonk.Custom.placeUses_rows",
    "Verif.Plonk.Custom.cMulAddId_iff",
    "Verif.Plonk.Custom.evPolId_iff",
    "Verif.Plonk.Custom.fft_sat",
    "Verif.Plonk.Custom.poseidonId_iff"
   ],
   "note": ""
  },
  {
   "property": "C67",
   "status": "partial",
   "theorems": [
    "Verif.Plonk.Custom.treated_partial",
    "Verif.Plonk.Custom.template_confused",
    "Verif.Plonk.Custom.fftOf_spec"
   ],
   "note": "holds when CMulAdd and Poseidon12 are declared; template_confused is the negation otherwise"
  },
  {
   "property": "C68",
   "status": "partial",
   "theorems": [
    "Verif.Plonk.Custom.system_iff",
    "Verif.Plonk.Custom.compressor_partial",
    "Verif.Plonk.Custom.custom_gate_dropped"
   ],
   "note": "for setups whose rows fit the reserved ones and R1CS without a non-null constant factor; custom_gate_dropped is the negation when they do not fit"
  },
  {
   "property": "C69",
   "status": "partial",
   "theorems": [
    "Verif.Io.fromReader_prime_partial",
    "Verif.Io.foreign_prime_accepted"
   ],
   "note": "the modulus is one of the supported ones; foreign_prime_accepted is the negation of the full claim"
  },
  {
   "property": "C70",
   "status": "partial",
   "theorems": [
    "Verif.Io.ProofJson.deserialize_serialize",
    "Verif.Io.ProofJson.proof_roundtrip_GL",
    "Verif.Io.ProofJson.codecScalar_ok",
    "Verif.Io.ProofJson.path_lost_BN"
   ],
   "note": "full for the Goldilocks tree; for the scalar trees under the condition of codecScalar_ok, path_lost_BN is the negation otherwise"
  },
  {
   "property": "C71",
   "status": "proved",
   "theorems": [
    "Verif.Stark.completeness"
   ],
   "note": "protocol level: the consistency of the computed values is a hypothesis (Stark.Honest)"
  },
  {
   "property": "C72",
   "status": "proved",
   "theorems": [
    "Verif.Stark.accepts"
   ],
   "note": "no cryptographic soundness is claimed"
  },
  {
   "property": "C73",
   "status": "proved",
   "theorems": [
    "Verif.Stark.verifier_code",
    "Verif.Stark.query_code"
   ],
   "note": ""
  },
  {
   "property": "C74",
   "status": "proved",
   "theorems": [
    "Verif.Stark.friExpr_spec",
    "Verif.Stark.fri_low_degree"
   ],
   "note": ""
  },
  {
   "property": "C75",
   "status": "proved",
   "theorems": [
    "Verif.Stark.stark_complete",
    "Verif.Stark.stark_complete_GL",
    "Verif.Stark.prover_data",
    "Verif.Stark.honest",
    "Verif.Stark.satisfied_of_plain",
    "Verif.Stark.const_total",
    "Verif.Stark.Example.accepted"
   ],
   "note": "from the trace to acceptance; the prover's programs run on named registers; sections 2 and 3 of the trace are given as functions of the challenges"
  },
  {
   "property": "C76",
   "status": "proved",
   "theorems": [
    "Verif.Stark.val_base",
    "Verif.Stark.quot_base"
   ],
   "note": ""
  },
  {
   "property": "C77",
   "status": "proved",
   "theorems": [
    "Verif.Grand.permutation_sound"
   ],
   "note": "a statement about the generated identities on the rows; the step from rows to the STARK's polynomial checks is not cryptographic here"
  },
  {
   "property": "C78",
   "status": "proved",
   "theorems": [
    "Verif.Grand.plookup_sound"
   ],
   "note": "the expressions of the PIL must not mention x (hpl); no order of the h1, h2 columns is assumed"
  },
  {
   "property": "C79",
   "status": "proved",
   "theorems": [
    "Verif.Grand.connection_sound",
    "Verif.Grand.label_injective",
    "Verif.Grand.single_column_connection"
   ],
   "note": "single_column_connection: the setup panics for a connection with one column"
  },
  {
   "property": "C80",
   "status": "proved",
   "theorems": [
    "Verif.Grand.args_complete",
    "Verif.Grand.plookup_identities",
    "Verif.Grand.perm_identities",
    "Verif.Grand.z_complete",
    "Verif.Grand.lookup_h1h2",
    "Verif.Grand.satisfied_of_holds",
    "Verif.Grand.genArgs_guarded",
    "Verif.Grand.Example.fulfils"
   ],
   "note": "the packing of the columns into the prover's buffers is C84"
  },
  {
   "property": "C81",
   "status": "proved",
   "theorems": [
    "Verif.Poseidon.optPerm_eq_plain",
    "Verif.Poseidon.Gl.permGl_textbook",
    "Verif.Poseidon.Gl.hash_textbook",
    "Verif.Poseidon.Gl.circuit_hash",
    "Verif.Poseidon.Gl.circuit_complete",
    "Verif.Poseidon.Gl.tables_ok",
    "Verif.Poseidon.Gl.isState"
   ],
   "note": "field arithmetic by C01-C08; the AVX versions of the hash: C89"
  },
  {
   "property": "C82",
   "status": "proved",
   "theorems": [
    "Verif.Poseidon.Bn128.hashEx_eq_plain",
    "Verif.Poseidon.Bn128.hash_eq_plain",
    "Verif.Poseidon.Bn128.hash_some_iff",
    "Verif.Poseidon.Bn128.widths_ok",
    "Verif.Poseidon.Bls.hashEx_eq_plain",
    "Verif.Poseidon.Bls.hash_some_iff",
    "Verif.Poseidon.Bls.widths_ok",
    "Verif.Poseidon.Bls.old_hash_differs"
   ],
   "note": "the Montgomery arithmetic of Fr (ff crate) is not modelled: Fr is ZMod p"
  },
  {
   "property": "C83",
   "status": "proved",
   "theorems": [
    "Verif.Poseidon.Gl.permGl_inj",
    "Verif.Poseidon.Gl.permGl_surj",
    "Verif.Poseidon.Gl.hash_inj",
    "Verif.Poseidon.Bn128.hashEx_inj",
    "Verif.Poseidon.Bn128.hashEx_surj",
    "Verif.Poseidon.Bls.hashEx_inj",
    "Verif.Poseidon.Bls.hashEx_surj",
    "Verif.Poseidon.plainPerm_bij"
   ],
   "note": ""
  },
  {
   "property": "C84",
   "status": "proved",
   "theorems": [
    "Verif.Grand.columns_satisfy",
    "Verif.Grand.columns_accepted",
    "Verif.Grand.ArgCircuit.wellFormed",
    "Verif.Grand.Ex.accepted"
   ],
   "note": "the placement of the columns in the sections is a hypothesis here (ArgLayout, ArgDims); C95 discharges it for the layout StarkInfo::map computes"
  },
  {
   "property": "C85",
   "status": "proved",
   "theorems": [
    "Verif.Grand.columns_exist",
    "Verif.Grand.args_accepted"
   ],
   "note": "the same hypotheses as C84; the evaluation challenge must not fall on the evaluation coset (C75)"
  },
  {
   "property": "C86",
   "status": "proved",
   "theorems": [
    "Verif.Simd.Avx2.ops_scalar",
    "Verif.Simd.Avx512.ops_scalar",
    "Verif.Simd.Avx2.ops_any",
    "Verif.Simd.Avx512.ops_any",
    "Verif.Simd.Avx2.div_scalar",
    "Verif.Simd.Avx512.div_scalar"
   ],
   "note": "the semantics of the intrinsics is the documented one (trusted)"
  },
  {
   "property": "C87",
   "status": "partial",
   "theorems": [
    "Verif.Simd.Avx2.neg_scalar_partial",
    "Verif.Simd.Avx512.neg_scalar_partial",
    "Verif.Simd.Avx2.neg_zero_invalid",
    "Verif.Simd.Avx512.neg_zero_invalid",
    "Verif.Simd.Avx2.neg_sub_any",
    "Verif.Simd.Avx512.neg_sub_any"
   ],
   "note": "the code violates the property: a zero lane is negated to the modulus, which from_repr rejects (proved)"
  },
  {
   "property": "C88",
   "status": "proved",
   "theorems": [
    "Verif.Simd.Avx2.interleave_spec",
    "Verif.Simd.Avx512.interleave_spec",
    "Verif.Simd.Avx2.interleave_involution",
    "Verif.Simd.Avx512.interleave_involution"
   ],
   "note": ""
  },
  {
   "property": "C89",
   "status": "proved",
   "theorems": [
    "Verif.Simd.avx2_scalar",
    "Verif.Simd.avx2_wide_panics",
    "Verif.Simd.avx512_two",
    "Verif.Simd.avx512_err",
    "Verif.Simd.weave_surj"
   ],
   "note": ""
  },
  {
   "property": "C90",
   "status": "proved",
   "theorems": [
    "Verif.Simd.linear512",
    "Verif.Simd.matrix512",
    "Verif.Simd.linear_avx2",
    "Verif.Simd.avx2_call",
    "Verif.Simd.odd_ignored"
   ],
   "note": "an odd total length, which no caller passes, is outside the property (odd_ignored)"
  },
  {
   "property": "C91",
   "status": "proved",
   "theorems": [
    "Verif.Simd.merkle512",
    "Verif.Simd.verify512",
    "Verif.Simd.cross512",
    "Verif.Simd.merkle_avx2"
   ],
   "note": ""
  },
  {
   "property": "C92",
   "status": "proved",
   "theorems": [
    "Verif.Map.map_pos",
    "Verif.Map.map_disjoint",
    "Verif.Map.map_quot"
   ],
   "note": ""
  },
  {
   "property": "C93",
   "status": "proved",
   "theorems": [
    "Verif.Map.map_exps",
    "Verif.Map.map_q_f"
   ],
   "note": ""
  },
  {
   "property": "C94",
   "status": "proved",
   "theorems": [
    "Verif.Map.map_dims",
    "Verif.Map.map_dims_13",
    "Verif.Map.safe_early",
    "Verif.Map.Example.map_dims_wrong"
   ],
   "note": "the restriction on intermediate polynomials is needed: Example.map_dims_wrong shows the code gives a wrong width without it"
  },
  {
   "property": "C95",
   "status": "proved",
   "theorems": [
    "Verif.Map.map_layout",
    "Verif.Map.safe_early"
   ],
   "note": ""
  },
  {
   "property": "C96",
   "status": "proved",
   "theorems": [
    "Verif.Map.fixProverCode_spec",
    "Verif.Map.fixProverCode_total"
   ],
   "note": ""
  },
  {
   "property": "C97",
   "status": "proved",
   "theorems": [
    "Verif.Map.rows_spec",
    "Verif.Map.program_spec",
    "Verif.Map.calculate_sim",
    "Verif.Map.RowsEx.result"
   ],
   "note": "expressions without muladd (find_muladd is only used for verifier code) and, when referred to at the next row, without x"
  },
  {
   "property": "C98",
   "status": "proved",
   "theorems": [
    "Verif.Map.map_rows",
    "Verif.Map.map_rowsX",
    "Verif.Map.map_place",
    "Verif.Map.map_read",
    "Verif.Map.map_dimOk",
    "Verif.Map.gen_mapOk",
    "Verif.Map.gen_expsOk",
    "Verif.Map.gen_noPoint",
    "Verif.Map.genArgs_form",
    "Verif.Map.Example.circuit_ok"
   ],
   "note": "intermediate polynomials must be Safe (as in C94) and the user's expressions must not use x; see C94 for what fails otherwise"
  },
  {
   "property": "C99",
   "status": "proved",
   "theorems": [
    "Verif.Map.par_rows",
    "Verif.Map.parN_rows",
    "Verif.Map.chunk_program",
    "Verif.Map.RowsEx.par",
    "Verif.Interp.calcParN_chunks",
    "Verif.Interp.chunk_view"
   ],
   "note": "for the steps on the trace domain and step4 (no quotient tables); the values used must come from the sections the step copies"
  },
  {
   "property": "C100",
   "status": "proved",
   "theorems": [
    "Verif.Stage.batchInverse_refines",
    "Verif.Stage.calculateZ_refines",
    "Verif.Stage.calculateH1H2_refines",
    "Verif.Stage.calculateH1H2_tags"
   ],
   "note": ""
  },
  {
   "property": "C101",
   "status": "proved",
   "theorems": [
    "Verif.Stage.getPol_setPol",
    "Verif.Stage.setPol_raw"
   ],
   "note": ""
  },
  {
   "property": "C102",
   "status": "proved",
   "theorems": [
    "Verif.Stage.rounds_spec",
    "Verif.Stage.stage_run",
    "Verif.Stage.lookups_fold",
    "Verif.Stage.products_fold",
    "Verif.Stage.Circ.side",
    "Verif.Stage.start_exists",
    "Verif.Stage.lookupStep_mixed",
    "Verif.Stage.Example.rounds_ok"
   ],
   "note": "the panic on sides of different width (finding) is lookupStep_mixed; expressions must not use x in a lookup side"
  },
  {
   "property": "C103",
   "status": "proved",
   "theorems": [
    "Verif.Stage.step4",
    "Verif.Stage.step5",
    "Verif.Stage.step4_cells",
    "Verif.Stage.bufs_exist",
    "Verif.Stage.map_extLay"
   ],
   "note": "expressions must not use x under the prime (see findings); the tables of steps 4 and 5 lack cm4_2ns and x_2ns respectively, which the generated programs never read"
  },
  {
   "property": "C104",
   "status": "proved",
   "theorems": [
    "Verif.Stage.gen_refines",
    "Verif.Stage.gen_accepted",
    "Verif.Stage.Example.genBuf_accepted"
   ],
   "note": "the public inputs are given here and computed in C105; simplifications in the header of Stage/FullModel.lean"
  },
  {
   "property": "C105",
   "status": "partial",
   "theorems": [
    "Verif.Stage.publics_spec_partial",
    "Verif.Stage.publics_mixed",
    "Verif.Stage.expAtPoint_spec",
    "Verif.Stage.pubs_gen_partial",
    "Verif.Stage.pubs_accepted_partial",
    "Verif.Stage.PubEx.starkGen_accepted"
   ],
   "note": "proved when the expressions come first; publics_mixed proves that the prover panics in every other order"
  },
  {
   "property": "C106",
   "status": "proved",
   "theorems": [
    "Verif.Circom.unrollCode_spec",
    "Verif.Circom.verifier_ssa",
    "Verif.Circom.query_ssa",
    "Verif.Circom.extOkK"
   ],
   "note": "CMul and CMulAdd of the circuit library are assumed to compute in the extension field"
  },
  {
   "property": "C107",
   "status": "proved",
   "theorems": [
    "Verif.Circom.transcript_spec",
    "Verif.Circom.put_sim",
    "Verif.Circom.getField_sim",
    "Verif.Circom.perms_sim"
   ],
   "note": "Poseidon of the circuit library is assumed to be the native permutation"
  },
  {
   "property": "C108",
   "status": "proved",
   "theorems": [
    "Verif.Circom.verifyEvaluations_spec",
    "Verif.Circom.evals_leaves"
   ],
   "note": ""
  },
  {
   "property": "C109",
   "status": "proved",
   "theorems": [
    "Verif.Circom.verifyQuery_spec",
    "Verif.Circom.xacc_spec",
    "Verif.Circom.query_leaves"
   ],
   "note": "CInv of the circuit library is assumed to force the inverse"
  },
  {
   "property": "C110",
   "status": "partial",
   "theorems": [
    "Verif.Circom.circuit_iff_partial",
    "Verif.Circom.circuit_disabled",
    "Verif.Circom.degree_stricter",
    "Verif.Circom.single_step_const_root",
    "Verif.Circom.native_const_root",
    "Verif.Circom.quotient_positions",
    "Verif.Circom.transcript_link",
    "Verif.Circom.exV_ok",
    "Verif.Circom.exIn_sized"
   ],
   "note": "exact equivalence up to the coefficient at the degree bound, for setups with at least two FRI steps; the full claim is false of the code: degree_stricter (the degree checks differ) and single_step_const_root with native_const_root (one FRI step: the circuit ignores the constant root). Merkle, FFT, evaluation and selection templates of the circuit library (not in the repository) are assumed to compute the native functions of the same purpose."
  },
  {
   "property": "C111",
   "status": "partial",
   "theorems": [
    "Verif.Gadget.glNorm_sound",
    "Verif.Gadget.glCNorm_sound",
    "Verif.Gadget.glMul_sound",
    "Verif.Gadget.glMulAdd_sound",
    "Verif.Gadget.glCMul_sound",
    "Verif.Gadget.glCMulAdd_sound",
    "Verif.Gadget.glInv_sound",
    "Verif.Gadget.glCInv_sound",
    "Verif.Gadget.glNorm_complete",
    "Verif.Gadget.glMul_complete",
    "Verif.Gadget.glMulAdd_complete",
    "Verif.Gadget.glCMul_complete",
    "Verif.Gadget.glCMulAdd_complete",
    "Verif.Gadget.glInv_complete",
    "Verif.Gadget.glCInv_complete",
    "Verif.Gadget.inv1_spec",
    "Verif.Gadget.glNorm_not_unique",
    "Verif.Gadget.glMul_not_unique",
    "Verif.Gadget.glMul_stuck"
   ],
   "note": "soundness and completeness hold; the output is not determined (glNorm_not_unique, glMul_not_unique) and below -16p there is none (glMul_stuck). Num2Bits of circomlib is modelled by its constraints"
  },
  {
   "property": "C112",
   "status": "partial",
   "theorems": [
    "Verif.Gadget.bn1togl3_iff",
    "Verif.Gadget.bn1togl3_sound_partial",
    "Verif.Gadget.bn1togl3_complete",
    "Verif.Gadget.digit64_native",
    "Verif.Gadget.bn1togl3_two",
    "Verif.Gadget.bn1togl3_challenge_not_unique",
    "Verif.Gadget.num2bits255_not_unique",
    "Verif.Gadget.num2bits_unique"
   ],
   "note": "the code violates uniqueness over BLS12-381: bn1togl3_challenge_not_unique, num2bits255_not_unique"
  },
  {
   "property": "C113",
   "status": "proved",
   "theorems": [
    "Verif.Gadget.compConstant64_iff",
    "Verif.Gadget.publics_canonical"
   ],
   "note": ""
  },
  {
   "property": "C114",
   "status": "proved",
   "theorems": [
    "Verif.Gadget.treeSelector_iff"
   ],
   "note": ""
  },
  {
   "property": "C115",
   "status": "proved",
   "theorems": [
    "Verif.Gadget.poseidonCore_iff",
    "Verif.Gadget.poseidonEx_iff",
    "Verif.Gadget.poseidonEx_second",
    "Verif.Gadget.poseidonT_iff",
    "Verif.Gadget.nRoundsP_eq"
   ],
   "note": "the tables of poseidon_constants.circom were compared with the Rust tables by a script outside Lean; the model uses the Rust tables"
  },
  {
   "property": "C116",
   "status": "partial",
   "theorems": [
    "Verif.Gadget.linearHash_iff",
    "Verif.Gadget.pack_inj",
    "Verif.Gadget.linearHash_not_binding",
    "Verif.Gadget.merkleHash_not_binding"
   ],
   "note": "the leaf does not bind the row: linearHash_not_binding; with range checks the packing would be injective (pack_inj)"
  },
  {
   "property": "C117",
   "status": "proved",
   "theorems": [
    "Verif.Gadget.merkle_iff",
    "Verif.Gadget.merkle_binding",
    "Verif.Gadget.merkleHash_complete",
    "Verif.Gadget.mSel_spec"
   ],
   "note": "binding is of the leaf hash; for the row see C116"
  },
  {
   "property": "C118",
   "status": "proved",
   "theorems": [
    "Verif.Gadget.evalPol_sound",
    "Verif.Gadget.evalPol_complete",
    "Verif.Gadget.evalPol_one",
    "Verif.Gadget.fft_sound",
    "Verif.Gadget.fft_complete",
    "Verif.Gadget.rootsTab_eq"
   ],
   "note": ""
  },
  {
   "property": "C119",
   "status": "partial",
   "theorems": [
    "Verif.Gadget.On.onTranscript_complete",
    "Verif.Gadget.On.onTranscript_sound_partial",
    "Verif.Gadget.On.onTranscript_two",
    "Verif.Gadget.On.bls_transcript_partial",
    "Verif.Gadget.On.blsPerm_hashIs",
    "Verif.Gadget.On.blsPerm_isHash"
   ],
   "note": "the code violates the full claim: onTranscript_two gives two assignments with different challenges when a split scalar is below 2^255 - r (about 9 % of all scalars); otherwise the values are determined"
  },
  {
   "property": "C120",
   "status": "proved",
   "theorems": [
    "Verif.Gadget.OnCode.onCode_sound",
    "Verif.Gadget.OnCode.onCode_complete"
   ],
   "note": "the printed forms that are not valid circom (sum or product of two scalars, scalar times scalar plus triple) have no translation in the model: unrollOne gives none"
  },
  {
   "property": "C121",
   "status": "proved",
   "theorems": [
    "Verif.Gadget.OnCode.onEvals_sound",
    "Verif.Gadget.OnCode.onEvals_complete",
    "Verif.Gadget.OnCode.onEvals_iff",
    "Verif.Gadget.OnCode.exOn_ok"
   ],
   "note": "inputs are 64-bit by hypothesis: the template does not range-check them"
  },
  {
   "property": "C122",
   "status": "proved",
   "theorems": [
    "Verif.Gadget.OnCode.onQuery_sound",
    "Verif.Gadget.OnCode.onQuery_complete",
    "Verif.Gadget.OnCode.onQuery_iff",
    "Verif.Gadget.OnCode.exQ_ok"
   ],
   "note": "inputs are 64-bit by hypothesis: the template does not range-check them; existence for at least two bits"
  },
  {
   "property": "C123",
   "status": "proved",
   "theorems": [
    "Verif.Gadget.OnFri.onFold_iff",
    "Verif.Gadget.OnFri.onLast_iff",
    "Verif.Gadget.OnFri.onLast_native",
    "Verif.Gadget.OnFri.nativeFold_checkOne"
   ],
   "note": "inputs are 64-bit by hypothesis; steps of at least two bits (one bit makes the generator panic)"
  },
  {
   "property": "C124",
   "status": "proved",
   "theorems": [
    "Verif.Gadget.OnVerifier.onVerifier_iff",
    "Verif.Gadget.OnVerifier.onQuery_any",
    "Verif.Gadget.OnVerifier.glNorm_any",
    "Verif.Gadget.OnVerifier.tree_iff",
    "Verif.Gadget.OnVerifier.exPar_ok",
    "Verif.Gadget.OnVerifier.exIn_base"
   ],
   "note": "inputs are 64-bit by hypothesis (the template does not range-check them); the unreduced result of the query program stays above -15p (OnVerifier.ParOk.room)"
  },
  {
   "property": "C125",
   "status": "partial",
   "theorems": [
    "Verif.Gadget.OnVerifier.onChain_partial",
    "Verif.Gadget.OnVerifier.answers_inOk",
    "Verif.Gadget.OnVerifier.onOps_calls",
    "Verif.Gadget.OnVerifier.native_range"
   ],
   "note": "existence of an assignment is proved in full; the converse is proved for assignments in which no split or decomposed scalar is below 2^255 - r. Without that condition the challenges are not determined (C119, On.onTranscript_two)"
  },
  {
   "property": "C126",
   "status": "proved",
   "theorems": [
    "Verif.Gadget.OnVerifier.onNative_draws",
    "Verif.Gadget.OnVerifier.putAll_eq",
    "Verif.Gadget.OnVerifier.native_fri"
   ],
   "note": "non-vacuity: the example closing OnNativeVerify instantiates all hypotheses for arbitrary openings, publics and last polynomial"
  },
  {
   "property": "C127",
   "status": "partial",
   "theorems": [
    "Verif.Gadget.OnVerifier.onNative_partial",
    "Verif.Gadget.OnVerifier.starkVerify_iff",
    "Verif.Gadget.OnVerifier.nativeOk_ver",
    "Verif.Gadget.OnVerifier.native_last_differs"
   ],
   "note": "circuit => native for assignments in which no split or decomposed scalar is below 2^255 - r (false without: C119, On.onTranscript_two); native => circuit when the coefficient at the degree bound is zero (false without: native_last_differs; the native check is off by one, C34). Stated over a tree whose verify accepts exactly the openings leading to the root; the code's tree accepts others (C27)"
  },
  {
   "property": "C128",
   "status": "proved",
   "theorems": [
    "Verif.Io.Groth16Json.proof_roundtrip",
    "Verif.Io.Groth16Json.vk_roundtrip",
    "Verif.Io.Groth16Json.publics_roundtrip",
    "Verif.Io.Groth16Json.scalar_roundtrip",
    "Verif.Io.Groth16Json.bigFromStr_repr"
   ],
   "note": "CPU build; points are coordinate pairs (the flag of the point at infinity belongs to the dependency), serde_json is trusted"
  },
  {
   "property": "C129",
   "status": "partial",
   "theorems": [
    "Verif.Io.Groth16Json.strToScalar_partial",
    "Verif.Io.Groth16Json.bigFromStr_iff",
    "Verif.Io.Groth16Json.fieldFromStr_iff",
    "Verif.Io.Groth16Json.str_alias",
    "Verif.Io.Groth16Json.dec_inj"
   ],
   "note": "what is accepted is characterised in full; violated: numbers from the modulus on are accepted and reduced (str_alias), so several files denote the same inputs"
  },
  {
   "property": "C130",
   "status": "proved",
   "theorems": [
    "Verif.Io.Driver.calcWitness_eq",
    "Verif.Io.Driver.calcWitness_neg",
    "Verif.Io.Driver.setOne_sim",
    "Verif.Io.Driver.readAll_ok",
    "Verif.Io.Driver.fnv_spec",
    "Verif.Io.Driver.exImplements"
   ],
   "note": "the program is any state machine meeting Io.Driver.Implements; wasmer itself is not modelled; indices below 2^32"
  },
  {
   "property": "C131",
   "status": "proved",
   "theorems": [
    "Verif.Io.Driver.tensor_load",
    "Verif.Io.Driver.load_null",
    "Verif.Io.Driver.parseBig_dec",
    "Verif.Io.Driver.parseBig_neg"
   ],
   "note": "serde_json is trusted for the tree of values"
  },
  {
   "property": "C132",
   "status": "proved",
   "theorems": [
    "Verif.Gadget.OnMain.mainHash_iff",
    "Verif.Gadget.OnMain.mainHash_binding",
    "Verif.Gadget.OnMain.message_inj",
    "Verif.Gadget.OnMain.mainHash_publics",
    "Verif.Gadget.OnMain.ofHash_spec"
   ],
   "note": "circomlib's Sha256 is not in the repository: any relation that computes a 256-bit digest of its input bits (OnMain.ShaSpec)"
  },
  {
   "property": "C133",
   "status": "proved",
   "theorems": [
    "Verif.Pil.Export.export_same",
    "Verif.Pil.Export.export_quotients",
    "Verif.Pil.Export.export_run",
    "Verif.Pil.Export.computeIds_spec",
    "Verif.Pil.Export.toJson_eval",
    "Verif.Pil.Export.exWf"
   ],
   "note": "for programs as powdr delivers them (Pil.Export.Wf: definitions as many as array elements, distinct column numbers, publics numbered in source order); source lines and the references table are not modelled, connection identities have no selectors"
  },
  {
   "property": "C134",
   "status": "proved",
   "theorems": [
    "Verif.Pil.Lines.lineCol_eq",
    "Verif.Pil.Lines.countP_le",
    "Verif.Pil.Lines.after_start"
   ],
   "note": "slice::binary_search by its documented result on strictly increasing slices"
  },
  {
   "property": "C135",
   "status": "partial",
   "theorems": [
    "Verif.Pil.Names.fixup_partial",
    "Verif.Pil.Names.fixup_dot",
    "Verif.Pil.Names.fixup_inj",
    "Verif.Pil.Names.fixup_colon",
    "Verif.Pil.Names.fixup_L1"
   ],
   "note": "violated: only one of the two colons is replaced, so ns::x is exported as ns.:x (fixup_colon), and Global::L1 is not found (fixup_L1)"
  },
  {
   "property": "C136",
   "status": "proved",
   "theorems": [
    "Verif.Io.Solidity.contract_iff",
    "Verif.Io.Solidity.contract_honest",
    "Verif.Io.Solidity.contract_inputs",
    "Verif.Io.Solidity.contract_malleable",
    "Verif.Io.SolTemplate.generate_fill",
    "Verif.Io.SolTemplate.generate_closed",
    "Verif.Io.SolTemplate.generate_empty"
   ],
   "note": "the pairing and the curve are abstract (bilinear map on groups), the Solidity functions and the precompiles are modelled on coordinates; contract_malleable: the coordinate Y of pi_c only counts modulo q, so an accepted proof can be written in another way"
  }
 ]
}