{
 "claims": [
  {
   "property": "C01",
   "status": "proved",
   "theorems": [
    "MscPoc.C01_produced_member",
    "MscPoc.C01_add_laws",
    "MscPoc.C01_scale_laws",
    "MscPoc.C01_equality"
   ],
   "note": "Proved for the concrete safe-prime code for any prime p, order q and generator of order dividing q; the 3072-bit p and q are proved prime in C48."
  },
  {
   "property": "C02",
   "status": "proved",
   "theorems": [
    "MscPoc.C02_aliasing"
   ],
   "note": "Heap model: each element owns one big integer; subtract uses a fresh temporary."
  },
  {
   "property": "C03",
   "status": "proved",
   "theorems": [
    "MscPoc.C03_mixing_panics"
   ],
   "note": ""
  },
  {
   "property": "C04",
   "status": "proved",
   "theorems": [
    "MscPoc.C04_transport",
    "MscPoc.C04_negative_lost"
   ],
   "note": "Binary round trip for non-negative values; negative values come back as their absolute value (C04_negative_lost)."
  },
  {
   "property": "C05",
   "status": "proved",
   "theorems": [
    "MscPoc.C05_decode_no_membership",
    "MscPoc.C05_sign_attack",
    "MscPoc.C05_sign_attack_decrypts",
    "MscPoc.C05_negative_scale"
   ],
   "note": "The missing membership check is stated as what the code does; the sign attack leaves the verdict unchanged. C05_negative_scale: big.Int.Exp of a negative number with a negative exponent takes the inverse of the absolute value and restores the sign."
  },
  {
   "property": "C06",
   "status": "proved",
   "theorems": [
    "MscPoc.C06_json_roundtrip",
    "MscPoc.C06_binary_roundtrip",
    "MscPoc.C06_injective"
   ],
   "note": "Points are affine pairs with (0,0) for infinity as in circl; curve equation and byte layout of circl are modelled, curve arithmetic is not needed."
  },
  {
   "property": "C07",
   "status": "proved",
   "theorems": [
    "MscPoc.C07_panics_iff",
    "MscPoc.C07_sound",
    "MscPoc.C07_accepts_iff",
    "MscPoc.C07_sign_ignored",
    "MscPoc.C07_extra_byte",
    "MscPoc.C07_y_overwrites_x"
   ],
   "note": "Exact panic, accept and reject conditions of the shared UnmarshalJSON body; includes the sign, extra byte and overwriting-y behaviours."
  },
  {
   "property": "C08",
   "status": "proved",
   "theorems": [
    "MscPoc.C08_binary_iff",
    "MscPoc.C08_binary_short",
    "MscPoc.C08_infinity",
    "MscPoc.C08_json_ignored",
    "MscPoc.C08_mapToGroup"
   ],
   "note": "Binary transport survives iff x fills 32 bytes; JSON decoding ignores its input."
  },
  {
   "property": "C09",
   "status": "proved",
   "theorems": [
    "MscPoc.C09_marshal",
    "MscPoc.C09_collide",
    "MscPoc.C09_unmarshal_never"
   ],
   "note": "MarshalJSON of a 32-byte encoding panics or returns (0,0); UnmarshalJSON never succeeds."
  },
  {
   "property": "C10",
   "status": "proved",
   "theorems": [
    "MscPoc.C10_decompose",
    "MscPoc.C10_decompose_exact",
    "MscPoc.C10_digits_unique"
   ],
   "note": "For all integers and bases >= 2."
  },
  {
   "property": "C11",
   "status": "proved",
   "theorems": [
    "MscPoc.C11_computeAR"
   ],
   "note": "Both outcomes characterised for every input vector."
  },
  {
   "property": "C12",
   "status": "proved",
   "theorems": [
    "MscPoc.C12_vector_binary",
    "MscPoc.C12_vector_unary",
    "MscPoc.C12_vectorECAdd",
    "MscPoc.C12_inner_products",
    "MscPoc.C12_powerOf",
    "MscPoc.C12_vectorExp"
   ],
   "note": "Componentwise specifications of every vector helper, with error/panic behaviour on length mismatch."
  },
  {
   "property": "C13",
   "status": "proved",
   "theorems": [
    "MscPoc.C13_isPowerOfTwo"
   ],
   "note": "Exact set of accepted int64 values; the most negative value is accepted contrary to the documentation."
  },
  {
   "property": "C14",
   "status": "proved",
   "theorems": [
    "MscPoc.C14_setup",
    "MscPoc.C14_error_unreachable",
    "MscPoc.C14_intMin_panics"
   ],
   "note": "For groups whose MapToGroup returns; the value -2^63 is treated separately (panic where NaN converts to the most negative int64)."
  },
  {
   "property": "C15",
   "status": "proved",
   "theorems": [
    "MscPoc.C15_seeds_distinct",
    "MscPoc.C15_generators"
   ],
   "note": "Distinctness of all seeds; generator i comes from seed i; re-derivation gives the same generators."
  },
  {
   "property": "C16",
   "status": "proved",
   "theorems": [
    "MscPoc.C16_ipp_complete",
    "MscPoc.C16_ipp_wrong_product_rejected"
   ],
   "note": "Any lawful group; wrong inner products rejected for prime order and non-degenerate challenge."
  },
  {
   "property": "C17",
   "status": "proved",
   "theorems": [
    "MscPoc.C17_ipp_closed_form"
   ],
   "note": "Closed-form check for every proof with k rounds and invertible challenges."
  },
  {
   "property": "C18",
   "status": "proved",
   "theorems": [
    "MscPoc.C18_bp_complete",
    "MscPoc.C18_bp_prover_total"
   ],
   "note": "Completeness plus totality of the prover up to non-invertible challenges."
  },
  {
   "property": "C19",
   "status": "proved",
   "theorems": [
    "MscPoc.C19_bp_out_of_range",
    "MscPoc.C19_bp_out_of_range_prime"
   ],
   "note": "Exact acceptance condition for every integer secret."
  },
  {
   "property": "C20",
   "status": "proved",
   "theorems": [
    "MscPoc.C20_bp_verify_equations"
   ],
   "note": "Verify equals equations (65), (67) and the inner-product verdict."
  },
  {
   "property": "C21",
   "status": "proved",
   "theorems": [
    "MscPoc.C21_shift",
    "MscPoc.C21_any_value"
   ],
   "note": "Expected binding to the committed value is refuted: shift invariance of the verdict."
  },
  {
   "property": "C22",
   "status": "proved",
   "theorems": [
    "MscPoc.C22_challenges_equal"
   ],
   "note": "The two challenges are the same number for all inputs."
  },
  {
   "property": "C23",
   "status": "proved",
   "theorems": [
    "MscPoc.C23_forgery",
    "MscPoc.C23_forgery_exists"
   ],
   "note": "Forgery for every value from y = z."
  },
  {
   "property": "C24",
   "status": "proved",
   "theorems": [
    "MscPoc.C24_checks",
    "MscPoc.C24_in_range",
    "MscPoc.C24_panics"
   ],
   "note": "Conditions (65), (67), (68) on every MultiProve output, each as an equation; in-range secrets: accepted iff one fixed relation between the generators holds; panics when m does not divide N. Concrete honest runs rejected and (for specially chosen generators) accepted. In a cyclic group 'independent generators' is a computational notion, so the claim is stated as the exact relation."
  },
  {
   "property": "C25",
   "status": "proved",
   "theorems": [
    "MscPoc.C25_homomorphic",
    "MscPoc.C25_hiding",
    "MscPoc.C25_binding"
   ],
   "note": "Homomorphic, perfectly hiding, binding up to a discrete-log relation."
  },
  {
   "property": "C26",
   "status": "proved",
   "theorems": [
    "MscPoc.C26_ipp_verify_total_iff",
    "MscPoc.C26_ipp_rounds"
   ],
   "note": "Exact set of proofs that the verifier processes without crashing."
  },
  {
   "property": "C27",
   "status": "proved",
   "theorems": [
    "MscPoc.C27_setup_iff",
    "MscPoc.C27_setup_fields"
   ],
   "note": "All byte/uint16 inputs; success iff the bound, with the resulting fields."
  },
  {
   "property": "C28",
   "status": "proved",
   "theorems": [
    "MscPoc.C28_challenge"
   ],
   "note": "Any hash with 32-byte output; panics iff Bc/8 > 32."
  },
  {
   "property": "C29",
   "status": "proved",
   "theorems": [
    "MscPoc.C29_sigma_complete",
    "MscPoc.C29_setup_complete",
    "MscPoc.C29_bound_needed"
   ],
   "note": "Any lawful groups whose orders exceed the masked response; the bound is shown necessary."
  },
  {
   "property": "C30",
   "status": "proved",
   "theorems": [
    "MscPoc.C30_first_in_range",
    "MscPoc.C30_released_in_range"
   ],
   "note": "The first attempt in range is released; released z always lies in the interval."
  },
  {
   "property": "C31",
   "status": "proved",
   "theorems": [
    "MscPoc.C31_unique_mask",
    "MscPoc.C31_accepted_masks",
    "MscPoc.C31_bound_needed",
    "MscPoc.C31_setup_bound"
   ],
   "note": "Exactly one mask per released z; acceptance probability statement as a counting identity."
  },
  {
   "property": "C32",
   "status": "proved",
   "theorems": [
    "MscPoc.C32_verify_spec"
   ],
   "note": "Verdict equals the range check, the challenge recomputation and the four equations."
  },
  {
   "property": "C33",
   "status": "proved",
   "theorems": [
    "MscPoc.C33_special_soundness"
   ],
   "note": "Extraction from two transcripts with the same first move; prime orders."
  },
  {
   "property": "C34",
   "status": "proved",
   "theorems": [
    "MscPoc.C34_cross_group"
   ],
   "note": "Equal integer opening in both groups under the stated size bound."
  },
  {
   "property": "C35",
   "status": "proved",
   "theorems": [
    "MscPoc.C35_simulator",
    "MscPoc.C35_hvzk"
   ],
   "note": "Simulator for every challenge and exact bijection of released transcripts."
  },
  {
   "property": "C36",
   "status": "proved",
   "theorems": [
    "MscPoc.C36_malleable"
   ],
   "note": "Any lawful groups; expected non-malleability refuted by an explicit public transformation."
  },
  {
   "property": "C37",
   "status": "proved",
   "theorems": [
    "MscPoc.C37_any_ciphertext",
    "MscPoc.C37_election_lengths_ignored"
   ],
   "note": "Expected binding to the election's sigma parameters refuted."
  },
  {
   "property": "C38",
   "status": "proved",
   "theorems": [
    "MscPoc.C38_ambiguous",
    "MscPoc.C38_only_ambiguity",
    "MscPoc.C38_statement_after_challenge"
   ],
   "note": "Exact collision condition of the hashed string, and a statement chosen after the challenge."
  },
  {
   "property": "C39",
   "status": "proved",
   "theorems": [
    "MscPoc.C39_decrypt",
    "MscPoc.C39_determines",
    "MscPoc.C39_U_not_identity"
   ],
   "note": "Any lawful group; injectivity needs a generator of full order > 65535."
  },
  {
   "property": "C40",
   "status": "proved",
   "theorems": [
    "MscPoc.C40_choice_range",
    "MscPoc.C40_choice_reachable",
    "MscPoc.C40_single_candidate",
    "MscPoc.C40_last_never_cast"
   ],
   "note": "All uint16 bounds."
  },
  {
   "property": "C41",
   "status": "proved",
   "theorems": [
    "MscPoc.C41_honest_accepted"
   ],
   "note": "For every election record satisfying OK (lawful groups, legal generators, mask bound below the ElGamal order)."
  },
  {
   "property": "C42",
   "status": "proved",
   "theorems": [
    "MscPoc.C42_any_choice",
    "MscPoc.C42_rejected"
   ],
   "note": "Exact verdict for every uint16 choice; rejection for prime curve order unless the challenge is 0 modulo it."
  },
  {
   "property": "C43",
   "status": "proved",
   "theorems": [
    "MscPoc.C43_any_plaintext"
   ],
   "note": "Expected ballot soundness refuted for every v allowed by the release interval, given that the library prover returns range proofs of 0."
  },
  {
   "property": "C44",
   "status": "proved",
   "theorems": [
    "MscPoc.C44_transport",
    "MscPoc.C44_identical",
    "MscPoc.C44_end_to_end",
    "MscPoc.C44_codecs",
    "MscPoc.C44_secp256k1_loses",
    "MscPoc.C44_ristretto_loses",
    "MscPoc.C44_ristretto_panics"
   ],
   "note": "End-to-end theorem is stated for any lawful groups and codecs that transport legal elements; C44_codecs shows the program's P-256, P-384 and ModP codecs do. JSON text scanning is trusted (documents are syntax trees)."
  },
  {
   "property": "C45",
   "status": "proved",
   "theorems": [
    "MscPoc.C45_parts",
    "MscPoc.C45_not_object",
    "MscPoc.C45_last_wins",
    "MscPoc.C45_unknown_ignored",
    "MscPoc.C45_points_on_curve",
    "MscPoc.C45_bad_point_replaced",
    "MscPoc.C45_null_point",
    "MscPoc.C45_missing_scalar",
    "MscPoc.C45_null_parts"
   ],
   "note": "Statement sharpened to what the code does: null parts are accepted by the decoder."
  },
  {
   "property": "C46",
   "status": "proved",
   "theorems": [
    "MscPoc.C46_times",
    "MscPoc.C46_main_loop",
    "MscPoc.C46_crash"
   ],
   "note": "Exact description of the driver's loop over all vote lists."
  },
  {
   "property": "C47",
   "status": "proved",
   "theorems": [
    "MscPoc.C47_setup",
    "MscPoc.C47_curves",
    "MscPoc.C47_legal",
    "MscPoc.C47_deployment_accepts"
   ],
   "note": "setup succeeds exactly for curve orders of at least 242 bits (and a total hash-to-group); table for the four curves; for a lawful curve library the returned parameters satisfy the hypotheses of the ballot theorems, and every completed castVote ballot is accepted."
  },
  {
   "property": "C48",
   "status": "proved",
   "theorems": [
    "MscPoc.C48_orders",
    "MscPoc.C48_fields",
    "MscPoc.C48_modp"
   ],
   "note": "Curve constants by Pocklington certificates, the 3072-bit q by a chain of 66 elliptic-curve certificates, all checked by kernel arithmetic (Lemmas/ECPP.lean, RfcCert1-6.lean). 2^q = 1 mod p is computed."
  },
  {
   "property": "C49",
   "status": "proved",
   "theorems": [
    "MscPoc.C49_no_mutation",
    "MscPoc.C49_ip_no_mutation",
    "MscPoc.C49_order_independent",
    "MscPoc.C49_same_challenges",
    "MscPoc.C49_V_not_hashed"
   ],
   "note": "Heap model with in-place accumulators (Model/HeapBp.lean) proved to refine the pure verifier for every heap and every aliasing of the proof's pointers; no pre-existing cell changes, so verdicts do not depend on the order of verifications. Prover's responses use the challenges recomputed from the returned proof; V enters no challenge: exact condition for replacing V in an accepted proof."
  },
  {
   "property": "C50",
   "status": "proved",
   "theorems": [
    "MscPoc.C50_round",
    "MscPoc.C50_extract"
   ],
   "note": "Extractor is a Lean definition on scalars only (Spec/Extract.lean), so the relation disjunct is an explicit tuple, not mere existence. Transcripts with other challenges are modelled as accepted under another digest function. Probability/rewinding is not modelled."
  },
  {
   "property": "C51",
   "status": "proved",
   "theorems": [
    "MscPoc.C51_group_laws",
    "MscPoc.C51_order",
    "MscPoc.C51_k1_order"
   ],
   "note": "circl's arithmetic is modelled as textbook affine chord-and-tangent arithmetic on coordinates; laws transferred from Mathlib's Weierstrass group law. The number of points is proved, not assumed: the cubic has no root (no 2-torsion) and N*G=0 with N prime and 2p+1<3N, all checked by kernel arithmetic."
  },
  {
   "property": "C52",
   "status": "proved",
   "theorems": [
    "MscPoc.C52_honest",
    "MscPoc.C52_any_choice",
    "MscPoc.C52_hiding",
    "MscPoc.C52_binding"
   ],
   "note": "Remaining hypothesis: hash-to-curve returns curve points (discharged in C60)."
  },
  {
   "property": "C53",
   "status": "proved",
   "theorems": [
    "MscPoc.C53_test",
    "MscPoc.C53_hiding",
    "MscPoc.C53_indistinguishable",
    "MscPoc.C53_curves"
   ],
   "note": "Perfect witness indistinguishability, by an explicit bijection between the random draws for v and for v'. Draws are gamma, alpha, sL, sR, rho, tau1, tau2 uniform below N; the inner-product argument is deterministic given the rest, so it leaks nothing further."
  },
  {
   "property": "C54",
   "status": "proved",
   "theorems": [
    "MscPoc.C54_cast_completes",
    "MscPoc.C54_unsafe_masks",
    "MscPoc.C54_driver",
    "MscPoc.C54_runs",
    "MscPoc.C54_report",
    "MscPoc.C54_crash",
    "MscPoc.C54_skipped",
    "MscPoc.C54_curves"
   ],
   "note": "The exception is stated per run: CastRunOK says that the challenges of the two range proofs of this vote (computed with bad digests replaced by 1) are coprime to the order; C54_runs derives it from a condition on the digest function alone. Hypotheses otherwise: the curve group is lawful (proved for P-256, P-384, secp256k1, Ristretto255), hash-to-curve returns points."
  },
  {
   "property": "C55",
   "status": "proved",
   "theorems": [
    "MscPoc.C55_hiding",
    "MscPoc.C55_binding",
    "MscPoc.C55_group_laws",
    "MscPoc.C55_order",
    "MscPoc.C55_honest",
    "MscPoc.C55_any_choice",
    "MscPoc.C55_driver",
    "MscPoc.C55_short_seed"
   ],
   "note": "Proved on the modelled ing-bank/go-ethereum arithmetic (textbook affine, trusted). Acceptance and the driver assume that the setup seeds hash to points with a full 32-byte x, because MapToGroup re-parses trimmed bytes (C08). C66 proves this of SHA-256 and ing-bank's search."
  },
  {
   "property": "C56",
   "status": "proved",
   "theorems": [
    "MscPoc.C56_equations",
    "MscPoc.C56_panics",
    "MscPoc.C56_shift",
    "MscPoc.C56_any_values"
   ],
   "note": "Exact acceptance for m >= 1 commitments with m not necessarily dividing N; accepted proofs are built for any list of integers. The forged proofs carry their own embedded inner-product parameters (the verifier reads them from the proof, C26)."
  },
  {
   "property": "C57",
   "status": "proved",
   "theorems": [
    "MscPoc.C57_int_blocks",
    "MscPoc.C57_int_range",
    "MscPoc.C57_int_uniform",
    "MscPoc.C57_int_block_count",
    "MscPoc.C57_cast_refines",
    "MscPoc.C57_cast_reached",
    "MscPoc.C57_deployed",
    "MscPoc.C57_random_modp",
    "MscPoc.C57_random_k1",
    "MscPoc.C57_curves",
    "MscPoc.C57_secp256k1"
   ],
   "note": "Byte streams are finite prefixes of arbitrary streams; a failing reader is not modelled."
  },
  {
   "property": "C58",
   "status": "proved",
   "theorems": [
    "MscPoc.C58_prove",
    "MscPoc.C58_cast",
    "MscPoc.C58_verify_vote",
    "MscPoc.C58_driver",
    "MscPoc.C58_history",
    "MscPoc.C58_deployed_history"
   ],
   "note": "Refinement of a two-heap model (one heap per group, pointers for elements) by the pure model; sharing within one heap is arbitrary. The parameters are any laid out in allocated cells; C82 shows that setup leaves them so."
  },
  {
   "property": "C59",
   "status": "proved",
   "theorems": [
    "MscPoc.C59_hiding",
    "MscPoc.C59_binding",
    "MscPoc.C59_complete",
    "MscPoc.C59_group_laws",
    "MscPoc.C59_representatives",
    "MscPoc.C59_order",
    "MscPoc.C59_even",
    "MscPoc.C59_honest",
    "MscPoc.C59_any_choice",
    "MscPoc.C59_driver"
   ],
   "note": "Proved on affine arithmetic of the Edwards curve (circl/go-ristretto documented behaviour, trusted; it uses extended coordinates). Hash-to-group and the 32-byte encoding are arbitrary; the hash must return doubles of curve points on the seeds used. The driver assumes no challenge divisible by N."
  },
  {
   "property": "C60",
   "status": "proved",
   "theorems": [
    "MscPoc.C60_digest_lengths",
    "MscPoc.C60_sswu",
    "MscPoc.C60_sswu_unique",
    "MscPoc.C60_on_curve",
    "MscPoc.C60_generators",
    "MscPoc.C60_distinct",
    "MscPoc.C60_honest",
    "MscPoc.C60_any_choice",
    "MscPoc.C60_hiding"
   ],
   "note": "circl's constant-time evaluation of the map is read as RFC 9380 with an empty domain separation tag; the generators it yields are those of the recorded runs, for both curves."
  },
  {
   "property": "C61",
   "status": "proved",
   "theorems": [
    "MscPoc.C61_scanner",
    "MscPoc.C61_unambiguous",
    "MscPoc.C61_depth",
    "MscPoc.C61_print",
    "MscPoc.C61_same_document",
    "MscPoc.C61_not_json",
    "MscPoc.C61_decoded",
    "MscPoc.C61_cut",
    "MscPoc.C61_trailing",
    "MscPoc.C61_marshalled",
    "MscPoc.C61_codecs",
    "MscPoc.C61_transport",
    "MscPoc.C61_end_to_end",
    "MscPoc.C61_deployed"
   ],
   "note": "Scanner and printer of encoding/json are modelled on characters (valid UTF-8 texts) and compared with an independent grammar; numbers with fraction or exponent are kept only as their integer part, which no decoder of the repository accepts."
  },
  {
   "property": "C62",
   "status": "proved",
   "theorems": [
    "MscPoc.C62_extract",
    "MscPoc.C62_one_bit",
    "MscPoc.C62_any_value",
    "MscPoc.C62_bits",
    "MscPoc.C62_tight",
    "MscPoc.C62_only"
   ],
   "note": "Extractor is a Lean definition on scalars (Spec/BpExtract.lean). The hypothesis that the embedded inner-product parameters are the honest ones is needed because Verify does not check them (C23, C50). Rewinding is not modelled: transcripts with other challenges are accepted under other digest functions. Non-vacuity: a tree of 96 transcripts for the value 50 with N = 2, checked by the kernel."
  },
  {
   "property": "C63",
   "status": "proved",
   "theorems": [
    "MscPoc.C63_decode",
    "MscPoc.C63_reject",
    "MscPoc.C63_unique",
    "MscPoc.C63_encode",
    "MscPoc.C63_two_encodings",
    "MscPoc.C63_setBytes"
   ],
   "note": "circl's decoding of compressed points is read as SEC 1 2.3.4 (crypto/elliptic UnmarshalCompressed), with the square root by exponentiation; correctness of the root rests on the primality of the two moduli and the absence of points of order two, both proved. Elsewhere in the model the decoding of compressed points stays arbitrary, so those theorems hold for this one too."
  },
  {
   "property": "C64",
   "status": "proved",
   "theorems": [
    "MscPoc.C64_values",
    "MscPoc.C64_programs",
    "MscPoc.C64_frame",
    "MscPoc.C64_result",
    "MscPoc.C64_mixed",
    "MscPoc.C64_mapToGroup"
   ],
   "note": "Two levels of pointers are modelled: the element structure and its val. That circl elements own their coordinates, and that ing-bank points never write through shared coordinate pointers, is trusted. Random and the text output methods are not among the calls. The proof is a simulation call by call with the invariant that no two elements share a val."
  },
  {
   "property": "C65",
   "status": "proved",
   "theorems": [
    "MscPoc.C65_encode",
    "MscPoc.C65_canonical",
    "MscPoc.C65_decode",
    "MscPoc.C65_roundtrip",
    "MscPoc.C65_count",
    "MscPoc.C65_hash",
    "MscPoc.C65_pieces",
    "MscPoc.C65_top_bit",
    "MscPoc.C65_json",
    "MscPoc.C65_honest",
    "MscPoc.C65_any_choice",
    "MscPoc.C65_driver"
   ],
   "note": "circl and go-ristretto are third-party: encoding, decoding and map are modelled after RFC 9496 on affine coordinates, and checked on vectors of its appendix. Which strings are derived from the hashed one (expand_message_xmd and SHA-512) and how many of them are mapped is arbitrary. The driver assumes no challenge divisible by N."
  },
  {
   "property": "C66",
   "status": "proved",
   "theorems": [
    "MscPoc.C66_first",
    "MscPoc.C66_none",
    "MscPoc.C66_wrapper",
    "MscPoc.C66_seeds",
    "MscPoc.C66_distinct",
    "MscPoc.C66_honest",
    "MscPoc.C66_any_choice",
    "MscPoc.C66_driver"
   ],
   "note": "ing-bank's p256.MapToGroup is third-party and modelled from its source as known: decimal counter before the message, SHA-256, signed big-endian number, ModSqrt, 256 tries. The 34 points are computed by the kernel from the model of SHA-256 (C60)."
  },
  {
   "property": "C67",
   "status": "proved",
   "theorems": [
    "MscPoc.C67_aborted",
    "MscPoc.C67_main",
    "MscPoc.C67_skipped",
    "MscPoc.C67_panic"
   ],
   "note": "The prover's line \"Aborted\" is counted, with bounds from the masks (C67_aborted). The clock is not modelled: durations are arbitrary strings. Digest and hash functions are the real ones, except for the strings derived in Ristretto's HashToElement. The joint example uses a constant digest, since a run with SHA-256 is too long for the kernel."
  },
  {
   "property": "C68",
   "status": "proved",
   "theorems": [
    "MscPoc.C68_ristretto_json",
    "MscPoc.C68_group_modp",
    "MscPoc.C68_group_curves",
    "MscPoc.C68_group_ristretto",
    "MscPoc.C68_testGroup",
    "MscPoc.C68_math",
    "MscPoc.C68_range",
    "MscPoc.C68_json",
    "MscPoc.C68_inner_product",
    "MscPoc.C68_multi",
    "MscPoc.C68_vectors",
    "MscPoc.C68_inner_product_run",
    "MscPoc.C68_multi_run"
   ],
   "note": "The tests are modelled as functions of what they draw. t.Error continues as in Go, a panic ends the run. TestNewElements only compares with nil and TestHashBP is commented out in the repository; main_test.go does not compile and is not part of this."
  },
  {
   "property": "C69",
   "status": "proved",
   "theorems": [
    "MscPoc.C69_decode",
    "MscPoc.C69_range_proofs",
    "MscPoc.C69_verdict",
    "MscPoc.C69_test"
   ],
   "note": "The documents are written out in Spec/RecordedBallot.lean in the order of the files; the texts quantified over include the files' own layout. SHA-256 digests, the curve equations and the powers modulo the 3072-bit prime are evaluated by the kernel. main_test.go does not compile, so C69_test is about its function unmarshalAndVerify as a sequence of calls."
  },
  {
   "property": "C70",
   "status": "proved",
   "theorems": [
    "MscPoc.C70_decode",
    "MscPoc.C70_server",
    "MscPoc.C70_no_new_verdicts",
    "MscPoc.C70_one_entry",
    "MscPoc.C70_equal_lengths",
    "MscPoc.C70_deployed"
   ],
   "note": "The other properties speak about the decoder without the surplus entries; C70_decode and C70_server relate the two models on every document, and C70_equal_lengths makes them agree on every ballot with arrays of equal length. A nil interface panics in String and in Scale, which are the only calls made on these entries."
  },
  {
   "property": "C71",
   "status": "proved",
   "theorems": [
    "MscPoc.C71_merge_proof",
    "MscPoc.C71_merge_params",
    "MscPoc.C71_merge_vote",
    "MscPoc.C71_null_object",
    "MscPoc.C71_bad_occurrence",
    "MscPoc.C71_bad_unsigned",
    "MscPoc.C71_last_scalar",
    "MscPoc.C71_key",
    "MscPoc.C71_last_Bb"
   ],
   "note": "Objects under raw-message keys (the four parts of a ballot, group elements) are replaced as a whole; that is C45_last_wins and the codec properties. C71_key says which keys name a field, for every list of fields the decoders use. C71_bad_unsigned: the literal -0 is zero for signed fields and refused for unsigned ones."
  },
  {
   "property": "C72",
   "status": "proved",
   "theorems": [
    "MscPoc.C72_openings",
    "MscPoc.C72_in_range",
    "MscPoc.C72_extract",
    "MscPoc.C72_deployed"
   ],
   "note": "Built from C33/C34 and C62. The extractor (Spec/BallotExtract.lean) uses scalars only, so a relation it returns is one a prover could compute. The concrete fork with two trees of 96 transcripts each is in Props/BallotSoundEx.lean."
  },
  {
   "property": "C73",
   "status": "proved",
   "theorems": [
    "MscPoc.C73_accepted",
    "MscPoc.C73_no_candidate",
    "MscPoc.C73_deployed"
   ],
   "note": "The attack ballot is an explicit function (splitBallot). C73_deployed instantiates setup's parameters; the only condition on the hash is that the challenge is not 0. Together with C72 (two accepted transcripts for one statement) this shows what the missing statement in the hash costs."
  },
  {
   "property": "C74",
   "status": "proved",
   "theorems": [
    "MscPoc.C74_simulated",
    "MscPoc.C74_same_ballots",
    "MscPoc.C74_deployed"
   ],
   "note": "The simulator (simBallot) is an explicit function without the vote as an argument. The count is over the draws of the two range proofs and of the released attempt; aborted attempts are discarded by the code (C30). As usual for a simulator of a non-interactive proof, the challenge is given to it; the statement concerns ballots whose first move hashes to it."
  },
  {
   "property": "C75",
   "status": "proved",
   "theorems": [
    "MscPoc.C75_decode",
    "MscPoc.C75_roundtrip",
    "MscPoc.C75_split",
    "MscPoc.C75_ascii",
    "MscPoc.C75_document",
    "MscPoc.C75_ballot",
    "MscPoc.C75_same_text",
    "MscPoc.C75_marshalled",
    "MscPoc.C75_deployed"
   ],
   "note": "The specification (Spec/Utf8.lean) uses the Lean library's UTF-8 form of a character; the decoder is modelled after unicode/utf8 with its table of first bytes. C75_split justifies decoding before scanning. C75_deployed instantiates setup's parameters on P-256 and P-384."
  },
  {
   "property": "C76",
   "status": "proved",
   "theorems": [
    "MscPoc.C76_documents",
    "MscPoc.C76_files"
   ],
   "note": "The lines of both files stand in Spec/RecordedText.lean; they are proved to be the layout (two spaces per level) of the documents of C69, and every such layout is proved to be a JSON text of its document. main_test.go does not compile at this commit (verifyVote returns two values); with the second value dropped unmarshalAndVerify reports a failed verification for both files."
  },
  {
   "property": "C77",
   "status": "proved",
   "theorems": [
    "MscPoc.C77_open",
    "MscPoc.C77_cast",
    "MscPoc.C77_recorded",
    "MscPoc.C77_unique",
    "MscPoc.C77_recorded_only"
   ],
   "note": "Spec/Opening.lean states the opening as one congruence with the numbers 2 and 13. C77_open and C77_cast cover every cast ballot on every curve of the program, C77_unique every pair of numbers, C77_recorded and C77_recorded_only the two files. The comment above the constant says that the secret is not known to any one party."
  },
  {
   "property": "C78",
   "status": "proved",
   "theorems": [
    "MscPoc.C78_same",
    "MscPoc.C78_same_prover",
    "MscPoc.C78_exact",
    "MscPoc.C78_honest",
    "MscPoc.C78_out_of_range",
    "MscPoc.C78_forge",
    "MscPoc.C78_value",
    "MscPoc.C78_unopened",
    "MscPoc.C78_forge_exists",
    "MscPoc.C78_deployed"
   ],
   "note": "The natural claim (a range proof with two independent challenges and consistency checks is sound as hashed here) is refuted by explicit forgeries. The repaired verifier is in Spec/BpRepaired.lean; C78_same shows that it is Verify for the program's challenges. C78_forge_exists: the forger returns unless a challenge is not invertible."
  },
  {
   "property": "C79",
   "status": "proved",
   "theorems": [
    "MscPoc.C79_round",
    "MscPoc.C79_ipp",
    "MscPoc.C79_round_r255",
    "MscPoc.C79_ipp_r255",
    "MscPoc.C79_sizes_r255",
    "MscPoc.C79_ambiguous_modp"
   ],
   "note": "'the same under every hash function' says that the hashed strings are equal; C79_sizes_r255 and C79_ambiguous_modp are the exceptions. Nothing is claimed for secp256k1, whose String() is left to the library."
  },
  {
   "property": "C80",
   "status": "proved",
   "theorems": [
    "MscPoc.C80_extract",
    "MscPoc.C80_range",
    "MscPoc.C80_not_program",
    "MscPoc.C80_deployed"
   ],
   "note": "The counterpart of C62: C62 is what an accepted proof of the program says, C80 what it would say after the repairs. The tree is one for the interactive protocol; C78 shows that hashing only A and S is not enough."
  },
  {
   "property": "C81",
   "status": "proved",
   "theorems": [
    "MscPoc.C81_extract",
    "MscPoc.C81_deployed"
   ],
   "note": "C72 with the gap closed by C80: the openings are in range because the range proofs say so. The concrete fork with two trees of 144 transcripts each is in Props/BallotSoundCEx.lean."
  },
  {
   "property": "C82",
   "status": "proved",
   "theorems": [
    "MscPoc.C82_setup",
    "MscPoc.C82_main",
    "MscPoc.C82_process"
   ],
   "note": "Closes C58: setup and main are replayed on the heap (Model/HeapSetup.lean), so the assumption that the parameters lie in allocated cells is discharged. The ElGamal elements of all groups share one heap; each curve has its own, since the Go types differ."
  },
  {
   "property": "C83",
   "status": "proved",
   "theorems": [
    "MscPoc.C83_range",
    "MscPoc.C83_vote",
    "MscPoc.C83_server",
    "MscPoc.C83_decoded",
    "MscPoc.C83_null",
    "MscPoc.C83_power",
    "MscPoc.C83_deployed"
   ],
   "note": "Exact crash conditions of the range-proof verifier, the vote-proof verifier and the server (with and without nil entries, C70), their form for decoded ballots, and the two attacks on documents of accepted ballots, also for the ballots castVote returns on P-256 and P-384. Running out of memory is not part of the model: C83_power states the size of the number computed."
  },
  {
   "property": "C84",
   "status": "proved",
   "theorems": [
    "MscPoc.C84_points",
    "MscPoc.C84_ballot",
    "MscPoc.C84_no_object",
    "MscPoc.C84_null",
    "MscPoc.C84_missing",
    "MscPoc.C84_deployed"
   ],
   "note": "Exact panic condition of the ballot decoder for arbitrary element decoders, of the five element decoders, and both together for the deployed curves; the edits of documents are stated for every ballot that decodes and for the ballots castVote returns on P-256 and P-384. Stated for the decoder that keeps nil entries (C70). Syntactically invalid JSON is not a document here (C71 covers the text level)."
  },
  {
   "property": "C85",
   "status": "proved",
   "theorems": [
    "MscPoc.C85_attempt",
    "MscPoc.C85_attempts",
    "MscPoc.C85_restarts",
    "MscPoc.C85_chance",
    "MscPoc.C85_main"
   ],
   "note": "Counted over sequences of masks, everything else fixed; C57 shows that the masks rand.Int returns are equally likely. C31 is the exact count when the challenge does not depend on the mask. Lower bound under CastRunOK (no challenge of the range proofs a zero divisor), as in C54."
  },
  {
   "property": "C86",
   "status": "proved",
   "theorems": [
    "MscPoc.C86_setup",
    "MscPoc.C86_cast",
    "MscPoc.C86_verify",
    "MscPoc.C86_any",
    "MscPoc.C86_main"
   ],
   "note": "Counts the allocations of the pointer model (C58, C82), in which every Element(), Identity() and Generator() of the code outside package group is one cell; elements made inside the implementations of the groups are not counted. Decoding is not counted either. The bound for arbitrary ballots is for the model in which N and the arrays are what the decoder produced."
  },
  {
   "property": "C87",
   "status": "proved",
   "theorems": [
    "MscPoc.C87_panics",
    "MscPoc.C87_checked",
    "MscPoc.C87_deployed"
   ],
   "note": "Exact characterisation for all byte strings; zero challenges of range proofs are the one cause a check of the document cannot see."
  },
  {
   "property": "C88",
   "status": "proved",
   "theorems": [
    "MscPoc.C88_generator",
    "MscPoc.C88_challenge",
    "MscPoc.C88_two_servers",
    "MscPoc.C88_deployed"
   ],
   "note": "Refusal by the other server is stated up to an explicit collision of the truncated digest, and up to Kq1 = Kq2 = identity, as no proof can exclude these."
  },
  {
   "property": "C89",
   "status": "proved",
   "theorems": [
    "MscPoc.C89_reduced",
    "MscPoc.C89_unique",
    "MscPoc.C89_variants",
    "MscPoc.C89_deployed"
   ],
   "note": "The sizes are upper bounds (every number as long as it can get), not the exact maximum. Cc, Z and Sp are excluded from the rewriting: Cc is hashed as written, Z is compared with its bounds, and Sp acts on an element of the ballot that need not have the group order."
  },
  {
   "property": "C90",
   "status": "proved",
   "theorems": [
    "MscPoc.C90_forget",
    "MscPoc.C90_accepted",
    "MscPoc.C90_secp256k1",
    "MscPoc.C90_ristretto"
   ],
   "note": "What ing-bank's String() returns for a fresh element is left open, so whether the secp256k1 server panics or rejects is stated as a case distinction on one fixed digest; in both cases the ballot is not accepted."
  },
  {
   "property": "C91",
   "status": "proved",
   "theorems": [
    "MscPoc.C91_bytes",
    "MscPoc.C91_deployed"
   ],
   "note": "Byte-level end-to-end form of C36 and C77. rewriteBallot has no secret among its arguments. The release interval is the only obstacle; the condition on Z is stated exactly, with a sufficient condition that covers all but a 2^-13 part of the interval."
  },
  {
   "property": "C92",
   "status": "proved",
   "theorems": [
    "MscPoc.C92_output",
    "MscPoc.C92_crash",
    "MscPoc.C92_prove",
    "MscPoc.C92_honest",
    "MscPoc.C92_total"
   ],
   "note": "C92_output ties the printing model to the model of C24/C39 (same result, same checks). The crash conditions are C83-style exact statements for the aggregated verifier. C92_honest takes the inverse of the challenge as in C24_checks."
  },
  {
   "property": "C93",
   "status": "proved",
   "theorems": [
    "MscPoc.C93_cast",
    "MscPoc.C93_deployed",
    "MscPoc.C93_main"
   ],
   "note": "C93_cast is general in the parameters; C93_deployed has the exact minimum under DigestsOK; C93_main instantiates the four groups without assumptions. crypto/rand.Int is modelled in Model/Rand.lean; failures of the operating system's generator are not modelled."
  },
  {
   "property": "C94",
   "status": "proved",
   "theorems": [
    "MscPoc.C94_prove",
    "MscPoc.C94_verify",
    "MscPoc.C94_history"
   ],
   "note": "Continues C49/C58 for multibp.go. The pointer model (Model/HeapMulti.lean) writes every in-place accumulation of the code as such; C94_history is over the request language of Spec/BpHistory.lean."
  },
  {
   "property": "C95",
   "status": "proved",
   "theorems": [
    "MscPoc.C95_same",
    "MscPoc.C95_checks",
    "MscPoc.C95_both",
    "MscPoc.C95_one",
    "MscPoc.C95_complete",
    "MscPoc.C95_test",
    "MscPoc.C95_shift",
    "MscPoc.C95_total",
    "MscPoc.C95_proves",
    "MscPoc.C95_main"
   ],
   "note": "The edited functions are in Spec/MultiRepair.lean with one switch per line; C95_same ties them to the program's model. C95_test assumes, as C68 does, that the library hash returns group elements; DigestsOK is needed only for the prover to return."
  },
  {
   "property": "C96",
   "status": "proved",
   "theorems": [
    "MscPoc.C96_test",
    "MscPoc.C96_hiding",
    "MscPoc.C96_indistinguishable",
    "MscPoc.C96_curves"
   ],
   "note": "Analogue of C53 for multibp.go. The exchange of randomness works in spite of line 86 because aR = aL - 1 for every list of secrets, so both vectors change alike. Lists whose length does not divide N have no runs at all on either side."
  },
  {
   "property": "C97",
   "status": "proved",
   "theorems": [
    "MscPoc.C97_multi",
    "MscPoc.C97_empty",
    "MscPoc.C97_returns",
    "MscPoc.C97_deployed",
    "MscPoc.C97_main",
    "MscPoc.C97_total",
    "MscPoc.C97_any",
    "MscPoc.C97_sha256"
   ],
   "note": "Model/RandMulti.lean runs MultiProve on the byte stream. Simplification: all draws come before the computations, which read no bytes; so on a short stream a panic between two draws shows as still running. C97_returns uses C92_prove."
  },
  {
   "property": "C98",
   "status": "proved",
   "theorems": [
    "MscPoc.C98_draws",
    "MscPoc.C98_prove",
    "MscPoc.C98_multi",
    "MscPoc.C98_deployed"
   ],
   "note": "Combines the uniformity of rand.Int (C57) with the counts over numbers of C53 and C96: Lemmas/RandUniform.lean shows that a sequence of uniform draws is uniform (each list of numbers on the same number of strings of every length), so counting draws and counting strings agree up to a common factor. rand.Int may read further blocks after rejected values; that is covered. secp256k1 and Ristretto255, whose elements have several representations, are treated in C99."
  },
  {
   "property": "C99",
   "status": "proved",
   "theorems": [
    "MscPoc.C99_prove",
    "MscPoc.C99_multi",
    "MscPoc.C99_deployed",
    "MscPoc.C99_circl",
    "MscPoc.C99_main"
   ],
   "note": "Extends C53, C96 and C98 from single proofs to arbitrary tests and from one representation per element to representations that look alike (structure Looks). The exchange of randomness keeps everything but the representation of V, A, S, T1, T2; equal texts give equal challenges. C53_hiding and C96_hiding are now corollaries of C53_test and C96_test. pieces (circl's expansion of the seed) stays a parameter, so that H is not the identity is a hypothesis on Ristretto255."
  },
  {
   "property": "C100",
   "status": "proved",
   "theorems": [
    "MscPoc.C100_simulated",
    "MscPoc.C100_deployed",
    "MscPoc.C100_circl",
    "MscPoc.C100_main"
   ],
   "note": "Extends C74 from one ballot to arbitrary tests, from two curves to four, and lets the simulator pick the challenge. The proof goes through a hybrid: first the vote proof is simulated with the voter's range proofs kept (sigma_swap), then each range proof is replaced by one for 0 (C53_test, with the hybrid ballot as the test). Aborted attempts of the vote proof are not part of the ballot and not counted."
  },
  {
   "property": "C101",
   "status": "proved",
   "theorems": [
    "MscPoc.C101_extract",
    "MscPoc.C101_range",
    "MscPoc.C101_same",
    "MscPoc.C101_complete",
    "MscPoc.C101_not_program",
    "MscPoc.C101_deployed",
    "MscPoc.C101_total"
   ],
   "note": "Special soundness of the repaired aggregated proof, as C80 for one value. The openings of the single commitments come from Newton interpolation over m of the challenges z; the range from the vanishing of a polynomial in z of degree m+1 at m+2 points. The program itself is not this verifier: see C56 and C95 for what it accepts."
  },
  {
   "property": "C102",
   "status": "proved",
   "theorems": [
    "MscPoc.C102_openings",
    "MscPoc.C102_one",
    "MscPoc.C102_any",
    "MscPoc.C102_made",
    "MscPoc.C102_deployed",
    "MscPoc.C102_total",
    "MscPoc.C102_forges",
    "MscPoc.C102_main"
   ],
   "note": "Two halves: knowledge of openings follows from the polynomial commitment check alone, and nothing else does, because z = y lets a prover choose aL and aR so that the identity holds for every y (aL = 0 for m < N, three non-zero entries for m = N). That the prover returns a proof (C102_made) is shown when the challenges of the run are invertible (C102_total), which fails only for digests that are multiples of the order; that what it returns is accepted (C102_any) needs no such condition."
  },
  {
   "property": "C103",
   "status": "proved",
   "theorems": [
    "MscPoc.C103_digest",
    "MscPoc.C103_bound",
    "MscPoc.C103_exact",
    "MscPoc.C103_fraction",
    "MscPoc.C103_few",
    "MscPoc.C103_deployed",
    "MscPoc.C103_untied"
   ],
   "note": "Statistical soundness of the vote proof as the counterpart of C33/C34, which extract from two answers. C103_untied is about existence: computing the answers needs discrete logarithms. C103_untied assumes that the seed of H is not hashed to the identity and that the curve group has N elements."
  },
  {
   "property": "C104",
   "status": "proved",
   "theorems": [
    "MscPoc.C104_prove",
    "MscPoc.C104_verify",
    "MscPoc.C104_any",
    "MscPoc.C104_saves",
    "MscPoc.C104_single"
   ],
   "note": "Counts the allocations of the pointer model (C94), as C86 does for the program itself. Elements made inside the implementations of the groups are not counted. The count for Verify is for runs with either verdict: with the code as it is, honest proofs of MultiProve are rejected unless the generators satisfy a relation (C24)."
  },
  {
   "property": "C105",
   "status": "proved",
   "theorems": [
    "MscPoc.C105_range_proof",
    "MscPoc.C105_copy",
    "MscPoc.C105_differs",
    "MscPoc.C105_kept",
    "MscPoc.C105_reduced",
    "MscPoc.C105_bytes",
    "MscPoc.C105_deployed"
   ],
   "note": "The expectation is refuted by an explicit copier, from bytes to bytes. C36 and C91 change the vote; this keeps the vote and changes only randomness, uses no guess of the vote and needs no condition on Z."
  },
  {
   "property": "C106",
   "status": "proved",
   "theorems": [
    "MscPoc.C106_range_proof",
    "MscPoc.C106_vote_proof",
    "MscPoc.C106_ballots",
    "MscPoc.C106_plaintext",
    "MscPoc.C106_deployed"
   ],
   "note": "For a fixed choice of hashed parts; Mu and the inner-product proofs are kept as well. The deployed form is stated for Lawful curve groups as in C73; such groups are constructed for all four curves, as in C102_main."
  }
 ]
}