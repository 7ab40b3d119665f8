{
 "claims": [
  {
   "property": "C01",
   "status": "proved",
   "theorems": [
    "Bp.LC.c01_expr_value",
    "Bp.LC.c01_mixed_operators"
   ],
   "note": "every operator separately plus one theorem for whole expressions; assignments arbitrary"
  },
  {
   "property": "C02",
   "status": "proved",
   "theorems": [
    "Bp.LC.c02_simplify_value",
    "Bp.LC.c02_simplify_nodup",
    "Bp.LC.c02_simplify_vars",
    "Bp.LC.c02_simplify_coeff",
    "Bp.LC.c02_len"
   ],
   "note": "for every iteration order of the HashMap"
  },
  {
   "property": "C03",
   "status": "proved",
   "theorems": [
    "Bp.c03_gates_consistent",
    "Bp.c03_gates_consistent_phase2",
    "Bp.c03_program_is_history"
   ],
   "note": "invariant over arbitrary call histories of both phases"
  },
  {
   "property": "C04",
   "status": "proved",
   "theorems": [
    "Bp.c04_new",
    "Bp.c04_commit",
    "Bp.c04_gadget",
    "Bp.c04_second_phase",
    "Bp.c04_same_circuit"
   ],
   "note": "simulation by induction over pairs of gadget programs; prover and verifier may use different HashMap orders"
  },
  {
   "property": "C05",
   "status": "proved",
   "theorems": [
    "Bp.c05_multiply_sound",
    "Bp.c05_multiply_complete"
   ],
   "note": ""
  },
  {
   "property": "C06",
   "status": "proved",
   "theorems": [
    "Bp.c06_fresh_prover",
    "Bp.c06_fresh_verifier",
    "Bp.c06_allocate_pairs",
    "Bp.c06_allocate_pairs_verifier",
    "Bp.c06_missing_assignment",
    "Bp.c06_allocate_single"
   ],
   "note": "freshness over arbitrary histories on both sides; pairing; missing assignment"
  },
  {
   "property": "C07",
   "status": "proved",
   "theorems": [
    "Bp.c07_value_stable",
    "Bp.c07_verifier_none",
    "Bp.c07_prover_some"
   ],
   "note": ""
  },
  {
   "property": "C08",
   "status": "proved",
   "theorems": [
    "Bp.c08_registration_order",
    "Bp.c08_callbacks_in_order",
    "Bp.c08_phase1_untouched",
    "Bp.c08_phase1_untouched_verifier",
    "Bp.c08_all_run",
    "Bp.c08_all_run_verifier",
    "Bp.c08_when"
   ],
   "note": "c08_all_run, c08_all_run_verifier: all registered callbacks run once and in order; c08_when: after the commitments to the wires of the first phase; c08_phase1_untouched*: the rest."
  },
  {
   "property": "C09",
   "status": "proved",
   "theorems": [
    "Bp.c09_verify_log",
    "Bp.c09_verify_challenges",
    "Bp.c09_prove_log",
    "Bp.c09_log_binds"
   ],
   "note": "exact log of prove and verify, oracle-locality of the verdict, and injectivity of the log"
  },
  {
   "property": "C10",
   "status": "proved",
   "theorems": [
    "Bp.c10_verifier_flatten_exact",
    "Bp.c10_verifier_flatten_total",
    "Bp.c10_prover_flatten_exact",
    "Bp.c10_flatten_agree"
   ],
   "note": ""
  },
  {
   "property": "C11",
   "status": "proved",
   "theorems": [
    "Bp.c11_violation_survives",
    "Bp.c11_violation_survives_flatten"
   ],
   "note": ""
  },
  {
   "property": "C12",
   "status": "proved",
   "theorems": [
    "Bp.c12_zero",
    "Bp.c12_zero_product",
    "Bp.c12_vecpoly1_inner_product",
    "Bp.c12_special_inner_product",
    "Bp.c12_special_needs_lhs0",
    "Bp.c12_special_needs_rhs2"
   ],
   "note": ""
  },
  {
   "property": "C13",
   "status": "proved",
   "theorems": [
    "Bp.c13_ipp_complete",
    "Bp.c13_verify_iff"
   ],
   "note": ""
  },
  {
   "property": "C14",
   "status": "proved",
   "theorems": [
    "Bp.c14_scalars"
   ],
   "note": ""
  },
  {
   "property": "C15",
   "status": "proved",
   "theorems": [
    "Bp.c15_wrong_length_rejected",
    "Bp.c15_well_sized_accepted",
    "Bp.c15_verify_ipp_panics",
    "Bp.c15_short_R_panics",
    "Bp.c15_long_R_panics"
   ],
   "note": ""
  },
  {
   "property": "C16",
   "status": "proved",
   "theorems": [
    "Bp.c16_special_soundness",
    "Bp.c16_independent"
   ],
   "note": "Special soundness: from a full tree of accepting answers (four challenges per round, pairwise different squares) an opening is computed, or one of an explicit finite list of computed relations is a non-trivial relation between the generators; c16_independent is the form for generators without relations. Each branch may use its own oracle. The forking step (how a rewinding extractor obtains such a tree, and its probability) is outside the model."
  },
  {
   "property": "C17",
   "status": "proved",
   "theorems": [
    "Bp.c17_complete",
    "Bp.c17_complete_one_phase"
   ],
   "note": "one and two phases; limits of the code: fewer than 32 rounds; batch_invert of an empty list only matters for circuits with at most one gate"
  },
  {
   "property": "C18",
   "status": "proved",
   "theorems": [
    "Bp.c18_exact_outcome",
    "Bp.c18_rejected"
   ],
   "note": "exact outcome plus a bound on the number of bad z"
  },
  {
   "property": "C19",
   "status": "proved",
   "theorems": [
    "Bp.c19_prove_short_first_phase",
    "Bp.c19_prove_short_total",
    "Bp.c19_verify_short",
    "Bp.c19_prove_enough",
    "Bp.c19_verify_enough",
    "Bp.c19_prove_short_H_panics",
    "Bp.c19_prove_short_H_total_panics"
   ],
   "note": "length of G is checked as claimed; length of H is not checked and a short H panics (also proved)"
  },
  {
   "property": "C20",
   "status": "proved",
   "theorems": [
    "Bp.c20_two_scalars",
    "Bp.c20_at_most_one_bad_scalar"
   ],
   "note": ""
  },
  {
   "property": "C21",
   "status": "proved",
   "theorems": [
    "Bp.c21_special_soundness",
    "Bp.c21_openings",
    "Bp.c21_independent",
    "Bp.c21_wires_of_commitments",
    "Bp.c21_first_phase_fixed"
   ],
   "note": "Special soundness for the verifier as modelled: from a full tree of accepting answers the wires are computed and satisfy all gates and (as commitments, or with any openings of V) all constraints, or an explicit computed relation between the generators is non-trivial; c21_independent is the form for generators without relations, c21_wires_of_commitments and c21_first_phase_fixed say which commitments determine the wires. The forking step itself (probability of obtaining the tree) is outside the model."
  },
  {
   "property": "C22",
   "status": "proved",
   "theorems": [
    "Bp.c22_witness_indistinguishable",
    "Bp.c22_all_coins"
   ],
   "note": "For two provers in a session with the same verifier (same circuit and commitments, satisfying assignments in both phases, h generating the group) there is a bijection between their coins under which prove gives the same proof and transcript and which leaves coins that are never drawn alone; restricted to coins where x and y are non-zero. With a fixed oracle and all coins: c22_all_coins for oracles that never answer zero."
  },
  {
   "property": "C23",
   "status": "proved",
   "theorems": [
    "Bp.c23_commit",
    "Bp.c23_homomorphic",
    "Bp.c23_binding",
    "Bp.c23_hiding"
   ],
   "note": ""
  },
  {
   "property": "C24",
   "status": "proved",
   "theorems": [
    "Bp.c24_bit_sound",
    "Bp.c24_bit_sound_randomized",
    "Bp.c24_bit_complete"
   ],
   "note": ""
  },
  {
   "property": "C25",
   "status": "proved",
   "theorems": [
    "Bp.c25_positive_sound",
    "Bp.c25_positive_sound_randomized",
    "Bp.c25_positive_representative",
    "Bp.c25_positive_complete"
   ],
   "note": ""
  },
  {
   "property": "C26",
   "status": "proved",
   "theorems": [
    "Bp.c26_sound",
    "Bp.c26_complete",
    "Bp.c26_end_to_end",
    "Bp.c26_large_n_accepts_everything",
    "Bp.c26_large_n_unsound"
   ],
   "note": "for upper bounds below the group order and 2^n at most the group order; outside that range the failure is exhibited"
  },
  {
   "property": "C27",
   "status": "proved",
   "theorems": [
    "Bp.c27_sound",
    "Bp.c27_complete",
    "Bp.c27_end_to_end"
   ],
   "note": ""
  },
  {
   "property": "C28",
   "status": "proved",
   "theorems": [
    "Bp.c28_sound",
    "Bp.c28_empty",
    "Bp.c28_complete",
    "Bp.c28_end_to_end"
   ],
   "note": ""
  },
  {
   "property": "C29",
   "status": "partial",
   "theorems": [
    "Bp.c29_sound_partial",
    "Bp.c29_complete",
    "Bp.c29_end_to_end",
    "Bp.c29_zero_accepted",
    "Bp.c29_zero_forgery_end_to_end",
    "Bp.c29_unsound",
    "Bp.c29_bitmap_partial",
    "Bp.c29_once_only"
   ],
   "note": "false as stated: the value 0 is accepted for sets that do not contain it (c29_unsound, c29_zero_forgery_end_to_end); what holds is c29_sound_partial and c29_bitmap_partial; c29_once_only: sets with a repeated element defeat the honest prover"
  },
  {
   "property": "C30",
   "status": "proved",
   "theorems": [
    "Bp.c30_sound",
    "Bp.c30_complete",
    "Bp.c30_end_to_end"
   ],
   "note": ""
  },
  {
   "property": "C31",
   "status": "partial",
   "theorems": [
    "Bp.c31_complete",
    "Bp.c31_end_to_end",
    "Bp.c31_sound_partial",
    "Bp.c31_anything_accepted",
    "Bp.c31_forgery_end_to_end",
    "Bp.c31_unsound"
   ],
   "note": "false as stated: any two vectors are accepted for any claimed distance (c31_unsound, c31_forgery_end_to_end); what holds is c31_sound_partial and completeness"
  },
  {
   "property": "C32",
   "status": "proved",
   "theorems": [
    "Bp.c32_sound",
    "Bp.c32_sound_exact",
    "Bp.c32_complete",
    "Bp.c32_end_to_end"
   ],
   "note": ""
  },
  {
   "property": "C33",
   "status": "proved",
   "theorems": [
    "Bp.c33_sound",
    "Bp.c33_complete",
    "Bp.c33_defined",
    "Bp.c33_gadget_sound"
   ],
   "note": "any width and round numbers, except width 0 with partial rounds, where the plain permutation panics"
  },
  {
   "property": "C34",
   "status": "partial",
   "theorems": [
    "Bp.c34_complete_partial",
    "Bp.c34_anything_accepted",
    "Bp.c34_forgery_end_to_end",
    "Bp.c34_unsound",
    "Bp.c34_zero_unsatisfied"
   ],
   "note": "false as stated: c34_unsound and c34_forgery_end_to_end (any inputs, any non-zero output), c34_zero_unsatisfied (honest prover fails at 0); what holds is c34_complete_partial"
  },
  {
   "property": "C35",
   "status": "proved",
   "theorems": [
    "Bp.c35_sound_2",
    "Bp.c35_sound_4",
    "Bp.c35_sound_8",
    "Bp.c35_complete_2",
    "Bp.c35_complete_4",
    "Bp.c35_complete_8",
    "Bp.c35_end_to_end_2",
    "Bp.c35_end_to_end_4",
    "Bp.c35_end_to_end_8",
    "Bp.c35_defined"
   ],
   "note": ""
  },
  {
   "property": "C36",
   "status": "proved",
   "theorems": [
    "Bp.c36_map"
   ],
   "note": "Collision-freeness is a hypothesis on the child lists occurring in the history, as in the property; any starting database, depth up to 4*MODBYTES (beyond that the code panics, C40)."
  },
  {
   "property": "C37",
   "status": "proved",
   "theorems": [
    "Bp.c37_map"
   ],
   "note": "As C36 for the 8-ary tree, 3*depth <= 8*MODBYTES."
  },
  {
   "property": "C38",
   "status": "proved",
   "theorems": [
    "Bp.c38_complete",
    "Bp.c38_sound"
   ],
   "note": "Both arities. Soundness conclusion is the stored value or an explicit collision between a list hashed by the verification and a child list of the tree; proof nodes have the fixed size of the Rust array type, the number of nodes is arbitrary (too few: panic)."
  },
  {
   "property": "C39",
   "status": "proved",
   "theorems": [
    "Bp.c39_root_of_contents",
    "Bp.c39_contents_of_root",
    "Bp.c39_old_roots",
    "Bp.c39_update_root"
   ],
   "note": "Both arities; also the converse (equal roots give equal contents or an explicit collision)."
  },
  {
   "property": "C40",
   "status": "proved",
   "theorems": [
    "Bp.c40_base4",
    "Bp.c40_base8"
   ],
   "note": ""
  },
  {
   "property": "C41",
   "status": "proved",
   "theorems": [
    "Bp.c41_sound",
    "Bp.c41_c42_tree_sound",
    "Bp.c41_complete",
    "Bp.c41_tree_complete",
    "Bp.c41_end_to_end"
   ],
   "note": "Soundness for 3*depth nodes, completeness and end-to-end with the proof returned by get, for indices inside the tree; c41_c42_tree_sound states it in terms of tree contents. Hash S-box cube/quint (soundness also for the code path of every S-box but inverse)."
  },
  {
   "property": "C42",
   "status": "proved",
   "theorems": [
    "Bp.c42_sound",
    "Bp.c42_complete",
    "Bp.c42_tree_complete",
    "Bp.c42_end_to_end"
   ],
   "note": "As C41 for the 8-ary tree (c42_*, c41_c42_tree_sound)."
  },
  {
   "property": "C43",
   "status": "partial",
   "theorems": [
    "Bp.c43_levels_4_partial",
    "Bp.c43_levels_8_partial",
    "Bp.c43_inner_node_4",
    "Bp.c43_inner_node_8",
    "Bp.c43_not_enforced_4",
    "Bp.c43_not_enforced_8"
   ],
   "note": "False of the code: the number of proof nodes is not checked against tree_depth; c43_inner_node_* prove that every inner node of every reachable tree is accepted as a leaf, c43_not_enforced_* are the negation. What holds for every number of commitments is c43_levels_*_partial."
  },
  {
   "property": "C44",
   "status": "proved",
   "theorems": [
    "Bp.c44_last_write"
   ],
   "note": "std HashMap is modelled as an association list."
  },
  {
   "property": "C45",
   "status": "proved",
   "theorems": [
    "Bp.c45_prefix",
    "Bp.c45_entries",
    "Bp.c45_same_prefix",
    "Bp.c45_distinct",
    "Bp.c45_disjoint",
    "Bp.c45_ambiguous"
   ],
   "note": "Distinctness of messages across prefixes needs prefixes that do not end in a digit, as in the statement; c45_ambiguous shows that the condition is necessary."
  },
  {
   "property": "C46",
   "status": "proved",
   "theorems": [
    "Bp.c46_sound",
    "Bp.c46_tree_sound",
    "Bp.c46_only_listed",
    "Bp.c46_other_depth",
    "Bp.c46_complete",
    "Bp.c46_end_to_end",
    "Bp.c46_wrong_value"
   ],
   "note": "Entry-point soundness (cube and quintic S-boxes) and completeness with acceptance end to end, for trees reached by any update history; c46_only_listed restates it for tree contents with explicit collisions. The new tree's hash database is assumed to hold the nodes of that tree (proved for runHistory). The crate's trees always hash with the quintic S-box, so the cube form concerns trees hashed with the cube S-box. Depth 0 never writes anything, hence completeness needs depth >= 1."
  },
  {
   "property": "C47",
   "status": "proved",
   "theorems": [
    "Bp.c47_indices",
    "Bp.c47_no_data",
    "Bp.c47_data",
    "Bp.c47_out_of_range",
    "Bp.c47_compose"
   ],
   "note": "SHAKE, the byte-to-field map and the message hash are arbitrary functions. Data must be non-empty (c47_no_data: otherwise no result) and fit the low limb used for indexing; index order is arbitrary (HashSet)."
  },
  {
   "property": "C48",
   "status": "proved",
   "theorems": [
    "Bp.c48_bounded_num",
    "Bp.c48_non_zero",
    "Bp.c48_set_membership",
    "Bp.c48_set_non_membership",
    "Bp.c48_set_membership_alt",
    "Bp.c48_mimc",
    "Bp.c48_mimc_lengths",
    "Bp.c48_hamming_lengths",
    "Bp.c48_merkle",
    "Bp.c48_poseidon"
   ],
   "note": ""
  },
  {
   "property": "C49",
   "status": "partial",
   "theorems": [
    "Bp.c49_wrong_R_panics",
    "Bp.c49_no_panic_partial",
    "Bp.c49_counterexample"
   ],
   "note": "false as stated: c49_counterexample and c49_wrong_R_panics; what holds is c49_no_panic_partial"
  },
  {
   "property": "C50",
   "status": "proved",
   "theorems": [
    "Bp.c50_complete",
    "Bp.c50_end_to_end",
    "Bp.c50_sound"
   ],
   "note": ""
  },
  {
   "property": "C51",
   "status": "proved",
   "theorems": [
    "Bp.c51_cauchy",
    "Bp.c51_params",
    "Bp.c51_bijective",
    "Bp.c51_injective_any_keys"
   ],
   "note": ""
  },
  {
   "property": "C52",
   "status": "partial",
   "theorems": [
    "Bp.c52_collision",
    "Bp.c52_not_injective",
    "Bp.c52_hash_collision"
   ],
   "note": "false: c52_not_injective, c52_hash_collision; the negation is proved for all parameter sets that begin with a full round (the full statement has no true part)"
  },
  {
   "property": "C53",
   "status": "partial",
   "theorems": [
    "Bp.c53_others_partial",
    "Bp.c53_hamming_verifier_panics",
    "Bp.c53_hamming_prover_panics",
    "Bp.c53_inverse_verifier_panics"
   ],
   "note": "false as stated for the Hamming gadget and the inverse S-box, which panic when a gate is half allocated; the other statements are proved unaffected"
  },
  {
   "property": "C54",
   "status": "proved",
   "theorems": [
    "Bp.c54_challenges",
    "Bp.c54_prefix"
   ],
   "note": "The hash to a scalar and the encoding of a point are arbitrary functions."
  },
  {
   "property": "C55",
   "status": "proved",
   "theorems": [
    "Bp.c55_openings_or_relation",
    "Bp.c55_openings",
    "Bp.c55_openings_exact",
    "Bp.c55_knowledge",
    "Bp.c55_bounded_num",
    "Bp.c55_non_zero",
    "Bp.c55_set_membership",
    "Bp.c55_set_non_membership",
    "Bp.c55_mimc",
    "Bp.c55_poseidon_2",
    "Bp.c55_poseidon_4",
    "Bp.c55_poseidon_8",
    "Bp.c55_inclusion_4",
    "Bp.c55_inclusion_8",
    "Bp.c55_randomizer"
   ],
   "note": "Combines C21 with the soundness of each statement (C26-C28, C30, C32, C35, C41, C42, C46): generic theorems for every sound statement, then one for each verify_* function. c55_openings_or_relation needs no assumption on the generators; the others assume generators without linear relations. The statements of C29 and C31 are left out because they are unsound as circuits (see there). The probability of obtaining the tree of answers is outside the model, as in C21."
  },
  {
   "property": "C56",
   "status": "proved",
   "theorems": [
    "Bp.c56_simulator",
    "Bp.c56_same_distribution",
    "Bp.c56_simulated_accepted"
   ],
   "note": "c56_simulator: for an oracle whose answers depend only on the position in the log there is a bijection between the coins prove draws and the choices of Verifier.simulate such that corresponding ones give the same proof and transcript; c56_same_distribution counts them per outcome; c56_simulated_accepted needs no witness. The simulator is defined in Spec/Simulator.lean from the verifier state only."
  },
  {
   "property": "C57",
   "status": "partial",
   "theorems": [
    "Bp.c57_holds_at_partial",
    "Bp.c57_denies_written_4",
    "Bp.c57_denies_written_8",
    "Bp.c57_end_to_end_4",
    "Bp.c57_not_enforced_4",
    "Bp.c57_not_enforced_8"
   ],
   "note": "false for trees with more positions than the field has elements (4-ary: depth 128 and more over BLS12-381, although depths up to 192 are accepted): c57_denies_written_4/8, c57_end_to_end_4 and c57_not_enforced_4/8 show that a written index can be proved empty; Props/Gadgets/AliasDemo.lean has the concrete tree. What holds is c57_holds_at_partial, for arity ^ depth at most the order."
  },
  {
   "property": "C58",
   "status": "proved",
   "theorems": [
    "Bp.c58_tree",
    "Bp.c58_satisfiable",
    "Bp.c58_convinced",
    "Bp.c58_attack",
    "Bp.c58_game_rule",
    "Bp.c58_game",
    "Bp.c58_bounded_num",
    "Bp.c58_non_zero"
   ],
   "note": "c58_tree needs no assumption on the generators: an accepted proof yields a full accepted tree (hence C21/C55) or a bad answer along its log; c58_satisfiable, c58_convinced and the counting theorems assume generators without linear relations. c58_attack: any circuit, fixed beforehand, provers that ask (in any order, also repeatedly) all draws of their proof. c58_game: statements without randomized constraints; the prover asks Q questions and then chooses commitments and proof, the verifier asks the D challenges; c58_bounded_num and c58_non_zero are instances. Probability is counted over the answers and the verifier's scalar."
  },
  {
   "property": "C59",
   "status": "proved",
   "theorems": [
    "Bp.c59_satisfiable",
    "Bp.c59_attack",
    "Bp.c59_game",
    "Bp.c59_statement",
    "Bp.c59_bounded_num",
    "Bp.c59_non_zero",
    "Bp.c59_set_membership",
    "Bp.c59_set_non_membership",
    "Bp.c59_mimc",
    "Bp.c59_poseidon_2",
    "Bp.c59_poseidon_4",
    "Bp.c59_poseidon_8",
    "Bp.c59_inclusion_4",
    "Bp.c59_inclusion_8",
    "Bp.c59_randomizer"
   ],
   "note": "No assumption on the generators. c59_satisfiable (one run), c59_attack (counting, any circuit fixed beforehand) and c59_game (the game of C58, commitments chosen by the prover) hold for every linear map from combinations to points; c59_statement and the theorems for the entry points take the combinations of the very generators (Rep). In the MiMC, Poseidon, inclusion and randomizer theorems the claim is about commitments that are combinations of g and h (as made by commit). Hamming distance and the bitmap set membership are not among the statements: they are unsound (C31) or sound only under restrictions (C29)."
  },
  {
   "property": "C60",
   "status": "proved",
   "theorems": [
    "Bp.c60_sound",
    "Bp.c60_complete",
    "Bp.c60_end_to_end",
    "Bp.c60_wrong"
   ],
   "note": ""
  },
  {
   "property": "C61",
   "status": "proved",
   "theorems": [
    "Bp.c61_knowledge",
    "Bp.c61_unique",
    "Bp.c61_game",
    "Bp.c61_algebraic"
   ],
   "note": "c61_knowledge (rewinding), c61_game (random oracle, generators without relation), c61_algebraic (any generators, provers that make their points from them), c61_unique. The public parameters are restricted (Stmt.Ok) to those for which each commitment is constrained and the bounds of C26 hold. For the Hamming distance, which is unsound (C31), only the little it implies is stated; for the bitmap set membership, the claim that is true of the code (C29)."
  },
  {
   "property": "C62",
   "status": "proved",
   "theorems": [
    "Bp.c62_tree",
    "Bp.c62_extract",
    "Bp.c62_statement",
    "Bp.c62_public_coin",
    "Bp.c62_honest",
    "Bp.c62_gadget"
   ],
   "note": "c62_tree, c62_extract (any constraint system), c62_statement (statements without randomized constraints: the prover convinces in the sense of C22-C46, C61), c62_public_coin, c62_honest, c62_gadget (the library's prover as an interactive prover). The bound is about the number of accepted (challenges, random scalar) pairs: the time an extractor needs is the subject of C68."
  },
  {
   "property": "C63",
   "status": "proved",
   "theorems": [
    "Bp.c63_solver",
    "Bp.c63_circuit",
    "Bp.c63_statements",
    "Bp.c63_interactive",
    "Bp.c63_independent"
   ],
   "note": "c63_solver (the coefficients exist, for every list of constraints), c63_circuit, c63_statements, c63_interactive, c63_independent (no relation). The statement about the Hamming distance does not determine its commitments (C31), which are not opened."
  },
  {
   "property": "C64",
   "status": "proved",
   "theorems": [
    "Bp.c64_forest",
    "Bp.c64_alone",
    "Bp.c64_crash_retry",
    "Bp.c64_lossy"
   ],
   "note": "c64_forest (any calls and crashes), c64_alone (as in a database of its own), c64_crash_retry, c64_lossy (lost entries). Collisions of the hash are excluded by hypothesis, for the child lists that occur."
  },
  {
   "property": "C65",
   "status": "proved",
   "theorems": [
    "Bp.c65_statement",
    "Bp.c65_list",
    "Bp.c65_prover",
    "Bp.c65_generators",
    "Bp.c65_proof",
    "Bp.c65_game",
    "Bp.c65_interactive"
   ],
   "note": "c65_statement and c65_list (the numbers, specified in Spec/Sizes.lean), c65_prover, c65_generators (exactly when the call reports too few generators), c65_proof (size of accepted proofs), c65_game and c65_interactive (bounds of C61/C62 in closed form)."
  },
  {
   "property": "C66",
   "status": "proved",
   "theorems": [
    "Bp.c66_zero_knowledge",
    "Bp.c66_witness",
    "Bp.c66_private",
    "Bp.c66_gadget"
   ],
   "note": "c66_zero_knowledge (adaptive, many proofs), c66_witness (witness indistinguishability), c66_private (committed values), c66_gadget (the gadgets' provers meet the hypotheses). Statements with randomized constraints are not covered (C56 covers them for fixed challenges)."
  },
  {
   "property": "C67",
   "status": "proved",
   "theorems": [
    "Bp.c67_complete",
    "Bp.c67_log",
    "Bp.c67_binds",
    "Bp.c67_final_scalars",
    "Bp.c67_unique"
   ],
   "note": "c67_complete (chains of honest proofs are accepted), c67_log and c67_binds (the log of an accepted chain lists and determines all proofs), c67_final_scalars (explicit relation) and c67_unique (independent generators)."
  },
  {
   "property": "C68",
   "status": "proved",
   "theorems": [
    "Bp.c68_expected_runs",
    "Bp.c68_success",
    "Bp.c68_found",
    "Bp.c68_extract",
    "Bp.c68_statement"
   ],
   "note": "c68_expected_runs, c68_success, c68_found (any public-coin protocol), c68_extract (any constraint system), c68_statement (statements without randomized constraints). Time is counted in runs of the prover; one run is one execution of the prover and the verifier with given challenges."
  },
  {
   "property": "C69",
   "status": "partial",
   "theorems": [
    "Bp.c69_orders",
    "Bp.c69_params",
    "Bp.c69_mds",
    "Bp.c69_bijective",
    "Bp.c69_cube",
    "Bp.c69_cauchy",
    "Bp.c69_bn254_other_field",
    "Bp.c69_reduced"
   ],
   "note": "Proved for all four curves: c69_orders, c69_params, c69_mds (branch number), c69_bijective, c69_cube (no curve makes cubes injective), c69_cauchy (all but bn254). The claim about the matrices is false for bn254: c69_bn254_other_field, c69_reduced."
  },
  {
   "property": "C70",
   "status": "partial",
   "theorems": [
    "Bp.c70_distribution",
    "Bp.c70_distance",
    "Bp.c70_attained",
    "Bp.c70_likelihood",
    "Bp.c70_curves",
    "Bp.c70_bn254_biased",
    "Bp.c70_factor",
    "Bp.c70_transfer",
    "Bp.c70_sound",
    "Bp.c70_rewind",
    "Bp.c70_zero_knowledge",
    "Bp.c70_witness"
   ],
   "note": "Proved: exact distribution, distance (attained) and likelihood factor for all orders and numbers of bytes; the soundness, rewinding and zero-knowledge bounds with challenges made from bytes; the bias of three curves. The bound 2^-127 is false for bn254: c70_bn254_biased; c70_factor bounds the loss there."
  },
  {
   "property": "C71",
   "status": "proved",
   "theorems": [
    "Bp.c71_injective",
    "Bp.c71_prefix",
    "Bp.c71_collision",
    "Bp.c71_scalar_bytes",
    "Bp.c71_verify_log",
    "Bp.c71_prove_log",
    "Bp.c71_verifications",
    "Bp.c71_u64_wraps",
    "Bp.c71_sound",
    "Bp.c71_sound_bytes",
    "Bp.c71_zero_knowledge",
    "Bp.c71_witness"
   ],
   "note": "For the operations that merlin hands to STROBE; STROBE itself is taken to be a (random) function of the sequence of operations. c71_u64_wraps: the bound 2^64 on sizes is needed."
  },
  {
   "property": "C72",
   "status": "proved",
   "theorems": [
    "Bp.c72_claim",
    "Bp.c72_attack",
    "Bp.c72_rule",
    "Bp.c72_forger",
    "Bp.c72_algebraic",
    "Bp.c72_shuffle_randomizes",
    "Bp.c72_shuffle",
    "Bp.c72_shuffle_algebraic",
    "Bp.c72_shuffle_complete"
   ],
   "note": "General theorems for callbacks that draw one challenge and enforce a claim for all but k of its values; the shuffle argument (client code of ours, /repo has none) is the concrete instance, with completeness."
  },
  {
   "property": "C73",
   "status": "proved",
   "theorems": [
    "Bp.c73_zero_knowledge",
    "Bp.c73_witness",
    "Bp.c73_private",
    "Bp.c73_onePhase",
    "Bp.c73_shuffle_provable",
    "Bp.c73_shuffle_private"
   ],
   "note": "In the random-oracle model. c73_shuffle_private is the concrete instance; c73_onePhase: contains the statements of C66."
  },
  {
   "property": "C74",
   "status": "proved",
   "theorems": [
    "Bp.c74_relation",
    "Bp.c74_converse",
    "Bp.c74_generators",
    "Bp.c74_forge",
    "Bp.c74_statements"
   ],
   "note": "Reduction in the algebraic group and random-oracle models; c74_statements is for all statements of the crate, c74_forge for any uniform statement, c74_relation is the core, c74_converse the other direction."
  },
  {
   "property": "C75",
   "status": "partial",
   "theorems": [
    "Bp.c75_prove_ignores",
    "Bp.c75_forgery",
    "Bp.c75_mimc",
    "Bp.c75_merkle_4",
    "Bp.c75_merkle_8",
    "Bp.c75_labels_partial",
    "Bp.c75_family_partial",
    "Bp.c75_mimc_labels_partial"
   ],
   "note": "False of the code as stated: c75_forgery (any statement that ends with its parameter), c75_mimc, c75_merkle_4 and c75_merkle_8 run the code's prover on wires that are all zero, and the verifier accepts for another parameter. Proved: soundness when every parameter has its own label (c75_labels_partial, c75_mimc_labels_partial), and with a factor for the number of parameters under one label (c75_family_partial)."
  },
  {
   "property": "C76",
   "status": "proved",
   "theorems": [
    "Bp.c76_equation",
    "Bp.c76_rule",
    "Bp.c76_game",
    "Bp.c76_one_parameter",
    "Bp.c76_verify_proof",
    "Bp.c76_gadgets"
   ],
   "note": "c76_game bounds the success of everybody who sends an honest proof to a verifier with another label or other commitments by 3(Q+D)+1 in |F|; c76_equation and c76_rule are about every accepting verifier, in one or two phases. c76_one_parameter, c76_verify_proof and c76_gadgets: one hash value or root for a proof. Nothing is claimed about other statements with the same label, commitments and parameter."
  },
  {
   "property": "C77",
   "status": "proved",
   "theorems": [
    "Bp.c77_total",
    "Bp.c77_rows",
    "Bp.c77_elaborated",
    "Bp.c77_no_constraints",
    "Bp.c77_repeated",
    "Bp.c77_simplified",
    "Bp.c77_agree"
   ],
   "note": "c77_rows, c77_agree, c77_elaborated under the stated conditions; c77_repeated and c77_no_constraints show what happens without them. These functions are compiled for tests only."
  },
  {
   "property": "C78",
   "status": "partial",
   "theorems": [
    "Bp.c78_same_proofs",
    "Bp.c78_reported",
    "Bp.c78_enough",
    "Bp.c78_unwrap_panics",
    "Bp.c78_hamming_panics",
    "Bp.c78_inclusion4_panics",
    "Bp.c78_randomizer_panics"
   ],
   "note": "False of three functions, which panic: c78_hamming_panics, c78_randomizer_panics, c78_inclusion4_panics (all honest inputs with too few generators). Proved for the functions that pass the error on (c78_reported), and that the bound is exact (c78_enough); the functions that unwrap return the same proofs (c78_same_proofs)."
  },
  {
   "property": "C79",
   "status": "proved",
   "theorems": [
    "Bp.c79_polynomial",
    "Bp.c79_scalars",
    "Bp.c79_end_to_end"
   ],
   "note": "Honest proofs (c79_scalars for any prover and verifier in step, c79_end_to_end for gen_proof/verify_proof). The points may of course not be replaced by others only in the sense of C76/C58: whoever knows the witness can make another proof."
  },
  {
   "property": "C80",
   "status": "proved",
   "theorems": [
    "Bp.c80_forges",
    "Bp.c80_game",
    "Bp.c80_statements"
   ],
   "note": "c80_forges and c80_game for any statement without randomized constraints, c80_statements with the bound of C61."
  },
  {
   "property": "C81",
   "status": "partial",
   "theorems": [
    "Bp.c81_inclusion4_exact",
    "Bp.c81_inclusion8_exact",
    "Bp.c81_inclusion4_crash",
    "Bp.c81_inclusion8_crash",
    "Bp.c81_inclusion4",
    "Bp.c81_inclusion8",
    "Bp.c81_total",
    "Bp.c81_statements",
    "Bp.c81_few_panics",
    "Bp.c81_inclusion_panics",
    "Bp.c81_many_ignored",
    "Bp.c81_hamming_reported",
    "Bp.c81_same_number",
    "Bp.c81_randomizer"
   ],
   "note": "The first part is proved (c81_total, c81_statements, c81_randomizer). The second is false of the code and its negation proved for all inputs: c81_few_panics, c81_inclusion_panics (too few panic), c81_many_ignored (too many are ignored); only Hamming distance reports (c81_hamming_reported). Inclusion is settled for every number of commitments by c81_inclusion4_exact and c81_inclusion8_exact."
  },
  {
   "property": "C82",
   "status": "proved",
   "theorems": [
    "Bp.c82_in_range",
    "Bp.c82_check",
    "Bp.c82_verify"
   ],
   "note": "c82_in_range for all statements, parameters and commitments; c82_check and c82_verify for all proofs with as many R as L."
  },
  {
   "property": "C83",
   "status": "proved",
   "theorems": [
    "Bp.c83_rejected",
    "Bp.c83_count",
    "Bp.c83_hamming",
    "Bp.c83_randomizer"
   ],
   "note": "c83_rejected: the place and the values are fixed before the challenges; c83_count: the number of values of that one challenge, all others given. c83_hamming: the prover's own values violate the sum constraint although the statement binds no other prover (C31); c83_randomizer: two trees that differ elsewhere than listed."
  },
  {
   "property": "C84",
   "status": "proved",
   "theorems": [
    "Bp.c84_one_value",
    "Bp.c84_game",
    "Bp.c84_bound_and_set",
    "Bp.c84_related"
   ],
   "note": "c84_one_value and c84_game: the values are fixed before statements, labels, proofs and provers; c84_bound_and_set for two proofs; c84_related shows that the hypothesis on g and h is needed."
  },
  {
   "property": "C85",
   "status": "partial",
   "theorems": [
    "Bp.c85_invert",
    "Bp.c85_all",
    "Bp.c85_collisions",
    "Bp.c85_anyone",
    "Bp.c85_prescribed_partial"
   ],
   "note": "False of the code; the negation is proved for all images: c85_invert, c85_all, c85_collisions, c85_anyone. What is left (a prescribed second input leaves at most 3^rounds preimages) is c85_prescribed_partial."
  },
  {
   "property": "C86",
   "status": "partial",
   "theorems": [
    "Bp.c86_verifier",
    "Bp.c86_statements",
    "Bp.c86_related",
    "Bp.c86_family_partial"
   ],
   "note": "False of the code; the negation is proved for all statements and all committed values: c86_verifier, c86_statements, and c86_related says what generator it takes. What is left, for generators chosen from a finite family of independent ones, is c86_family_partial."
  },
  {
   "property": "C87",
   "status": "proved",
   "theorems": [
    "Bp.c87_commitments",
    "Bp.c87_proof",
    "Bp.c87_unnoticed",
    "Bp.c87_bounded_debug"
   ],
   "note": "c87_commitments, c87_proof for every list of calls; c87_unnoticed adds the verifier's answer to proofs of false statements; c87_bounded_debug is the exception."
  },
  {
   "property": "C88",
   "status": "partial",
   "theorems": [
    "Bp.c88_combination",
    "Bp.c88_blinding",
    "Bp.c88_wires",
    "Bp.c88_guess",
    "Bp.c88_linked"
   ],
   "note": "False as stated; the negation is proved: c88_linked (two proofs), c88_wires and c88_guess (three proofs), c88_combination and c88_blinding (blindings of the commitments), with seven concrete proofs that give away the blinding 9. For fresh coins the secrets are hidden (C66)."
  },
  {
   "property": "C89",
   "status": "proved",
   "theorems": [
    "Bp.c89_bounded_num",
    "Bp.c89_non_zero",
    "Bp.c89_set_membership",
    "Bp.c89_set_membership_alt",
    "Bp.c89_set_non_membership",
    "Bp.c89_hamming",
    "Bp.c89_mimc",
    "Bp.c89_poseidon_2",
    "Bp.c89_poseidon_4",
    "Bp.c89_poseidon_8",
    "Bp.c89_inclusion_4",
    "Bp.c89_inclusion_8",
    "Bp.c89_randomizer",
    "Bp.c89_check",
    "Bp.c89_rejected"
   ],
   "note": "One theorem for each pair of functions of the crate (Model/Api); c89_check connects the verifying functions with the theorems about lists of statements; c89_rejected is for the eleven pairs of which C83 speaks."
  },
  {
   "property": "C90",
   "status": "proved",
   "theorems": [
    "Bp.c90_permutation",
    "Bp.c90_hash_2",
    "Bp.c90_hash_4",
    "Bp.c90_hash_8",
    "Bp.c90_digest",
    "Bp.c90_mimc",
    "Bp.c90_preimage_2",
    "Bp.c90_preimage_4",
    "Bp.c90_preimage_8",
    "Bp.c90_preimage_mimc",
    "Bp.c90_tables"
   ],
   "note": "Spec/Hades is written with vectors and Mathlib's Matrix.vecMul, apart from the model."
  },
  {
   "property": "C91",
   "status": "proved",
   "theorems": [
    "Bp.c91_forge",
    "Bp.c91_generators",
    "Bp.c91_game",
    "Bp.c91_honest",
    "Bp.c91_first_ones",
    "Bp.c91_forge_any",
    "Bp.c91_game_any"
   ],
   "note": "C74 for the functions that a user calls, with the game in its usual form: adaptive questions, answers drawn when first needed. c91_forge_any and c91_game_any are for provers that hand over any number of commitments. Two-phase statements are C72."
  },
  {
   "property": "C92",
   "status": "proved",
   "theorems": [
    "Bp.c92_generate",
    "Bp.c92_verify",
    "Bp.c92_client",
    "Bp.c92_gadgets"
   ],
   "note": "Equality of results, errors and panics included, for all iteration orders."
  },
  {
   "property": "C93",
   "status": "proved",
   "theorems": [
    "Bp.c93_inside",
    "Bp.c93_projected",
    "Bp.c93_game",
    "Bp.c93_algebraic",
    "Bp.c93_relation",
    "Bp.c93_curve",
    "Bp.c93_luck"
   ],
   "note": "c93_luck is the witness for the last sentence of the statement."
  },
  {
   "property": "C94",
   "status": "proved",
   "theorems": [
    "Bp.c94_combinations",
    "Bp.c94_algebraic",
    "Bp.c94_claim_point",
    "Bp.c94_sound",
    "Bp.c94_game",
    "Bp.c94_unlogged"
   ],
   "note": "c94_unlogged proves the last sentence of the statement. c94_algebraic is the game with the generators of the code instead of generators without relations."
  },
  {
   "property": "C95",
   "status": "proved",
   "theorems": [
    "Bp.c95_padded",
    "Bp.c95_binding",
    "Bp.c95_sound",
    "Bp.c95_not_short"
   ],
   "note": "c95_not_short proves the last sentence of the statement."
  },
  {
   "property": "C96",
   "status": "proved",
   "theorems": [
    "Bp.c96_same_root",
    "Bp.c96_contents",
    "Bp.c96_read_shallower"
   ],
   "note": "c96_same_root and c96_contents are the two directions; c96_read_shallower is the third sentence."
  },
  {
   "property": "C97",
   "status": "proved",
   "theorems": [
    "Bp.c97_one_root",
    "Bp.c97_stale",
    "Bp.c97_refresh",
    "Bp.c97_one_node"
   ],
   "note": "c97_one_root and c97_stale are the first sentence, c97_refresh and c97_one_node the second."
  },
  {
   "property": "C98",
   "status": "proved",
   "theorems": [
    "Bp.c98_prove",
    "Bp.c98_verify",
    "Bp.c98_enough",
    "Bp.c98_gen",
    "Bp.c98_hamming",
    "Bp.c98_randomizer",
    "Bp.c98_check",
    "Bp.c98_enough_statements",
    "Bp.c98_enough_check",
    "Bp.c98_travel",
    "Bp.c98_get_generators"
   ],
   "note": "c98_prove, c98_gen, c98_hamming, c98_randomizer are about proving, c98_verify, c98_check about verifying, c98_enough* say what too short means, c98_travel and c98_get_generators are the last sentence."
  },
  {
   "property": "C99",
   "status": "proved",
   "theorems": [
    "Bp.c99_prove",
    "Bp.c99_verify",
    "Bp.c99_statements",
    "Bp.c99_check",
    "Bp.c99_proof"
   ],
   "note": "c99_prove and c99_verify are about all circuits, c99_proof about the proving functions, c99_check and c99_statements about the verifying functions."
  },
  {
   "property": "C100",
   "status": "proved",
   "theorems": [
    "Bp.c100_linear",
    "Bp.c100_game",
    "Bp.c100_commit",
    "Bp.c100_member",
    "Bp.c100_balance"
   ],
   "note": "c100_linear (rewinding) and c100_game (random oracle) are the assignment, c100_commit the holder's side, c100_member an instance, c100_balance is about payments."
  },
  {
   "property": "C101",
   "status": "proved",
   "theorems": [
    "Bp.c101_statics",
    "Bp.c101_sound_2",
    "Bp.c101_sound_4",
    "Bp.c101_end_to_end_2",
    "Bp.c101_end_to_end_4",
    "Bp.c101_convinced_2",
    "Bp.c101_convinced_4",
    "Bp.c101_narrow",
    "Bp.c101_plain",
    "Bp.c101_overlap",
    "Bp.c101_separation"
   ],
   "note": "c101_statics is what is allocated on both sides; c101_sound_2/4 and c101_convinced_2/4 are about acceptance, c101_end_to_end_2/4 about honest provers; c101_narrow and c101_plain compare with the plain functions; c101_separation says when two inputs give the same state and c101_overlap is the case in which inputs of different numbers do."
  },
  {
   "property": "C102",
   "status": "proved",
   "theorems": [
    "Bp.c102_audited_get",
    "Bp.c102_session",
    "Bp.c102_audited_honest",
    "Bp.c102_arrays",
    "Bp.c102_checked_session",
    "Bp.c102_checked_session_honest",
    "Bp.c102_get",
    "Bp.c102_update",
    "Bp.c102_check",
    "Bp.c102_checked",
    "Bp.c102_honest"
   ],
   "note": "c102_check and c102_checked are the careful client, c102_honest says that its checks succeed; c102_get and c102_update show what happens without them. c102_audited_get and c102_session are the other cure: a check of every answer, around a database that may be another one at every update; c102_audited_honest says that it does not disturb an honest one. c102_checked_session extends c102_checked to sessions of many updates, c102_checked_session_honest and c102_arrays say that its hypotheses are met by honest databases."
  },
  {
   "property": "C103",
   "status": "proved",
   "theorems": [
    "Bp.c103_believed",
    "Bp.c103_checked",
    "Bp.c103_audited",
    "Bp.c103_transparent",
    "Bp.c103_honest"
   ],
   "note": "c103_checked is soundness with a checked database from anywhere, c103_audited with checks put around any database, c103_transparent says that these change nothing for honest ones, c103_honest says that the crate's databases pass the check; c103_believed shows what happens without it."
  },
  {
   "property": "C104",
   "status": "proved",
   "theorems": [
    "Bp.c104_flow"
   ],
   "note": "c104_flow has all the steps of the crate's own test, for all inputs."
  },
  {
   "property": "C105",
   "status": "proved",
   "theorems": [
    "Bp.c105_alone",
    "Bp.c105_clients",
    "Bp.c105_guarded",
    "Bp.c105_malicious",
    "Bp.c105_guarded_complete",
    "Bp.c105_guarded_clients",
    "Bp.c105_inclusion"
   ],
   "note": "c105_alone ties the sequences of requests to the modelled functions, c105_clients is the theorem about schedules. c105_guarded and c105_malicious are about clients that check every answer (the check is not part of the crate), c105_guarded_complete and c105_guarded_clients say that the check does no harm. c105_inclusion joins c105_guarded with the part of C57 that holds (trees with at most as many positions as the field has elements)."
  },
  {
   "property": "C106",
   "status": "proved",
   "theorems": [
    "Bp.c106_linearizable",
    "Bp.c106_progress",
    "Bp.c106_lockfree"
   ],
   "note": "c106_linearizable is about every schedule; c106_progress says that a client that is left alone succeeds; c106_lockfree says that a client has to start again only if another one has succeeded in the meantime."
  }
 ]
}