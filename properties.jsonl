{"id": "C01", "title": "Linear-combination arithmetic means what it says", "statement": "For every assignment of field values to variables, the value of a LinearCombination built with +, -, unary -, +=, scalar multiplication, From<Variable>, From<FieldElement>, Variable/FieldElement mixed operators and FromIterator equals the same arithmetic performed on the values of the operands (with Variable::One() worth 1).", "quantifier": "all linear combinations, all variables, all scalars, all assignments", "why_tests_cant": "the operators are used to build every constraint; a sign or coefficient slip shows only for particular operand shapes and assignments, and there are unboundedly many of both", "anchors": ["src/r1cs/linear_combination.rs: Add, Sub, Neg, Mul, AddAssign, From, FromIterator impls"]}
{"id": "C02", "title": "simplify() never changes the meaning of a linear combination", "statement": "LinearCombination::simplify returns a combination with the same value under every assignment, in which each variable occurs at most once and exactly the variables of the input occur, whatever order the HashMap happens to iterate in.", "quantifier": "all linear combinations, all assignments, all HashMap iteration orders", "why_tests_cant": "HashMap order is randomised per process, so a test sees one order; the claim is for every order and every multiset of repeated terms", "anchors": ["src/r1cs/linear_combination.rs: LinearCombination::simplify"]}
{"id": "C03", "title": "Every multiplication gate is consistent in every reachable prover state", "statement": "After any sequence of commit / multiply / allocate / allocate_single / allocate_multiplier / constrain / specify_randomized_constraints calls, in either phase, including failed ones, the prover's left, right and output wires have the same length and output = left * right at every gate, including a half-allocated one.", "quantifier": "all call histories in both phases", "why_tests_cant": "the half-assigned multiplier mutates earlier entries; only an invariant over all interleavings of the allocation calls rules out a stale output wire", "anchors": ["src/r1cs/prover.rs: multiply, allocate, allocate_multiplier, allocate_single, _allocate_vars"]}
{"id": "C04", "title": "Prover and verifier build the same circuit", "statement": "When the same gadget code (same calls, verifier without assignments) is run against a Prover and a Verifier that are in step, both return the same Variables, end with the same number of multipliers and the same pending state, and hold the same constraints up to the order of terms inside a constraint.", "quantifier": "all gadget programs that differ only in assignments, all starting states in step, all HashMap orders on either side", "why_tests_cant": "a test compares one circuit; a divergence in variable numbering for some call pattern silently makes proofs unverifiable or proves another statement", "anchors": ["src/r1cs/prover.rs: impl ConstraintSystem for Prover", "src/r1cs/verifier.rs: impl ConstraintSystem for Verifier"]}
{"id": "C05", "title": "multiply() constrains its output to the product of its inputs", "statement": "For every constraint system history, after multiply(l, r) returned (a, b, o): every assignment that satisfies the gate relation and the verifier's constraints gives o the value of l times the value of r; and the prover's own assignment satisfies the constraints multiply added.", "quantifier": "all linear combinations, all histories, all satisfying assignments", "why_tests_cant": "soundness is a statement about all assignments a malicious prover might choose, not about the honest run a test performs", "anchors": ["src/r1cs/prover.rs: multiply", "src/r1cs/verifier.rs: multiply"]}
{"id": "C06", "title": "Variables handed out are always fresh and allocate() pairs them up", "statement": "Successive allocate calls return left wire then right wire of the same new multiplier, whatever multiply / allocate_multiplier calls come in between; no call ever returns a Variable that was returned before; a missing assignment on the prover is reported as MissingAssignment and changes nothing.", "quantifier": "all histories of allocation calls on prover and verifier", "why_tests_cant": "aliasing needs a particular interleaving of single and paired allocation; tests exercise one or two orders", "anchors": ["src/r1cs/prover.rs: allocate, allocate_single, allocate_multiplier", "src/r1cs/verifier.rs: allocate, allocate_single, _allocate_vars"]}
{"id": "C07", "title": "The value of an expression over issued variables never changes later", "statement": "If a linear combination mentions only variables already returned to the caller (and committed values), Prover::evaluate_lc gives the same value after any further sequence of constraint-system calls, in both phases; the verifier's evaluate_lc is always None.", "quantifier": "all linear combinations over issued variables, all later histories", "why_tests_cant": "the prover overwrites the right/output wire of a pending gate; that this is never observable through issued variables needs an invariant over histories", "anchors": ["src/r1cs/prover.rs: evaluate_lc, eval, allocate", "src/r1cs/verifier.rs: evaluate_lc"]}
{"id": "C08", "title": "Randomized constraints cannot rewrite the first phase", "statement": "Callbacks registered with specify_randomized_constraints run exactly once, in registration order, after the first-phase wires are committed, and nothing a callback does changes any first-phase wire value, any commitment, or removes a constraint.", "quantifier": "all callback lists and all callback programs", "why_tests_cant": "the second phase shares the mutable wire vectors with the first; tests in the repository have no randomized constraints at all", "anchors": ["src/r1cs/prover.rs: create_randomized_constraints, specify_randomized_constraints", "src/r1cs/verifier.rs: create_randomized_constraints"]}
{"id": "C09", "title": "Challenges are bound to everything sent before them", "statement": "Each challenge drawn by prove and verify is the oracle applied to the complete ordered log of what came before: transcript label, r1cs domain separator, all commitments V, their number m, A_I1/A_O1/S1, phase separator and callback challenges, A_I2/A_O2/S2 (before y,z), T_1..T_6 (before u,x), t_x, t_x_blinding, e_blinding (before w), n and each L/R pair (before that round's u); the log determines every one of these items.", "quantifier": "all proofs, all circuits, all transcripts", "why_tests_cant": "Fiat-Shamir omissions are invisible to any honest prove/verify test", "anchors": ["src/transcript.rs: TranscriptProtocol", "src/r1cs/prover.rs: prove", "src/r1cs/verifier.rs: verify", "src/ipp.rs: create_ipp, verification_scalars"]}
{"id": "C10", "title": "Flattening constraints with z is exact", "statement": "For every z, the flattened weights satisfy <wL,aL>+<wR,aR>+<wO,aO> - <wV,v> - wc = sum over constraints q of z^(q+1) times the value of constraint q, for every assignment; the prover's and the verifier's weight vectors agree whenever their constraints agree up to term order.", "quantifier": "all constraint lists, all assignments, all z", "why_tests_cant": "index and sign errors in the accumulation appear only for particular combinations of variable kinds and repeated variables", "anchors": ["src/r1cs/prover.rs: flattened_constraints", "src/r1cs/verifier.rs: flattened_constraints"]}
{"id": "C11", "title": "A violated constraint survives flattening for all but few z", "statement": "If an assignment violates at least one of Q constraints, then the flattened equation holds for at most Q values of z.", "quantifier": "all constraint lists and assignments with at least one violated constraint, all z", "why_tests_cant": "it is a counting statement over the whole field", "anchors": ["src/r1cs/verifier.rs: flattened_constraints"]}
{"id": "C12", "title": "Vector-polynomial inner products are correct for every evaluation point", "statement": "VecPoly1::inner_product (Karatsuba) and VecPoly3::special_inner_product return the coefficients of t(X) = <l(X), r(X)>: evaluating them at any x equals the inner product of the evaluated vectors; for the special product this uses exactly lhs.0 = 0 and rhs.2 = 0, and fails without them.", "quantifier": "all vector polynomials of equal length, all evaluation points", "why_tests_cant": "polynomial identities must hold at the random challenge, which no finite set of test points covers", "anchors": ["src/utils/vector_poly.rs: VecPoly1::inner_product, VecPoly3::special_inner_product, eval"]}
{"id": "C13", "title": "Inner-product argument is complete", "statement": "For every power-of-two length, all vectors, factors and generators, and every transcript whose round challenges are non-zero, the proof made by create_ipp is accepted by verify_ipp for P = <a.G_factors, G> + <b.H_factors, H> + <a,b> Q, and both sides leave the transcript in the same state.", "quantifier": "all lengths 2^k, all vectors, factors, generators, all oracles with non-zero round challenges", "why_tests_cant": "the recursion depth and vectors are unbounded; tests use n=4 and n=8", "anchors": ["src/ipp.rs: IPP::create_ipp, IPP::verify_ipp, IPP::verification_scalars"]}
{"id": "C14", "title": "Verification scalars are the folded-generator coefficients", "statement": "verification_scalars returns the squares and inverse squares of the round challenges in order, and s with s[i] = product over rounds of u or 1/u by the bits of i; reversing s inverts it elementwise, and s are exactly the coefficients with which repeated folding combines the generators.", "quantifier": "all numbers of rounds (below 32), all non-zero challenges, all indices", "why_tests_cant": "closed form for all i and all lg n; the implementation uses bit tricks (leading_zeros)", "anchors": ["src/ipp.rs: IPP::verification_scalars"]}
{"id": "C15", "title": "Malformed inner-product proofs are rejected by length", "statement": "verification_scalars returns VerificationError when the number of L points is 32 or more or does not match n; for well-sized L and R it succeeds.", "quantifier": "all n, all L and R vectors", "why_tests_cant": "boundary at 32 rounds and arbitrary attacker supplied lengths", "anchors": ["src/ipp.rs: IPP::verification_scalars"]}
{"id": "C16", "title": "Inner-product argument is sound (special soundness)", "statement": "If, for one (G,H,P,Q) with no linear relation between the generators, a prover can answer four round challenges with pairwise different squares at each node of the challenge tree so that verify_ipp's equation holds on every path, then P = <a,G> + <b,H> + <a,b>Q for some a, b.", "quantifier": "all lengths 2^k, all trees of accepting transcripts, all adversarial L, R, a, b", "why_tests_cant": "it quantifies over all malicious provers", "anchors": ["src/ipp.rs: IPP::verify_ipp"]}
{"id": "C17", "title": "R1CS proofs are complete", "statement": "If the prover's assignment satisfies all constraints (including those added by randomized callbacks), enough generators are supplied, prover and verifier ran matching gadget code on the commitments returned by commit, and the drawn y and inner-product challenges are non-zero, then prove returns a proof and verify accepts it, for all prover randomness and every verifier batching scalar.", "quantifier": "all circuits (one- and two-phase), all satisfying witnesses, all randomness, all oracles with non-zero y and round challenges, all circuit sizes", "why_tests_cant": "the repository tests a handful of fixed circuits; padding, two phases and odd sizes are untested", "anchors": ["src/r1cs/prover.rs: prove", "src/r1cs/verifier.rs: verify"]}
{"id": "C18", "title": "An honest run on a false statement is rejected except for unlucky challenges", "statement": "Running prove on an assignment that violates some constraint and verifying the result succeeds exactly when r * x^2 * (sum_q z^(q+1) * value of constraint q) = 0 (g being non-zero); hence it is rejected for every non-zero r and x and all but at most Q values of z.", "quantifier": "all circuits, all non-satisfying witnesses, all randomness and challenges", "why_tests_cant": "tests check that good proofs pass; that bad ones fail for all witnesses and challenges is a universal statement", "anchors": ["src/r1cs/prover.rs: prove", "src/r1cs/verifier.rs: verify"]}
{"id": "C19", "title": "Too few generators are reported, not proved over", "statement": "prove returns InvalidGeneratorsLength when G is shorter than the padded number of multipliers (first-phase or total), verify likewise; with at least that many G and H generators neither reports it. A short H vector is not checked and panics instead.", "quantifier": "all circuit sizes and all generator vectors", "why_tests_cant": "boundary at the next power of two for every size", "anchors": ["src/r1cs/prover.rs: prove", "src/r1cs/verifier.rs: verify"]}
{"id": "C20", "title": "Batching with r loses nothing", "statement": "The verifier's single multi-exponentiation is zero for two different r only if both the polynomial-commitment equation and the inner-product equation hold separately; if one of them fails, at most one r makes verify accept.", "quantifier": "all proofs, all circuits, all challenges, all r", "why_tests_cant": "a counting statement over the field for adversarial proofs", "anchors": ["src/r1cs/verifier.rs: verify"]}
{"id": "C21", "title": "R1CS proofs are sound (special soundness)", "statement": "With generators that satisfy no linear relation, if for fixed phase-one and phase-two commitments a prover can answer sufficiently many y, z, u, x, w, r and inner-product challenges so that the verifier's equation holds each time, then there are wire values, whose first-phase part is determined by A_I1/A_O1 and second-phase part by A_I2/A_O2, that satisfy every multiplication gate and every constraint with the committed values.", "quantifier": "all circuits, all adversarial provers answering a full challenge tree", "why_tests_cant": "quantifies over all malicious provers", "anchors": ["src/r1cs/verifier.rs: verify", "src/ipp.rs: verify_ipp"]}
{"id": "C22", "title": "R1CS proofs are perfectly zero-knowledge for honest challenges", "statement": "For any two satisfying witnesses of the same circuit with the same commitments, and any fixed challenges with x, y non-zero, there is a bijection of the prover's random coins that makes prove output exactly the same proof; so the proof distribution does not depend on the witness.", "quantifier": "all circuits, all pairs of witnesses, all challenges with x,y non-zero, all coins", "why_tests_cant": "a statement about the distribution over all random coins", "anchors": ["src/r1cs/prover.rs: prove"]}
{"id": "C23", "title": "commit() is a homomorphic, binding and hiding Pedersen commitment and numbers variables in order", "statement": "Prover::commit returns v*g + blinding*h, appends exactly that point to the transcript and returns Committed(i) with i counting previous commits; Verifier::commit numbers the same way; commitments to equal values with h generating the group can be re-opened to any value by a unique blinding (hiding), and two different openings yield a relation between g and h (binding).", "quantifier": "all values, blindings, histories", "why_tests_cant": "universal over all openings", "anchors": ["src/r1cs/prover.rs: commit", "src/r1cs/verifier.rs: commit"]}
{"id": "C24", "title": "bit_gadget accepts exactly bits", "statement": "Every satisfying assignment of bit_gadget gives the variable the value 0 or 1; and with assignment 0 or 1 equal to the variable's value the prover's constraints are satisfied.", "quantifier": "all assignments, all histories before the gadget", "why_tests_cant": "soundness ranges over all malicious assignments", "anchors": ["src/r1cs/gadgets/helper_constraints/bit.rs: bit_gadget"]}
{"id": "C25", "title": "positive_no_gadget proves v in [0, 2^n)", "statement": "Every satisfying assignment makes v the field image of an integer below 2^n; conversely a v whose representative is below 2^n is accepted.", "quantifier": "all n, all values, all satisfying assignments", "why_tests_cant": "malicious wire values; arbitrary bit size", "anchors": ["src/r1cs/gadgets/helper_constraints/positive_no.rs: positive_no_gadget"]}
{"id": "C26", "title": "Bound check proves lower <= v <= upper", "statement": "For every bit size n with 2^(n+1) at most the field order, every satisfying assignment of the system built by verify_bounded_num has committed value v equal to an integer in [lower, upper]; the honest prover succeeds for every value in the interval with upper - lower < 2^n. Without the size condition the claim is false.", "quantifier": "all lower, upper, v (u64), all n, all satisfying assignments", "why_tests_cant": "wrap-around modulo the field order occurs only for huge parameters and adversarial witnesses", "anchors": ["src/r1cs/gadgets/bound_check.rs: bound_check_gadget, prove_bounded_num, verify_bounded_num, gen_proof_of_bounded_num, verify_proof_of_bounded_num"]}
{"id": "C27", "title": "Non-zero gadget proves v != 0", "statement": "Every satisfying assignment of the non-zero statement has v different from 0; the honest prover succeeds for every non-zero value.", "quantifier": "all values and satisfying assignments", "why_tests_cant": "soundness over all witnesses", "anchors": ["src/r1cs/gadgets/non_zero.rs: prove_non_zero_val, verify_non_zero_val", "src/r1cs/gadgets/helper_constraints/non_zero.rs: is_nonzero_gadget"]}
{"id": "C28", "title": "Set membership proves v in set", "statement": "Every satisfying assignment has v equal to some element of the public set (and the empty set is unsatisfiable); the honest prover succeeds for every member.", "quantifier": "all sets (any size, duplicates), all values, all satisfying assignments", "why_tests_cant": "all set sizes and malicious differences", "anchors": ["src/r1cs/gadgets/set_membership.rs: set_membership_gadget, prove_set_membership, verify_set_membership"]}
{"id": "C29", "title": "Alternative (bitmap) set membership proves v in set", "statement": "Every satisfying assignment of the bitmap variant has v equal to some element of the public set; the honest prover succeeds for every value that occurs exactly once in the set.", "quantifier": "all sets, all values, all satisfying assignments", "why_tests_cant": "soundness over malicious bitmaps", "anchors": ["src/r1cs/gadgets/set_membership_alt.rs: vector_product_gadget, prove_set_membership_alt, verify_set_membership_alt"]}
{"id": "C30", "title": "Set non-membership proves v not in set", "statement": "Every satisfying assignment has v different from every element of the public set; the honest prover succeeds for every non-member.", "quantifier": "all sets, all values, all satisfying assignments", "why_tests_cant": "soundness over malicious inverses", "anchors": ["src/r1cs/gadgets/set_non_membership.rs: set_non_membership_gadget, prove_set_non_membership, verify_set_non_membership"]}
{"id": "C31", "title": "Hamming distance gadget proves the number of differing positions", "statement": "Every satisfying assignment of the hamming-distance statement has committed vector differing from the public vector in exactly count_different positions; the honest prover succeeds when the count is right.", "quantifier": "all vectors, counts, satisfying assignments", "why_tests_cant": "soundness over malicious witnesses", "anchors": ["src/r1cs/gadgets/hamming_distance.rs: hamming_distance_gadget, prove_hamming_distance, verify_hamming_distance"]}
{"id": "C32", "title": "MiMC gadget proves knowledge of a MiMC preimage", "statement": "Every satisfying assignment of mimc_gadget has mimc(left, right) equal to the public image, and the honest prover succeeds for the true image; for every number of rounds and all constants.", "quantifier": "all rounds, constants, inputs, satisfying assignments", "why_tests_cant": "arbitrary round numbers and malicious wires", "anchors": ["src/r1cs/gadgets/helper_constraints/mimc.rs: mimc, mimc_gadget, enforce_mimc_2_inputs", "src/r1cs/gadgets/mimc.rs"]}
{"id": "C33", "title": "Poseidon constraints compute the Poseidon permutation (cube and quint S-box)", "statement": "For every parameter set of any width and round numbers, every satisfying assignment gives the constraint outputs the values Poseidon_permutation computes from the input values, and the honest prover's run satisfies the constraints; for SboxType::Cube and SboxType::Quint.", "quantifier": "all parameters, inputs, satisfying assignments, HashMap orders", "why_tests_cant": "64 rounds with simplification between rounds; malicious wires", "anchors": ["src/r1cs/gadgets/helper_constraints/poseidon.rs: Poseidon_permutation, Poseidon_permutation_constraints, SboxType"]}
{"id": "C34", "title": "Poseidon constraints with the inverse S-box compute the Poseidon permutation", "statement": "The same for SboxType::Inverse.", "quantifier": "all parameters, inputs, satisfying assignments", "why_tests_cant": "malicious wires", "anchors": ["src/r1cs/gadgets/helper_constraints/poseidon.rs: synthesize_inverse_sbox, apply_sbox"]}
{"id": "C35", "title": "Poseidon hash gadgets prove knowledge of a hash preimage", "statement": "For the 2:1, 4:1 and 8:1 hash statements, every satisfying assignment whose static zero commitment opens to 0 has Poseidon_hash_k(inputs) equal to the public output, and the honest prover succeeds; the static commitment added by prover and verifier is the same point and opens to 0 with blinding 0.", "quantifier": "all parameters of the right width, all inputs, satisfying assignments (cube, quint)", "why_tests_cant": "malicious wires, all parameters", "anchors": ["src/r1cs/gadgets/helper_constraints/poseidon.rs: Poseidon_hash_2/4/8, *_constraints, *_gadget", "src/r1cs/gadgets/poseidon_hash.rs"]}
{"id": "C36", "title": "4-ary sparse Merkle tree behaves like a map", "statement": "After any sequence of updates on a fresh tree of any depth, get(idx) returns the value last written to an index with the same low 2*depth bits, or 0 if none, without error, provided no two different child lists hashed during the history collide.", "quantifier": "all depths, all update sequences, all indices, all hash parameters without collision in the history", "why_tests_cant": "arbitrarily long histories and all indices", "anchors": ["src/r1cs/gadgets/helper_constraints/sparse_merkle_tree_4_ary.rs: VanillaSparseMerkleTree_4::new, update, get"]}
{"id": "C37", "title": "8-ary sparse Merkle tree behaves like a map", "statement": "The same for the 8-ary tree (low 3*depth bits).", "quantifier": "all depths, all update sequences, all indices", "why_tests_cant": "arbitrarily long histories and all indices", "anchors": ["src/r1cs/gadgets/helper_constraints/sparse_merkle_tree_8_ary.rs: VanillaSparseMerkleTree_8::new, update, get"]}
{"id": "C38", "title": "Merkle proofs verify exactly for what is stored", "statement": "The proof produced by get verifies against the root; and any proof that verifies for (idx, val) against the root of a reachable tree implies val is the stored value at idx unless the hash collides on one of the inputs involved (both arities).", "quantifier": "all reachable trees, all adversarial proofs of the right length", "why_tests_cant": "adversarial proofs are unbounded", "anchors": ["src/r1cs/gadgets/helper_constraints/sparse_merkle_tree_4_ary.rs: verify_proof, get", "src/r1cs/gadgets/helper_constraints/sparse_merkle_tree_8_ary.rs: verify_proof, get"]}
{"id": "C39", "title": "Tree roots depend only on contents; old roots stay readable", "statement": "Two update histories that leave the same contents give the same root (so updates to different leaves commute and re-writing a value restores the root), and after further updates the contents under an earlier root can still be read from the same database.", "quantifier": "all histories", "why_tests_cant": "universal over histories and orders", "anchors": ["src/r1cs/gadgets/helper_constraints/sparse_merkle_tree_4_ary.rs: update", "src/r1cs/gadgets/helper_constraints/sparse_merkle_tree_8_ary.rs: update"]}
{"id": "C40", "title": "Leaf index to path is the base-4 / base-8 expansion", "statement": "get_base_4_repr / get_base_8_repr return exactly num_digits digits, most significant first, whose value is the scalar modulo 4^num_digits / 8^num_digits, for every scalar and digit count that fits MODBYTES, and panic otherwise.", "quantifier": "all scalars and digit counts", "why_tests_cant": "all field elements", "anchors": ["src/r1cs/gadgets/helper_constraints/sparse_merkle_tree_4_ary.rs: get_base_4_repr", "src/r1cs/gadgets/helper_constraints/sparse_merkle_tree_8_ary.rs: get_base_8_repr", "src/r1cs/gadgets/helper_constraints/mod.rs: get_byte_size, get_bit_count"]}
{"id": "C41", "title": "4-ary Merkle membership gadget proves leaf inclusion", "statement": "Every satisfying assignment of the 4-ary inclusion statement (with 3*depth proof nodes, static opening to 0, cube/quint S-box) has a base-4 path whose value is the committed index and for which hashing the committed leaf with the committed siblings gives the public root; the honest prover succeeds with the proof returned by get.", "quantifier": "all depths, indices, leaves, proofs, satisfying assignments", "why_tests_cant": "malicious wires; depth not a multiple of 4", "anchors": ["src/r1cs/gadgets/helper_constraints/sparse_merkle_tree_4_ary.rs: vanilla_merkle_merkle_tree_4_verif_gadget", "src/r1cs/gadgets/sparse_merkle_tree_4_ary.rs"]}
{"id": "C42", "title": "8-ary Merkle membership gadget proves leaf inclusion", "statement": "The same for the 8-ary gadget with 7*depth proof nodes.", "quantifier": "all depths, indices, leaves, proofs, satisfying assignments", "why_tests_cant": "malicious wires", "anchors": ["src/r1cs/gadgets/helper_constraints/sparse_merkle_tree_8_ary.rs: vanilla_merkle_merkle_tree_8_verif_gadget", "src/r1cs/gadgets/sparse_merkle_tree_8_ary.rs", "src/r1cs/gadgets/randomizer.rs"]}
{"id": "C43", "title": "Merkle inclusion verification enforces the tree depth", "statement": "verify_leaf_inclusion_4_ary_merkle_tree / _8_ary accept only proofs about a leaf at exactly tree_depth levels below the root.", "quantifier": "all commitment vectors supplied by the prover", "why_tests_cant": "the number of commitments is attacker controlled", "anchors": ["src/r1cs/gadgets/sparse_merkle_tree_4_ary.rs: verify_leaf_inclusion_4_ary_merkle_tree", "src/r1cs/gadgets/sparse_merkle_tree_8_ary.rs: verify_leaf_inclusion_8_ary_merkle_tree"]}
{"id": "C44", "title": "The in-memory hash database is a last-write-wins map", "statement": "InMemoryHashDb.get returns the value of the last insert for that key and HashNotFoundInDB carrying the key when there is none.", "quantifier": "all insert sequences and keys", "why_tests_cant": "all histories", "anchors": ["src/utils/hash_db.rs: InMemoryHashDb"]}
{"id": "C45", "title": "get_generators gives a stable prefix of distinct messages", "statement": "get_generators(prefix, n) is the first n entries of get_generators(prefix, m) for n <= m; the hashed messages for different (prefix, index) pairs differ when no prefix ends in a decimal digit (and may coincide otherwise).", "quantifier": "all prefixes, all n, m", "why_tests_cant": "all strings and sizes", "anchors": ["src/utils/mod.rs: get_generators"]}
{"id": "C46", "title": "Randomizer gadget proves the two trees differ only at the listed leaves", "statement": "Every satisfying assignment of randomizer_gadget (cube/quint S-box, static opening to 0) has each original value at its index under the hidden original root, and writing the original values into the new tree at the listed indices yields exactly the original root.", "quantifier": "all depths, index lists, trees, satisfying assignments", "why_tests_cant": "malicious wires; overlapping paths", "anchors": ["src/r1cs/gadgets/randomizer.rs: randomizer_gadget, verify_proof_for_randomizer"]}
{"id": "C47", "title": "Index selection and data randomization stay in range", "statement": "get_indices_to_modify returns at most count_modified indices, all below data_size; get_randomized_data changes exactly the listed positions (to the hash of the old value), keeps all others, and returns the old values.", "quantifier": "all nonces, sizes, counts, hash outputs", "why_tests_cant": "all hash outputs", "anchors": ["src/r1cs/gadgets/randomizer.rs: get_indices_to_modify, get_randomized_data"]}
{"id": "C48", "title": "Missing or wrongly sized randomness is refused before anything is committed", "statement": "Each prove_* entry point with neither randomness nor rng returns a GadgetError and leaves the prover untouched; entry points taking vectors return GadgetError on a wrong length without committing anything.", "quantifier": "all prove_* functions, all inputs", "why_tests_cant": "all argument shapes", "anchors": ["src/errors.rs: check_for_randomness_or_rng, check_for_input_and_randomness_length", "src/r1cs/gadgets/*.rs: prove_*"]}
{"id": "C49", "title": "verify never panics on an attacker-supplied proof", "statement": "For a verifier in a well-formed state with enough G and H generators, verify returns Ok or Err (never panics) for every R1CSProof value, including ones with wrong numbers of L and R points.", "quantifier": "all proofs", "why_tests_cant": "all attacker supplied values", "anchors": ["src/r1cs/verifier.rs: verify", "src/ipp.rs: verification_scalars"]}
{"id": "C50", "title": "Gadgets compose in one proof", "statement": "Running several gadgets in one prover and the corresponding verifier functions in the same order in one verifier gives: completeness for the conjunction, and every satisfying assignment satisfies every gadget's statement.", "quantifier": "all sequences of gadgets", "why_tests_cant": "all combinations and orders", "anchors": ["tests/multiple_constraint_systems.rs", "src/r1cs/constraint_system.rs: ConstraintSystem"]}
{"id": "C51", "title": "The Poseidon permutation is a bijection with the shipped parameters", "statement": "With SboxType::Quint or Inverse and the shipped MDS matrices on the BLS12-381 scalar field, Poseidon_permutation is injective on states of the right width for every round-key list; the MDS matrices are the stated Cauchy matrices.", "quantifier": "all states, all round keys, widths 3, 5, 9", "why_tests_cant": "all states", "anchors": ["src/r1cs/gadgets/helper_constraints/poseidon.rs: Poseidon_permutation, gen_MDS_matrix", "src/r1cs/gadgets/poseidon_constants.rs"]}
{"id": "C52", "title": "The cube S-box is a permutation on the default curve", "statement": "With SboxType::Cube on the default BLS12-381 scalar field, the Poseidon permutation is injective.", "quantifier": "all states", "why_tests_cant": "all states", "anchors": ["src/r1cs/gadgets/helper_constraints/poseidon.rs: SboxType::Cube", "Cargo.toml: default feature"]}
{"id": "C53", "title": "Half-allocated gates do not break gadgets", "statement": "Gadgets that use allocate_single work from every reachable constraint-system state, including one with a pending half-allocated multiplier.", "quantifier": "all reachable states", "why_tests_cant": "depends on the history before the gadget call", "anchors": ["src/r1cs/gadgets/hamming_distance.rs: hamming_distance_gadget", "src/r1cs/gadgets/helper_constraints/poseidon.rs: synthesize_inverse_sbox"]}
{"id": "C54", "title": "gen_challenges chains its challenges", "statement": "gen_challenges returns max(1, n) challenges; challenge j is the hash of the caller's state followed by the encodings of all inputs and of the generator times every earlier challenge; asking for more challenges does not change the first ones; the state left in the caller's buffer is everything hashed last.", "quantifier": "all inputs, states and counts", "why_tests_cant": "all inputs", "anchors": ["src/utils/mod.rs: gen_challenges"]}
{"id": "C55", "title": "What the verifier accepts is true of the committed values", "statement": "If a prover convinces (under rewinding with enough challenges) the verifier that runs one of the verify_* statements, then the statement is true of the values the given points commit to: a bounded number lies between the bounds, a non-zero value is not zero, a set member is in the set, a non-member is outside it, preimages hash to the image, a leaf is at its index below the root, the randomizer's originals are the tree's. For range, non-zero and set statements the point is thereby also shown to be a commitment to such a value. Otherwise a non-trivial linear relation between the generators is found.", "quantifier": "all statements, commitments, generators, provers and challenge trees", "why_tests_cant": "ranges over all adversarial provers", "anchors": ["src/r1cs/verifier.rs: Verifier::verify", "src/r1cs/gadgets/bound_check.rs: verify_bounded_num", "src/r1cs/gadgets/non_zero.rs: verify_non_zero_val", "src/r1cs/gadgets/set_membership.rs: verify_set_membership", "src/r1cs/gadgets/set_non_membership.rs: verify_set_non_membership", "src/r1cs/gadgets/mimc.rs", "src/r1cs/gadgets/poseidon_hash.rs", "src/r1cs/gadgets/sparse_merkle_tree_4_ary.rs", "src/r1cs/gadgets/sparse_merkle_tree_8_ary.rs", "src/r1cs/gadgets/randomizer.rs"]}
{"id": "C56", "title": "A proof reveals nothing but the truth of the statement", "statement": "For challenges that do not depend on the messages (an honest verifier, or a programmed oracle) there is a simulator that is given only the circuit, the commitments and the generators, never the witness, whose output (proof and final transcript) has exactly the distribution of Prover::prove with any satisfying witness; and the verifier accepts whatever the simulator makes, witness or not.", "quantifier": "all circuits (one or two phases), commitments, satisfying witnesses, generators with h generating the group, and challenges with x and y non-zero", "why_tests_cant": "it compares distributions over all randomness of the prover", "anchors": ["src/r1cs/prover.rs: Prover::prove", "src/r1cs/verifier.rs: Verifier::verify", "src/ipp.rs: create_ipp"]}
{"id": "C57", "title": "An inclusion statement speaks about the value the tree holds at that index", "statement": "For every tree built with new and update, if verify_leaf_inclusion_4_ary_merkle_tree (or the 8-ary one) is given the tree's root, the tree's depth and commitments to a leaf, an index and depth complete levels of nodes, then its statement implies that the committed leaf is what get returns for the committed index (unless a hash collision is exhibited); in particular nobody can prove that a written position is empty.", "quantifier": "all supported depths, all update histories, all indices, all provers", "why_tests_cant": "ranges over all provers and over depths (up to 4*MODBYTES) that tests do not try", "anchors": ["src/r1cs/gadgets/sparse_merkle_tree_4_ary.rs: verify_leaf_inclusion_4_ary_merkle_tree", "src/r1cs/gadgets/sparse_merkle_tree_8_ary.rs: verify_leaf_inclusion_8_ary_merkle_tree", "src/r1cs/gadgets/helper_constraints/sparse_merkle_tree_4_ary.rs: vanilla_merkle_merkle_tree_4_verif_gadget, VanillaSparseMerkleTree_4", "src/r1cs/gadgets/helper_constraints/sparse_merkle_tree_8_ary.rs: vanilla_merkle_merkle_tree_8_verif_gadget, VanillaSparseMerkleTree_8"]}
{"id": "C58", "title": "The non-interactive proofs are sound in the random-oracle model", "statement": "There is a rule naming, for each challenge, a small set of bad answers (at most the padded number of gates, the number of constraints, or 7), fixed before the challenge is known by what has been appended to the transcript, such that whenever Verifier::verify accepts (for two values of its own random scalar), what it accepted is satisfiable by the committed values or one of the challenges of that very proof was a bad one. Consequently a prover that evaluates the transcript's challenge function Q times, on inputs of its choice, and only then chooses the commitments and a proof of a statement that is false of them, is accepted with probability at most ((Q+D)*B+1)/|F|, where D is the number of challenges of a proof.", "quantifier": "all circuits (one or two phases), commitments, proofs, oracles, adaptive provers and numbers of queries; generators without a linear relation", "why_tests_cant": "ranges over all adversarial provers and all oracles", "anchors": ["src/r1cs/verifier.rs: Verifier::verify, Verifier::verification_scalars", "src/transcript.rs: TranscriptProtocol", "src/ipp.rs: verification_scalars"]}
{"id": "C59", "title": "Soundness against algebraic provers, for whatever generators", "statement": "Let a prover ask the challenge function Q questions and then choose commitments and a proof, and make all the points in these as explicit combinations of the generators G_vec, H_vec, g, h, whatever points these are. Except with probability at most ((Q+D)*B+1)/|F| (D the number of challenges of a proof) the commitments, read as combinations, satisfy the statement (bounded number, non-zero, set membership and non-membership, MiMC and Poseidon preimage, Merkle inclusion, randomizer, or any circuit), or verification rejects or the prover holds a non-trivial combination of the generators that is the identity: the one the verifier's own final check gives when done with the combinations, or the difference of two combinations it used for one point. The verifier's run on the points is the run on the combinations, mapped.", "quantifier": "all fields, groups, generators (with or without relations), circuits, commitments, adaptive algebraic provers and numbers of queries", "why_tests_cant": "ranges over all adversarial provers; no test can refer to relations between generators that nobody knows", "anchors": ["src/r1cs/verifier.rs: Verifier::verify", "src/transcript.rs: TranscriptProtocol", "src/utils/mod.rs: get_generators"]}
{"id": "C60", "title": "A circuit for factors is sound, complete and end-to-end correct", "statement": "For a user circuit written directly with multiply and constrain (multiply two committed values, then multiply the product on with each further committed value, constrain the result to a public r): every assignment that satisfies what the verifier built has committed values whose product is r; the honest prover with factors of product r produces a proof that is accepted; with a wrong product there is no satisfying assignment.", "quantifier": "any number of factors (at least two), all factors, blindings, products, fields, groups and transcripts", "why_tests_cant": "the tests run 17*19 and 2*4*6 only; the claim ranges over all factors and numbers of factors and over all assignments of an adversarial prover", "anchors": ["tests/r1cs.rs: test_2_factors_r1cs, test_factor_r1cs", "src/r1cs/constraint_system.rs: ConstraintSystem::multiply, ConstraintSystem::constrain", "src/r1cs/prover.rs: Prover::prove", "src/r1cs/verifier.rs: Verifier::verify"]}
{"id": "C61", "title": "An accepted proof of several statements shows that all commitments can be opened to values satisfying all of them", "statement": "A verifier may check any list of the crate's statements (bound check, non-zero, set membership and non-membership, MiMC and Poseidon preimages, Merkle inclusion, randomized messages, factors) with one proof. A prover that convinces it can open every commitment of every statement as x*g + r*h, and the opened values satisfy each statement's claim. For the non-interactive proof, a prover that asks Q questions to the transcript oracle and then chooses the commitments and the proof is accepted without such openings only for a fraction ((Q + D) * B + 1) / |F| of the oracle's answers (or a linear relation between the generators is found).", "quantifier": "all lists of statements and public parameters, all commitments (in particular points that are not of the form x*g + r*h), all provers, fields, groups and numbers of questions", "why_tests_cant": "tests only combine honest provers for two fixed lists of statements; the claim is about every adversarial prover, including one that commits with points of unknown form", "anchors": ["tests/multiple_constraint_systems.rs", "tests/r1cs.rs", "src/r1cs/verifier.rs: Verifier::commit, Verifier::verify", "src/r1cs/gadgets/bound_check.rs: verify_bounded_num", "src/r1cs/gadgets/set_membership.rs", "src/r1cs/gadgets/set_non_membership.rs", "src/r1cs/gadgets/sparse_merkle_tree_4_ary.rs", "src/r1cs/gadgets/sparse_merkle_tree_8_ary.rs", "src/r1cs/gadgets/randomizer.rs"]}
{"id": "C62", "title": "An interactive prover that is accepted more often than the knowledge error can be rewound to a witness or a relation", "statement": "Let the verifier draw its challenges at random and let a prover answer them in any way, each message depending on the challenges so far. If it is accepted with probability more than (2^k + q + 7k + 14)/|F|, for a constraint system with q constraints and at most 2^k gates, then its answers contain a full tree of accepted proofs, from which a fixed formula computes values for all gates that satisfy the gates and constraints, or a non-trivial relation between the generators. The proof made by the library's own prover is such an interactive proof: each message depends only on the challenges drawn before it is sent; with a satisfied system it is accepted with probability at least (1 - 1/|F|)^(1+k).", "quantifier": "all interactive provers, constraint systems (also with randomized constraints), generators, commitments, fields and groups", "why_tests_cant": "ranges over all adversarial provers and is about probabilities over all challenges", "anchors": ["src/r1cs/verifier.rs: Verifier::verify", "src/r1cs/prover.rs: Prover::prove", "src/ipp.rs: IPP::create_ipp, IPP::verification_scalars", "src/transcript.rs: TranscriptProtocol::challenge_scalar"]}
{"id": "C63", "title": "Openings of the commitments are computed from a prover's answers", "statement": "From the answers of a prover that is accepted on a full tree of challenges, one computes by fixed linear formulas, whose coefficients depend only on the verifier's constraints, a value and a blinding for every commitment. Either one of an explicit finite list of scalar vectors is a non-trivial relation between the generators, or all gates and constraints can be satisfied and every commitment that the constraints determine is the Pedersen commitment to the computed value with the computed blinding, and satisfies them; for any list of the crate's statements in one proof these values satisfy the claims of all statements. This needs no assumption about the generators, and holds for interactive provers accepted with more than the knowledge error.", "quantifier": "all circuits (also with randomized constraints), lists of statements, provers, generators and commitments, fields and groups, including groups of prime order in which all generators are related", "why_tests_cant": "quantifies over all provers; in a group of prime order every commitment has openings to all values, so that only what can be computed from the prover's answers says anything", "anchors": ["src/r1cs/verifier.rs: Verifier::verify, Verifier::flattened_constraints", "src/r1cs/gadgets/*.rs: all verify_* functions", "tests/r1cs.rs: all circuits", "tests/multiple_constraint_systems.rs"]}
{"id": "C64", "title": "Trees that share one hash database do not disturb each other, and a crash in the middle of new or update loses nothing", "statement": "Any number of sparse Merkle trees of one kind, of any depths, are kept in one database; trees are created, tree objects copied and leaves updated in any order, and any number of calls of new and update stop after any number of their insertions into the database. Then no call fails, and each tree holds exactly what was written to it (or to its original before the copy): get returns this value with a proof that verifies against the tree's root, exactly as if the tree had a database of its own. An interrupted update leaves the tree as it was and can be repeated with the same result. With a database that has lost entries, get fails or returns the same value and proof. (Provided no two different child lists that occur have the same hash.)", "quantifier": "all sequences of calls on any number of trees, all crash points, all depths the path encoding allows, all initial databases, valid Poseidon parameters and prime fields", "why_tests_cant": "the interleavings of calls, the crash points and the contents are unbounded; the tests use one tree per database", "anchors": ["src/r1cs/gadgets/helper_constraints/sparse_merkle_tree_4_ary.rs: VanillaSparseMerkleTree_4::{new, update, get, verify_proof}", "src/r1cs/gadgets/helper_constraints/sparse_merkle_tree_8_ary.rs: VanillaSparseMerkleTree_8::{new, update, get, verify_proof}", "src/utils/hash_db.rs: HashDb"]}
{"id": "C65", "title": "The gates, constraints and commitments of every gadget have a closed form, which decides the generators needed, the size of the proof and how much a cheating prover can gain", "statement": "Every successful verifier call for one of the crate's statements (bound check, non-zero, set membership in both variants, set non-membership, hamming distance, MiMC, Poseidon with 2, 4 and 8 inputs, Merkle inclusion in both trees, leaf randomizer, product) adds a number of multiplication gates, constraints and commitments that depends only on the public parameters (set size, bit width, depth, rounds, S-box), never on the values, the commitments or the hash database; it leaves no half-allocated gate, and sizes of several statements in one proof add up. The prover's multiplier and constraint counts are the same. Verification reports too few generators exactly if the caller has fewer than the gates rounded up to a power of two; an accepted proof has 2 log2 of that many points beyond the 11 fixed ones; and the bounds on cheating provers (C61, C62) are functions of these numbers.", "quantifier": "all lists of statements with any public parameters, all commitments, proofs, generators, and all provers", "why_tests_cant": "the tests print the counts for single parameters (and use fixed numbers of generators); they cannot show the count for all set sizes, depths and rounds, nor that it is independent of the values", "anchors": ["src/r1cs/prover.rs: Prover::{num_constraints, num_multipliers, prove}", "src/r1cs/verifier.rs: Verifier::{multiply, allocate, allocate_multiplier, constrain, verify}", "src/r1cs/gadgets/*.rs: verify_*/gen_proof_* functions", "src/r1cs/gadgets/helper_constraints/*.rs: *_gadget functions", "src/r1cs/proof.rs: R1CSProof"]}
{"id": "C66", "title": "Proofs reveal nothing beyond the statement, however many are made and whatever challenges an observer computes", "statement": "Take anybody who may compute challenges from logs of their choice (a hash modelled as a random oracle), and who gets proofs of statements they choose one after the other, with the witnesses. They cannot tell the library's proofs from proofs made without any witness, when challenges are answered consistently, except with probability at most P(Q + P D + 2)/|F|, for Q questions and P proofs with at most D challenges each. Hence it hardly matters which of several witnesses is used; and somebody who sees randomly blinded commitments and any number of proofs about them hardly learns which values were committed to, among those for which the statements are true.", "quantifier": "all adaptive strategies (questions, choices of statements and witnesses, decision), all numbers of questions and proofs, all satisfied constraint systems without randomized constraints, over new transcripts and transcripts used for earlier proofs, all gadgets and lists of gadgets with honest provers, all coins and challenges", "why_tests_cant": "the claim compares probability distributions over all coins, challenges and strategies of an adversary; a test can only look at single proofs", "anchors": ["src/r1cs/prover.rs: Prover::{commit, prove}", "src/r1cs/proof.rs: R1CSProof", "src/transcript.rs: TranscriptProtocol::challenge_scalar", "src/r1cs/verifier.rs: Verifier::verify"]}
{"id": "C67", "title": "Several proofs can share one transcript, which ties them together", "statement": "A caller may make one proof after the other over the same transcript. Honest provers always succeed in this, and verifiers that check the proofs one after the other over the same transcript accept all of them (unless a challenge is zero) and end with the same transcript. The log of an accepted chain lists the label, then the commitments and messages of all proofs in order, and it determines all of them and their number, so proofs cannot be moved, dropped, added or exchanged without changing the later challenges. The only part of a proof that is not logged are the two final scalars of the inner-product argument: who finds two different pairs with which a proof is accepted has found a linear relation between the generators.", "quantifier": "all numbers and kinds of statements in the chain, all initial transcripts, coins, challenges, random scalars, generators; for the final scalars all constraint systems, also with randomized constraints", "why_tests_cant": "the chain may have any length and content, and that a log determines the proofs, or that no other final scalars exist, is a claim about all other possible proofs", "anchors": ["src/r1cs/prover.rs: Prover::{new, prove}", "src/r1cs/verifier.rs: Verifier::{new, verify}", "src/transcript.rs: TranscriptProtocol", "src/ipp.rs: IPP::verification_scalars"]}
{"id": "C68", "title": "A prover that is accepted noticeably often can be rewound efficiently", "statement": "There is an extractor that only runs the prover, with challenges of its choice, and sees whether the verifier accepts. Whatever the prover does and however often it is accepted, the expected number of runs is at most 252 (2^k + 1) (q + 1) 8^k, for a circuit with q constraints whose gates are padded to 2^k. It succeeds with at least the probability with which the prover is accepted, less (2^k + q + 7 k + 14) / |F|. Whenever it succeeds it has seen enough accepted answers to compute a witness for the statement, or a non-trivial relation between the generators.", "quantifier": "all interactive provers, statements and circuits (also with randomized constraints), generators and finite fields; the general form holds for all public-coin protocols with any number of draws", "why_tests_cant": "the expected number of runs is an average over all coins of the extractor and all challenges, for arbitrary provers", "anchors": ["src/r1cs/verifier.rs: Verifier::verify", "src/r1cs/prover.rs: Prover::prove", "src/ipp.rs: IPP"]}
{"id": "C69", "title": "Poseidon is a well-mixing bijection with the tables of every curve", "statement": "For each of the four curve features the parameters can be built exactly for the widths and numbers of rounds its tables cover. The linear layer spreads changes as far as is possible: two states that differ in d places differ after it in at least width + 1 - d places. The permutation with the quint or inverse S-box is a bijection. With the cube S-box it is not, for any of the curves. The matrices are the Cauchy matrices 1/(i + j + width) in the scalar field of the curve; this is false for bn254, whose tables were made for the field of another curve.", "quantifier": "all four curves, widths, numbers of rounds and pairs of states", "why_tests_cant": "the claims are about all pairs of states of 3 to 9 scalars of 252 to 256 bits; all square submatrices of the matrices are relevant", "anchors": ["src/r1cs/gadgets/helper_constraints/poseidon.rs: PoseidonParams::new, gen_MDS_matrix, gen_round_keys, Poseidon_permutation", "src/r1cs/gadgets/poseidon_constants.rs", "Cargo.toml: features"]}
{"id": "C70", "title": "Challenges made from hash bytes are as good as uniformly random ones", "statement": "A challenge is MODBYTES bytes of hash output, read as a number and reduced modulo the group order. If the bytes are uniformly random, every scalar is as likely as every other up to one part in the number of byte strings, and whatever depends on d challenges has the probability it has for uniform challenges, up to d times a bias known exactly. The soundness bounds for forgers and for rewinding, and the zero-knowledge bound, hold with challenges made in this way. For bls381, ed25519 and secp256k1 the bias is at most 2^-127; for bn254 this is false: it is more than one in a hundred, although no event becomes more likely by more than a factor 51/50 per challenge.", "quantifier": "all orders, numbers of bytes, numbers of challenges, events, forgers, interactive provers and distinguishers; all four curves", "why_tests_cant": "the claim is about the distribution of 256-bit scalars and about arbitrary adversaries; no number of samples shows or excludes a bias of 2^-127", "anchors": ["src/transcript.rs: TranscriptProtocol::challenge_scalar", "src/r1cs/prover.rs: Prover::prove", "src/r1cs/verifier.rs: Verifier::verify", "src/ipp.rs: IPP::create_ipp, IPP::verification_scalars", "Cargo.toml: features"]}
{"id": "C71", "title": "The bytes that are hashed determine what was proved, and adversaries may ask the hash any bytes", "statement": "The labelled, length-framed messages that the prover and the verifier hand to the transcript determine the sequence of typed events (labels, commitments, counts, proof elements, challenges): two verifications that succeed after the same operations on the hash are verifications of the same commitments over the same label, and of proofs that differ at most in the two final scalars; a challenge for one log is never a challenge for another one unless the hash has a collision. The soundness bound holds for algebraic provers that ask the hash arbitrary operations, and the zero-knowledge and witness-indistinguishability bounds for distinguishers that do so, with challenges made from the bytes the hash returns.", "quantifier": "all logs with fewer than 2^64 commitments and 2^64 padded gates, all injective fixed-length encodings of scalars and points, all hashes, all adversaries that ask any operations", "why_tests_cant": "the absence of ambiguous encodings is a claim about all pairs of logs, and the security bounds are claims about all adversaries", "anchors": ["src/transcript.rs: TranscriptProtocol for Transcript", "src/r1cs/prover.rs: Prover::prove", "src/r1cs/verifier.rs: Verifier::verify", "src/ipp.rs: IPP::create_ipp, IPP::verification_scalars"]}
{"id": "C72", "title": "Statements with randomized constraints are sound non-interactively", "statement": "When constraints are specified in a callback that receives challenges, an accepted proof means that the claim which the constraints enforce for all but few challenges holds of the committed values, except with a probability that grows linearly with the number of questions the prover asks the hash: the values were committed before the challenge was drawn. In particular an argument that two lists of commitments are shuffles of each other, built on this interface, accepts every shuffle and is accepted for others with at most that probability.", "quantifier": "all callbacks that draw a challenge and build constraints with it, all claims that they enforce for all but a bounded number of challenges, all adaptive provers, all numbers of questions; all list lengths and values for the shuffle", "why_tests_cant": "soundness is a claim about all provers and about the share of challenges for which they succeed; no test or client in the repository uses randomized constraints at all", "anchors": ["src/r1cs/constraint_system.rs: ConstraintSystem::specify_randomized_constraints, RandomizedConstraintSystem::challenge_scalar", "src/r1cs/prover.rs: Prover::create_randomized_constraints, RandomizingProver", "src/r1cs/verifier.rs: Verifier::create_randomized_constraints, RandomizingVerifier"]}
{"id": "C73", "title": "Proofs with randomized constraints are zero knowledge", "statement": "Proofs of statements whose constraints are partly specified in callbacks that draw challenges can be told from proofs made without the witness only with a probability of at most P * (Q + P * D + 2) / |F|, by somebody who asks the hash Q questions and gets P proofs with D challenges each; so the witnesses and the committed values stay secret. In particular a proof that one list of commitments is a shuffle of another list reveals neither the values nor their order.", "quantifier": "all statements whose callbacks succeed and are satisfied whatever the challenges, with numbers of challenges and gates that do not depend on them; all adaptive distinguishers, all numbers of questions and proofs", "why_tests_cant": "secrecy is a claim about all observers and about the distribution of the proofs; no test in the repository uses randomized constraints", "anchors": ["src/r1cs/prover.rs: Prover::prove, Prover::create_randomized_constraints, RandomizingProver", "src/r1cs/constraint_system.rs: ConstraintSystem::specify_randomized_constraints"]}
{"id": "C74", "title": "Proving a false statement is as hard as computing discrete logarithms", "statement": "When the generators are hashes of different messages, made with a hash function that behaves like a random one, somebody who makes the verifier accept a false statement of the crate with probability e (over the generators, the challenges and the verifier's own randomness) can be used to compute discrete logarithms in the curve group with probability at least (1 - 1/|F|)(e - ((Q + D) b + 1)/|F|), with Q questions to the hash, D challenges and b a bound for the size of the statement. In the same way, whoever finds a relation between the generators computes discrete logarithms; and the messages hashed for the generators (G1..Gn, H1..Hn, g, h) are all different.", "quantifier": "all lists of statements of the crate, all provers that make their points as combinations of hashed points (and see all of these points), all numbers of questions, all bases and all points whose logarithm is asked for", "why_tests_cant": "a reduction is a claim about every attacker; no test can run all of them", "anchors": ["src/utils/mod.rs: get_generators", "src/r1cs/verifier.rs: Verifier::verify", "src/ipp.rs: IPP::verification_scalars", "tests/multiple_constraint_systems.rs: G1::from_msg_hash"]}
{"id": "C75", "title": "Provers that choose the public parameter of the statement", "statement": "A prover cannot make the verifier accept a proof for a hash value or a Merkle root that it chooses itself, together with the proof, unless the committed values hash to it. (False of the code: the parameter is not part of the transcript, so that it can be computed after all challenges are known. True when every parameter has a transcript label of its own, and, up to a factor, when there are few parameters.)", "quantifier": "all provers that choose commitments, parameter and proof after any number of questions to the hash; all MiMC constants and inputs, all Poseidon parameters, all depths, leaves, indices and siblings of the 4-ary and 8-ary Merkle trees", "why_tests_cant": "tests verify proofs for parameters that were computed honestly before the proof; the claim is about every prover that adapts the parameter to the challenges", "anchors": ["src/r1cs/gadgets/mimc.rs: verify_mimc_preimage", "src/r1cs/gadgets/helper_constraints/mimc.rs: enforce_mimc_2_inputs", "src/r1cs/gadgets/poseidon_hash.rs: verify_knowledge_of_preimage_of_Poseidon_2", "src/r1cs/gadgets/sparse_merkle_tree_4_ary.rs: verify_leaf_inclusion_4_ary_merkle_tree", "src/r1cs/gadgets/sparse_merkle_tree_8_ary.rs: verify_leaf_inclusion_8_ary_merkle_tree", "src/r1cs/prover.rs: Prover::prove", "src/r1cs/verifier.rs: Verifier::verify"]}
{"id": "C76", "title": "A proof is good for its own transcript only", "statement": "A proof made by the prover for one transcript label and one list of commitments is not accepted by a verifier with another label or other commitments, whatever statement that verifier checks, except with negligible probability over the hash; and for the same label and commitments it is accepted with one hash value or Merkle root only.", "quantifier": "all honest proofs (any constraints, one or two phases, any wires), everybody who knows the whole state of the prover, asks the hash any number of questions and then picks the other verifier (any label, commitments, number of gates, constraints); all parameters of the MiMC, Poseidon and Merkle gadgets", "why_tests_cant": "tests verify a proof with the verifier it was made for, at best with one other; the claim is about every other verifier, chosen after seeing the proof, and about the probability over all answers of the hash", "anchors": ["src/r1cs/prover.rs: Prover::prove", "src/r1cs/verifier.rs: Verifier::verify, Verifier::commit, Verifier::flattened_constraints", "src/transcript.rs: TranscriptProtocol", "src/r1cs/gadgets/mimc.rs: verify_mimc_preimage", "src/r1cs/gadgets/poseidon_hash.rs", "src/r1cs/gadgets/sparse_merkle_tree_4_ary.rs", "src/r1cs/gadgets/sparse_merkle_tree_8_ary.rs"]}
{"id": "C77", "title": "The weight matrices of the debug functions are the constraints", "statement": "The matrices that prover and verifier compute for debugging have the constraints as their rows, are the same on both sides, and give the flattened weights when multiplied with the powers of z, provided that no variable occurs twice in a constraint and there is a constraint (with a repeated variable they lose coefficients, without constraints the multiplication panics).", "quantifier": "all provers and verifiers, all lists of constraints without repeated variables, all z", "why_tests_cant": "the assertions that compare the two computations are commented out in the code; tests could compare them for single circuits, not for all constraints", "anchors": ["src/r1cs/prover.rs: Prover::get_weight_matrices, Prover::flattened_constraints_elaborated, Prover::flattened_constraints", "src/r1cs/verifier.rs: Verifier::get_weight_matrices"]}
{"id": "C78", "title": "Proof generation reports too few generators", "statement": "A function that generates a proof for a true statement with honest inputs returns a proof if there are at least as many generators as the statement has gates, rounded up to a power of two, and otherwise returns the error InvalidGeneratorsLength. (False for Hamming distance, randomizer and 4-ary inclusion, which panic instead.)", "quantifier": "all statements of the gadgets, all true inputs, all labels, coins and lists of generators (not fewer in H than in G)", "why_tests_cant": "tests call the functions with more than enough generators; the bound depends on the inputs, for example the set, the depth of the tree or the numbers of rounds", "anchors": ["src/r1cs/gadgets/hamming_distance.rs: gen_proof_for_hamming_distance", "src/r1cs/gadgets/randomizer.rs: gen_proof_for_randomizer", "src/r1cs/gadgets/sparse_merkle_tree_4_ary.rs: gen_proof_of_leaf_inclusion_4_ary_merkle_tree", "src/r1cs/gadgets/set_membership.rs: gen_proof_of_set_membership", "src/r1cs/prover.rs: Prover::prove"]}
{"id": "C79", "title": "The scalars of a proof cannot be changed", "statement": "Take a proof made by the prover, which verify accepts. A proof with the same points but another t_x, t_x_blinding, e_blinding, a or b is rejected, except for at most one value of the verifier's random scalar.", "quantifier": "all provers with matching verifiers, all coins, all other scalars, all oracles with non-zero answers; generators without a linear relation", "why_tests_cant": "there are |F|^5 other proofs with the same points, and changing several scalars at once may cancel in the two checked equations; a test tries a few", "anchors": ["src/r1cs/verifier.rs: Verifier::verify", "src/r1cs/prover.rs: Prover::prove", "src/r1cs/proof.rs: R1CSProof", "src/r1cs/gadgets/mimc.rs: verify_mimc_preimage"]}
{"id": "C80", "title": "Proofs that have been seen do not help to forge others", "statement": "Proofs have been made by other provers, with the same hash. If each is for another transcript label, or is about commitments for which the statement holds, then somebody who knows all these proofs makes the verifier accept a false statement with no more than the probability of somebody who has not seen them.", "quantifier": "all numbers of proofs, all provers and coins that made them, all adversaries and numbers of hash queries, all lists of the crate's statements", "why_tests_cant": "ranges over all adversaries and all proofs they may have seen; a test replays single proofs", "anchors": ["src/transcript.rs: TranscriptProtocol", "src/r1cs/verifier.rs: Verifier::commit, Verifier::verify", "src/r1cs/prover.rs: Prover::commit, Prover::prove"]}
{"id": "C81", "title": "The verifying functions and the number of commitments", "statement": "A verifying function given the number of commitments its statement has reaches the check of the proof, whatever the commitments are, so that only the proof decides; given another number it returns an error. (False in the second part: with too few commitments all functions but the one for Hamming distance panic, with too many they ignore the last ones.)", "quantifier": "all statements of the gadgets with valid public parameters, all lists of points, all states of the verifier without a half allocated gate", "why_tests_cant": "tests pass the commitments their own prover made; the list comes from the other side and its length and points are arbitrary", "anchors": ["src/r1cs/gadgets/bound_check.rs: verify_proof_of_bounded_num", "src/r1cs/gadgets/set_membership.rs: verify_proof_of_set_membership", "src/r1cs/gadgets/hamming_distance.rs: verify_proof_for_hamming_distance", "src/r1cs/gadgets/sparse_merkle_tree_4_ary.rs: verify_proof_of_leaf_inclusion_4_ary_merkle_tree", "src/r1cs/gadgets/randomizer.rs: verify_proof_for_randomizer"]}
{"id": "C82", "title": "Verification constrains only what exists and does not panic", "statement": "Whatever the statements, their public parameters and the commitments are, the verifier constrains only gates it has allocated and commitments it has been given; hence, with enough generators, the check of any proof that has as many R as L accepts or returns an error.", "quantifier": "all lists of statements, public parameters and commitments, all proofs with as many R as L, all labels, generators and non-zero challenges", "why_tests_cant": "commitments and proofs come from the other side; a constraint on a variable that does not exist would make the verifier panic, or be ignored, only for some sizes", "anchors": ["src/r1cs/verifier.rs: Verifier::verify", "src/r1cs/verifier.rs: Verifier::flattened_constraints", "src/r1cs/gadgets/helper_constraints: *", "src/r1cs/gadgets: verify_*"]}
{"id": "C83", "title": "What the crate's own prover makes from false inputs is rejected", "statement": "When the proving functions are called on inputs for which the statement is false and a proof comes out nevertheless (the prover does not check its constraints), the verifying functions answer VerificationError, unless the challenge at one place of the transcript falls into a set of at most as many values as there are constraints, fixed before any challenge is known.", "quantifier": "all lists of statements about bounds, non-zero values, sets, MiMC, Poseidon, Merkle tree inclusion and factors, and single statements about the Hamming distance (with a wrong number of differences) and the randomizer (trees that differ elsewhere than listed), all inputs of which one statement is false, all coins, labels, generators and non-zero challenges", "why_tests_cant": "tests try a few wrong inputs with one run of the transcript; that every wrong input is caught, and by which challenges it may be missed, ranges over all inputs and all challenges", "anchors": ["src/r1cs/prover.rs: Prover::prove", "src/r1cs/verifier.rs: Verifier::verify", "src/r1cs/gadgets: gen_proof_*", "src/r1cs/gadgets: verify_proof_*", "tests/r1cs.rs: test_factor_r1cs"]}
{"id": "C84", "title": "One commitment stands for one value in all statements and proofs", "statement": "When the same commitment is given to several verifying functions, in one proof or in several proofs with different labels and generators, all the accepted statements are true of one and the same value. (Hamming distance says nothing about the committed values, C31.)", "quantifier": "all lists of statements with valid public parameters, all commitments, all proofs accepted from provers that can be rewound or ask a random oracle, all labels and vectors of generators; one value for each commitment, chosen before all of these", "why_tests_cant": "each test makes and verifies one proof with fresh commitments; that statements made at different times cannot be true of different values of one commitment is about all provers", "anchors": ["src/r1cs/prover.rs: Prover::commit", "src/r1cs/verifier.rs: Verifier::commit", "src/r1cs/verifier.rs: Verifier::verify", "src/r1cs/gadgets: verify_*", "tests/multiple_constraint_systems.rs"]}
{"id": "C85", "title": "A MiMC preimage cannot be computed from the image", "statement": "Whoever makes an accepted proof of knowledge of a MiMC preimage has been given a preimage: none can be computed from the image alone. (False: both inputs are free and half of the final state is thrown away, so that running the rounds backwards gives a preimage for every value of that half, and anyone can make the proof.)", "quantifier": "all images, constants and numbers of rounds, all values of the other half of the state", "why_tests_cant": "tests hash random inputs and prove with these; that there is another way to get inputs for a given image is not visible in them", "anchors": ["src/r1cs/gadgets/helper_constraints/mimc.rs: mimc", "src/r1cs/gadgets/mimc.rs: prove_mimc_preimage, verify_mimc_preimage, gen_proof_of_knowledge_of_preimage_of_mimc"]}
{"id": "C86", "title": "A proof is worth something whoever has chosen the generators", "statement": "If verification with generators g, h, G, H accepts, the statement is true of the commitments (made with g and h), also if the generators were named by the one who made the proof. (False: no generator enters the transcript, so that one element of G can be computed after all challenges are known, such that a proof of any statement about any committed values is accepted.)", "quantifier": "all statements (one phase or two), all committed values and blindings, all other generators, all challenges", "why_tests_cant": "tests use generators made from labels on both sides; that nothing ties a proof to its generators is not visible in them", "anchors": ["src/r1cs/verifier.rs: Verifier::verify", "src/transcript.rs: TranscriptProtocol", "src/utils/mod.rs: get_generators"]}
{"id": "C87", "title": "The proving functions return a proof for all secret inputs of the right shape, true or false", "statement": "Called with as many secret inputs as the statement asks for, blindings or a random number generator, and enough generators, the proving functions, one or several on one prover, return a proof and as many commitments as the statements are about: no panic, no error and no test of the statement, for all values of the inputs. If the statement is false of the inputs the proof comes out all the same, and the verifier refuses it. The one exception is the bounded number in debug builds, which panics for every value outside the bounds.", "quantifier": "all statements with a proving function, all lists of them on one prover, all secret inputs, blindings, coins and challenges", "why_tests_cant": "tests prove true statements on a few inputs; that no input at all makes a proving function fail or report the false statement needs all of them", "anchors": ["src/r1cs/prover.rs: Prover::prove", "src/r1cs/gadgets/bound_check.rs: prove_bounded_num", "src/r1cs/gadgets/set_membership.rs", "src/r1cs/gadgets/set_non_membership.rs", "src/r1cs/gadgets/mimc.rs", "src/r1cs/gadgets/poseidon_hash.rs", "src/r1cs/gadgets/sparse_merkle_tree_4_ary.rs", "tests/r1cs.rs: test_2_factors_r1cs"]}
{"id": "C88", "title": "A random number generator that repeats its output does not give away the secrets", "statement": "If two or more proofs about the same secrets are made with the same random numbers (a generator seeded the same way twice, a restored virtual machine, a broken source) but in different transcripts, then the proofs together give away no more than one of them: neither the blindings of the commitments nor the values of the wires can be computed from them, nor can it be seen that they are about the same secrets. This is what mixing the secrets and the transcript into the prover's random numbers would give. It is false of this code, which takes its random numbers from the system source only.", "quantifier": "all statements with a proving function, all lists of them, all secret inputs, coins, labels and challenges", "why_tests_cant": "every test draws fresh randomness and looks at one proof; what several proofs together give away is a statement about all combinations of them", "anchors": ["src/r1cs/prover.rs: Prover::prove", "src/r1cs/prover.rs: Prover::commit", "src/transcript.rs"]}
{"id": "C89", "title": "The functions a user calls fit together, pair by pair", "statement": "For each of the thirteen pairs of functions that generate and verify a proof of a gadget's statement: called on true inputs, with at least as many generators as the circuit needs, the generating function returns a proof and commitments to the inputs, and the verifying function, called with the same public arguments, label and generators, accepts them, for every label and all random numbers. Called on false inputs (where the statement says anything about them), what comes out is refused by the verifying function but for a few values of one challenge.", "quantifier": "all thirteen pairs, all inputs, parameters, labels, generators, random numbers and challenges", "why_tests_cant": "each test calls one pair on one or a few inputs", "anchors": ["src/r1cs/gadgets/bound_check.rs: gen_proof_of_bounded_num, verify_proof_of_bounded_num", "src/r1cs/gadgets/non_zero.rs", "src/r1cs/gadgets/set_membership.rs", "src/r1cs/gadgets/set_membership_alt.rs", "src/r1cs/gadgets/set_non_membership.rs", "src/r1cs/gadgets/hamming_distance.rs", "src/r1cs/gadgets/mimc.rs", "src/r1cs/gadgets/poseidon_hash.rs", "src/r1cs/gadgets/sparse_merkle_tree_4_ary.rs", "src/r1cs/gadgets/sparse_merkle_tree_8_ary.rs", "src/r1cs/gadgets/randomizer.rs"]}
{"id": "C90", "title": "The hash functions are the published ones", "statement": "Poseidon_permutation is the HADES permutation: in each round the round constants are added, the S-box (x^3, x^5 or 1/x) is applied to all elements in the full rounds at both ends and to the last element in the partial rounds between them, and the state is multiplied by the matrix. Poseidon_hash_2/4/8 return the second element of the permuted state (0, inputs). With the shipped tables the round constants are used in order without repetition and the matrix is the Cauchy matrix 1/(i+j+width) (not for bn254). mimc is the left half of the Feistel network with (x+c)^3. Accepted preimage proofs and the nodes of the trees are about these functions.", "quantifier": "all parameters of the right shape, all states, inputs, S-boxes, numbers of rounds, all four curves", "why_tests_cant": "tests compare the circuit with the native function for random inputs, not the native function with its specification", "anchors": ["src/r1cs/gadgets/helper_constraints/poseidon.rs: Poseidon_permutation, Poseidon_hash_2, Poseidon_hash_4, Poseidon_hash_8, apply_sbox, PoseidonParams::new", "src/r1cs/gadgets/helper_constraints/mimc.rs: mimc", "src/r1cs/gadgets/poseidon_constants.rs"]}
{"id": "C91", "title": "Whoever gets a verifying function to accept something false computes discrete logarithms", "statement": "A cheating prover asks the hash up to Q questions, each depending on all answers so far, and then hands over commitments and a proof; somebody calls one of the verify_proof_* functions on them, with the generators of get_generators and g, h. If the call returns Ok with probability e although the commitments have not been made as openings x*g + r*h of which the statement is true, then the prover's runs compute the discrete logarithm of any point to any base with probability at least (1 - 1/|F|)(e - ((Q + D) b + 1)/|F|), for the number D of challenges and the bound b of the statement. (The prover makes its points as combinations of the points it has been given; the hash is a random function, its values drawn when first needed.)", "quantifier": "all statements of the crate with admissible public parameters, all labels, all adaptive provers, all Q, all points and bases", "why_tests_cant": "it is about every possible prover, and about probabilities over the hash function and the generators", "anchors": ["src/r1cs/gadgets/bound_check.rs: verify_proof_of_bounded_num", "src/r1cs/gadgets/non_zero.rs: verify_proof_of_non_zero_val", "src/r1cs/gadgets/set_membership.rs: verify_proof_of_set_membership", "src/r1cs/gadgets/sparse_merkle_tree_8_ary.rs: verify_proof_of_leaf_inclusion_8_ary_merkle_tree", "src/r1cs/verifier.rs: verify", "src/utils/mod.rs: get_generators"]}
{"id": "C92", "title": "The iteration order of hash maps changes nothing", "statement": "LinearCombination::simplify goes through a HashMap, whose iteration order is different in every process and for every map. Two machines that differ only in these orders get the same result from every gen_proof_* function for the same arguments and random numbers (the same proof and commitments, the same error or the same panic), and the same verdict from every verify_proof_* function. The same holds for every client that brings its own gadgets, in one phase or two, as long as they do not look at the order of the terms of a simplified linear combination; a gadget that does look gets different constraints on different machines.", "quantifier": "all iteration orders (a different one for every map), all arguments, all random numbers, all proofs, all clients that interleave commitments and gadgets", "why_tests_cant": "a test runs with the orders that the process happens to draw", "anchors": ["src/r1cs/linear_combination.rs: simplify", "src/r1cs/prover.rs: prove", "src/r1cs/verifier.rs: verify", "src/r1cs/gadgets/poseidon_hash.rs: gen_proof_of_knowledge_of_preimage_of_Poseidon_8", "src/r1cs/gadgets/randomizer.rs: gen_proof_for_randomizer"]}
{"id": "C93", "title": "Points outside the group of prime order do not help a cheating prover, but make the verdict a matter of luck", "statement": "The curve has more points than the group of prime order in which the generators live, and nothing in the crate keeps the others out of commitments and proofs. For points in the group the verifying functions behave as in the group. Whatever proof with other points is accepted, the proof projected to the group is accepted with the same challenges; so a prover that asks the oracle Q questions and then chooses commitments and proof from all points of the curve makes the verifier accept although the statements do not hold of the projected commitments only with (Q + D) B + 1 in |F| of the answers (without assumptions on the generators if it says how it made its points, or it finds a relation between them). Such projections exist on every curve whose order is q k with q prime and k prime to q. But the verdict on a proof with a point outside the group depends on the random number that the verifier draws: one verifier accepts a proof that another refuses.", "quantifier": "all groups with a projection, all scalar multiplications that agree with it, all statements, all proofs, all provers and numbers of questions, all answers of the oracle", "why_tests_cant": "tests use points made from the generators; nobody can try all points of a curve or all provers", "anchors": ["src/r1cs/verifier.rs: verify", "src/r1cs/verifier.rs: commit", "src/r1cs/proof.rs: R1CSProof", "src/r1cs/gadgets/set_membership.rs: verify_set_membership"]}
{"id": "C94", "title": "The inner-product argument on its own is sound if the commitment was logged before, and unsound if not", "statement": "If the caller logs the commitment P before calling verify_ipp, the factors are non-zero and there is no known relation between the generators, then whatever is accepted is true: P commits to two vectors and to their inner product, unless one of the challenges of the proof was one of at most seven bad values, determined before it was drawn. So a prover that asks the oracle q questions and then chooses P and the proof makes the verifier accept a false statement with at most the part 7 (q + D) / |F| of the answers, where D is the number of challenges the verifier draws. verify_ipp does not log P itself: if the caller does not either (as in the tests of the crate), then whatever was logged before, for vectors of every length above one the prover finds a P that commits to no such vectors, and a proof that is accepted.", "quantifier": "all lengths that are powers of two, all generators and factors, all logs before the call, all commitments and proofs, all provers and numbers of questions, all answers of the oracle", "why_tests_cant": "tests call verify_ipp with honest proofs; nobody can try all provers, and the proof of a false statement has to be computed from the challenges", "anchors": ["src/ipp.rs: verify_ipp", "src/ipp.rs: verification_scalars", "src/transcript.rs: commit_point"]}
{"id": "C95", "title": "Inner products of vectors whose length is not a power of two", "statement": "A caller with vectors of any length fills them up with zeros to the next power of two, and makes the commitment from the short vectors and as many generators: the proof that create_ipp makes from the long vectors is accepted by verify_ipp for the commitment made from the short ones. Generators without relations fix the vectors and the number that go with a commitment. So if a commitment to short vectors and a number was logged and a proof for it is accepted, then the number is the inner product of the short vectors, unless a challenge was one of at most seven bad values. That the vectors are short is not checked: for every shorter length there are vectors whose commitment is not one to vectors of that length, and for which the proof made by create_ipp is accepted.", "quantifier": "all lengths up to the power of two, all vectors, generators and factors, all logs, all oracles and commitments", "why_tests_cant": "the test of the crate does this with one pair of vectors of length five; it must hold for all lengths and vectors, and cheating provers", "anchors": ["src/ipp.rs: create_ipp", "src/ipp.rs: verify_ipp", "src/ipp.rs: test_ipp_non_power_of_2"]}
{"id": "C96", "title": "What the root of a sparse Merkle tree says about trees of other depths", "statement": "The nodes that a 4-ary or 8-ary tree has at some level are the leaves of a tree of that smaller depth with the same root: whoever writes them as leaves gets this root. Conversely, two trees of different depths with the same root are related in this way, or there is a collision of the hash function among their nodes. The depth is a public field of the tree object: with the root and the database of a tree and a smaller depth, get returns the inner nodes as if they were leaves, with proofs that verify_proof accepts. So a root must always be passed on together with its depth.", "quantifier": "all histories of updates of both trees without a collision among the hashed nodes, all depths for which the trees can be made, both arities, all valid hash parameters, all indexes", "why_tests_cant": "it compares all pairs of trees, of all depths and histories", "anchors": ["src/r1cs/gadgets/helper_constraints/sparse_merkle_tree_4_ary.rs: VanillaSparseMerkleTree_4", "src/r1cs/gadgets/helper_constraints/sparse_merkle_tree_8_ary.rs: VanillaSparseMerkleTree_8"]}
{"id": "C97", "title": "Merkle proofs and later updates of the tree", "statement": "A Merkle proof is accepted by verify_proof with one root only; so once the contents of a tree have changed, every proof made before is rejected with the new root, unless there is a collision of the hash function. The proof that get returns for a leaf after one more update (of any leaf) is the old proof with at most one node replaced, the one where the paths to the two leaves part, and that node can be computed from the proof for the updated leaf and the new value: holders of proofs can bring them up to date without the database, and verify_proof accepts the result.", "quantifier": "all histories of updates without a collision among the hashed nodes, all depths for which the trees can be made, both arities, all valid hash parameters, all pairs of indexes and all values", "why_tests_cant": "it relates all pairs of states of all trees, and all proofs anybody may hold", "anchors": ["src/r1cs/gadgets/helper_constraints/sparse_merkle_tree_4_ary.rs: verify_proof", "src/r1cs/gadgets/helper_constraints/sparse_merkle_tree_4_ary.rs: update", "src/r1cs/gadgets/helper_constraints/sparse_merkle_tree_8_ary.rs: verify_proof", "src/r1cs/gadgets/helper_constraints/sparse_merkle_tree_8_ary.rs: update"]}
{"id": "C98", "title": "Only the first generators matter", "statement": "A proof and its verification depend only on the first generators of the two vectors, as many as there are gates, rounded up to a power of two. With longer vectors that begin in the same way, proving and verifying return what they return with the shorter ones, be it a proof, acceptance, rejection or an error, unless the shorter ones are too short. So a prover and a verifier who called get_generators with different numbers, both large enough, understand each other: the proof of the one is accepted by the other.", "quantifier": "all circuits and all generating and verifying functions of the gadgets, all vectors of generators and all continuations of them, all proofs (also forged ones), all labels, random numbers and hash functions", "why_tests_cant": "it compares runs with vectors of all lengths, for all circuits and all proofs", "anchors": ["src/r1cs/prover.rs: prove", "src/r1cs/verifier.rs: verify", "src/utils/mod.rs: get_generators"]}
{"id": "C99", "title": "What the errors mean", "statement": "InvalidGeneratorsLength means that there are too few G generators for the circuit, and nothing else does: the verifying functions return it exactly then, whatever the proof is, and every other error of theirs is VerificationError. Apart from it the proving functions return no error at all, be the secret inputs true or false: not MissingAssignment, FormatError, GadgetError or VerificationError. For circuits of one's own the only further errors of prove and verify are those that the circuit's own callbacks of the second phase return, and those are passed on unchanged.", "quantifier": "all circuits with any callbacks, all generating and verifying functions of the gadgets (with parameters with which they run, C81), all secret inputs, all proofs (also forged and malformed ones), all vectors of generators (H of at least the number of gates for the exact statement on proving), all random numbers and hash functions", "why_tests_cant": "that an error never occurs, or only for one reason, is a statement about all inputs and all proofs", "anchors": ["src/r1cs/prover.rs: prove", "src/r1cs/verifier.rs: verify", "src/errors.rs: R1CSError", "src/r1cs/gadgets/set_membership.rs: verify_proof_of_set_membership"]}
{"id": "C100", "title": "Calculating with commitments", "statement": "A user may add commitments and multiply them by constants, and hand the result to a verifying function: what is then accepted is true of the same combination of the values, and whoever knows the values and blindings of the parts can prove it, with the combination of the blindings. There is one linear assignment of values to points of which everything is true that is ever accepted. In particular, if every input and every output of a payment has been shown to be between the bounds, and the inputs minus the outputs minus a public fee is, as a point, a multiple of h, then the inputs are the outputs and the fee as numbers, without wrapping around the field: nothing is created out of nothing.", "quantifier": "all lists of statements with valid public parameters, all commitments and combinations, all numbers of inputs and outputs (as long as their number times the bound is below the order of the field), all proofs accepted from provers that can be rewound or ask a random oracle, all labels and vectors of generators; g and h without a known relation", "why_tests_cant": "it is about all provers and all combinations, and about what cannot happen", "anchors": ["src/r1cs/prover.rs: commit", "src/r1cs/verifier.rs: commit", "src/r1cs/gadgets/bound_check.rs: verify_bounded_num", "src/r1cs/gadgets/set_membership.rs: verify_set_membership"]}
{"id": "C101", "title": "The constants that pad the hash", "statement": "The functions that allocate the static wires of the hash give prover and verifier the same n commitments, with blinding 0, to the values 0, 101, 0, 0, ...; at least one is always allocated. With them the gadgets for two and four inputs work for every wider permutation: what a verifier accepts are inputs that, put after the 0 and before the other constants, hash to the given value, and a prover whose inputs do so is accepted. For width 3 this is the ordinary hash; for any other width the plain function for two inputs panics, so the value must be computed otherwise. Inputs of the same number are always put into different states; so are inputs of different numbers as long as there is a place left for the padding constant. In a full state there is none: with width 5 the padded hash of x and y is the hash of the four inputs x, y, 101, 0.", "quantifier": "all numbers of statics, all valid parameters of the matching width, all S-boxes other than the inverse, all inputs, blindings, labels and sufficiently long vectors of generators, all accepted proofs", "why_tests_cant": "the tests use one width per arity and honest inputs only", "anchors": ["src/r1cs/gadgets/poseidon_hash.rs: allocate_statics_for_prover", "src/r1cs/gadgets/poseidon_hash.rs: allocate_statics_for_verifier", "src/r1cs/gadgets/helper_constraints/poseidon.rs: Poseidon_hash_2_constraints", "src/r1cs/gadgets/helper_constraints/poseidon.rs: Poseidon_hash_4_constraints", "src/r1cs/gadgets/helper_constraints/poseidon.rs: Poseidon_hash_2"]}
{"id": "C102", "title": "Trees whose database is not trusted", "statement": "A client that keeps only the root and leaves the nodes to a database it does not trust is safe if it checks: if a proof is accepted by verify_proof for the old root with the old value, and the same proof for the new root with the new value, then the old value is the one last written and the new root is that of the updated contents, whatever the database has answered, or there is a collision of the hash function; with an honest database both checks succeed. Without the checks it is not safe: for every tree and value there is a database with which get returns this value for every index, and for every tree and every other contents there is a database with which one update of one leaf silently turns the tree into one with those other contents, all of whose leaves then have accepted proofs. Both hold for whole sessions: a client that makes any number of updates, each with other databases, ends with the tree of all that it has written, if it makes the two checks, or if it drops every answer of the database that does not hash to the key it asked for.", "quantifier": "both arities, all depths, all histories of updates without a collision of the hash function, all indices and values, all databases (also such that answer the same question differently the second time)", "why_tests_cant": "it is about all databases; the tests use one that is honest", "anchors": ["src/utils/hash_db.rs: HashDb", "src/r1cs/gadgets/helper_constraints/sparse_merkle_tree_4_ary.rs: get", "src/r1cs/gadgets/helper_constraints/sparse_merkle_tree_4_ary.rs: update", "src/r1cs/gadgets/helper_constraints/sparse_merkle_tree_4_ary.rs: verify_proof", "src/r1cs/gadgets/helper_constraints/sparse_merkle_tree_8_ary.rs: update"]}
{"id": "C103", "title": "The verifier of a randomizer proof and the database of the new tree", "statement": "verify_proof_for_randomizer takes the new tree and the database with its nodes. If every answer of this database hashes to the key that was asked for, an accepted statement means that writing the original values into the new tree gives the original root, even if somebody else provides the database and even if it is incomplete (or there is a collision of the hash function); databases filled by the trees of the crate have this property. Without that check the new root means nothing: for every original tree, every non-empty list of indices and every new root there is a database with which proof generation and verification succeed.", "quantifier": "all depths, all histories of updates without a collision of the hash function, all lists of indices, all new roots, all databases", "why_tests_cant": "it is about all databases and all roots; the test uses the database that was filled with the new tree", "anchors": ["src/r1cs/gadgets/randomizer.rs: randomizer_gadget", "src/r1cs/gadgets/randomizer.rs: verify_proof_for_randomizer", "src/r1cs/gadgets/randomizer.rs: gen_proof_for_randomizer", "src/utils/hash_db.rs: HashDb"]}
{"id": "C104", "title": "The randomizer from beginning to end", "statement": "A client fills a 4-ary tree with its data, lets get_indices_to_modify choose indices, computes the new data with get_randomized_data, updates a copy of the tree at these indices, and proves with gen_proof_for_randomizer that nothing else has changed. For all data and every nonce no step fails, the updated tree is the tree of the new data, writing the old values back gives the original root, the new root is another one (unless every chosen value is its own hash), and verify_proof_for_randomizer accepts the proof.", "quantifier": "all data that fit into the tree, all nonces and numbers of indices, all orders in which the set of indices is iterated, all depths, labels, generators and random numbers, histories without a collision of the hash function", "why_tests_cant": "the test runs the steps once, with 150 random values, one nonce and one iteration order of the set", "anchors": ["src/r1cs/gadgets/randomizer.rs: get_indices_to_modify", "src/r1cs/gadgets/randomizer.rs: get_randomized_data", "src/r1cs/gadgets/randomizer.rs: randomize", "src/r1cs/gadgets/randomizer.rs: gen_proof_for_randomizer", "src/r1cs/gadgets/randomizer.rs: verify_proof_for_randomizer", "src/r1cs/gadgets/helper_constraints/sparse_merkle_tree_4_ary.rs: update"]}
{"id": "C105", "title": "Clients that share a database at the same time", "statement": "HashDb is a trait, so one store may serve many clients, each of which makes a tree with new and then calls get and update on it; the single requests (get and insert) of all clients may be served in any order. Whatever the order, a client that has come to an end has not failed: its root is that of what it has written, and every value it has read is the one it had last written at that index. A client comes to an end after a number of its own requests that depends only on its own calls, even if other clients stop in the middle for ever. A client that goes on only if the hash of the answer is the key it has asked for needs no honest partner at all: whatever its requests are answered, and whatever other clients store, if it comes to an end then its root and all its reads are right, or an answer it was given and a node of its tree are a collision of the hash function; with honest clients it comes to an end as before. Hence a verifier may keep only the root, maintain it in this way, and accept zero-knowledge proofs of inclusion for it: the committed leaf is the one the verifier has last written at the committed index, unless there is a collision.", "quantifier": "both arities, any number of clients, all depths and sequences of reads and writes (without a collision of the hash function among the nodes of all clients), all schedules of the single requests, all contents of the database at the beginning", "why_tests_cant": "the tests have one client and no schedule; the number of schedules is exponential", "anchors": ["src/utils/hash_db.rs: HashDb", "src/r1cs/gadgets/helper_constraints/sparse_merkle_tree_4_ary.rs: new", "src/r1cs/gadgets/helper_constraints/sparse_merkle_tree_4_ary.rs: get", "src/r1cs/gadgets/helper_constraints/sparse_merkle_tree_4_ary.rs: update", "src/r1cs/gadgets/helper_constraints/sparse_merkle_tree_8_ary.rs: get", "src/r1cs/gadgets/helper_constraints/sparse_merkle_tree_8_ary.rs: update", "src/r1cs/gadgets/sparse_merkle_tree_4_ary.rs: verify_leaf_inclusion_4_ary_merkle_tree", "src/r1cs/gadgets/sparse_merkle_tree_8_ary.rs: verify_leaf_inclusion_8_ary_merkle_tree"]}
{"id": "C106", "title": "Clients that write to one tree through a register", "statement": "Clients that want to write to the same tree may share the database and keep the tree object in a register with compare-and-exchange: a client copies the tree from the register, calls update on the copy, and puts the result back if the root in the register is still the one it has copied, else it starts again. Whatever the order in which the single requests and exchanges are served, no update fails, no write of a client that has succeeded is lost and none of another client appears: the register holds the tree in which exactly the writes of the clients that have succeeded were made one after the other, in some order, and every index can be read from it. A client that is about to start and is left alone succeeds after 2 * depth + 2 steps, and one has to start again only if another client has succeeded since it read the register.", "quantifier": "both arities, all depths, all earlier histories of the tree, any number of clients with any writes (without a collision of the hash function among the nodes that their writes can make in any order), all schedules of the single requests and exchanges", "why_tests_cant": "the tests have one client and no schedule; the number of schedules is exponential", "anchors": ["src/utils/hash_db.rs: HashDb", "src/r1cs/gadgets/helper_constraints/sparse_merkle_tree_4_ary.rs: update", "src/r1cs/gadgets/helper_constraints/sparse_merkle_tree_4_ary.rs: get", "src/r1cs/gadgets/helper_constraints/sparse_merkle_tree_8_ary.rs: update", "src/r1cs/gadgets/helper_constraints/sparse_merkle_tree_8_ary.rs: get"]}
