# Formal model of bulletproofs-amcl in Lean 4 — design

The first version of this document was written before the proofs; it is kept
current with the model.  Section 4 says for every property of
`properties.jsonl` what is modelled and how it is proved, section 5 lists where
the code violates a property, section 6 the hypotheses that theorems carry.

## 1. Layout

    lean/Verif.lean                  imports everything
    lean/Verif/Model/*.lean          the model: one Lean definition per Rust function (or loop body), each citing file:lines
    lean/Verif/Spec/*.lean           small specifications used in theorem statements, independent of the model's helpers
    lean/Verif/Lemmas/**.lean        helper lemmas (not claims)
    lean/Verif/Props/**.lean         the claims: property theorems `cNN_...` with non-vacuity examples beside them
    seeded/LOG.jsonl                 mutation log (edits of the model and the theorems that noticed)
    MANIFEST.json                    property -> status, theorem names, note

| model file | Rust source |
|---|---|
| Model/Basic | errors.rs; the vector operations of amcl_wrapper that the code calls |
| Model/LinComb | r1cs/linear_combination.rs |
| Model/Transcript | transcript.rs (merlin as a log of labelled events) |
| Model/Env | what comes from outside the crate: oracle, HashMap order, `batch_invert` |
| Model/CS, Model/Prog | r1cs/constraint_system.rs, the state and trait methods of prover.rs and verifier.rs, commit, create_randomized_constraints |
| Model/VecPoly | utils/vector_poly.rs |
| Model/Ipp | ipp.rs |
| Model/R1CS | `prove`, `verify`, both `flattened_constraints`, proof.rs |
| Model/Utils | utils/mod.rs (`get_generators`, `gen_challenges`) |
| Model/Driver | the `gen_proof_*` / `verify_proof_*` wrappers and the argument-check macros of errors.rs |
| Model/Gadgets/Basic | helper_constraints/{bit,non_zero,positive_no,vector_sum,mod}.rs |
| Model/Gadgets/Simple | bound_check, non_zero, set_membership, set_membership_alt, set_non_membership, hamming_distance, mimc (+ helper) |
| Model/Gadgets/Poseidon, PoseidonTables | helper_constraints/poseidon.rs, poseidon_hash.rs; the BLS12-381 tables of poseidon_constants.rs |
| Model/Gadgets/Tree | the sparse trees of helper_constraints/sparse_merkle_tree_{4,8}_ary.rs, utils/hash_db.rs |
| Model/Gadgets/Merkle | the inclusion gadgets of the same files, sparse_merkle_tree_{4,8}_ary.rs |
| Model/Gadgets/Randomizer | randomizer.rs |
| Model/Gadgets/Curves, PoseidonTables2 | the features of Cargo.toml (four curves); the tables of poseidon_constants.rs for the other three |
| Model/Challenge | `challenge_scalar` at the level of bytes |
| Model/Merlin | src/transcript.rs: which operations merlin passes to STROBE for every event |
| Model/Gadgets/Shuffle | no code in /repo: a client of `specify_randomized_constraints` (src/r1cs/constraint_system.rs) as in the documentation of that interface; written to have a concrete statement for C72 |

## 2. How the code is modelled

* **Scalars.** `FieldElement` is an arbitrary field `F` (`[Field F]`, decidable equality where the code compares).
  Where the code looks at integers or bytes (bit decomposition, `to_bignum`, index digits) the field carries a class `IntRep F`
  (canonical representative below the characteristic) or `ByteRep F` (its big-endian bytes, MODBYTES of them); both are
  instantiated with `ZMod p` and in particular with the BLS12-381 group order `Bls.r`, whose primality is proved.
  `inverse` of 0 is 0 (that is what amcl's modular inverse returns).
* **Group.** `G1` is an arbitrary `F`-module `G`: prime order group, additive notation. The definitions of the model need only an abelian
  group with some multiplication by scalars; theorems that need the laws of a module say so. C93 is about groups in which they fail.
  Soundness theorems either produce an explicit relation between the generators or assume that there is none
  (`Independent`, the symbolic reading of "no known discrete-log relation"); it is a hypothesis, not an axiom.
* **Panics and errors.** Every operation that can fail returns `Res a = Except Fault a`, a fault being
  `err e` (the Rust `Err(e)`) or `panic why` (index out of range, failed assert, `unwrap` of `Err`/`None`, `remove(0)` of an empty vector, ...).
  Nothing is totalised to a harmless value: a model function that would panic in Rust returns a `panic` fault.
* **Transcript.** A merlin transcript is the list of labelled events; a challenge is `O log` for an arbitrary function `O` (the oracle),
  and drawing it is itself an event.  Theorems quantify over every `O`.  Labels, order and contents of the events follow the code.
* **Randomness.** All coins of `prove`, the blindings drawn by gadgets and the verifier's `r` are explicit parameters; theorems quantify over them.
* **HashMap iteration order** (`LinearCombination::simplify`, `HashSet` of indices in the randomizer) is an arbitrary permutation that may differ
  at each call; prover and verifier need not have the same one.
* **Gadgets.** Generic Rust code `fn gadget<CS: ConstraintSystem>(cs, ..)` is a program `Prog` (free monad over the trait's methods).
  `Prover.run`/`Verifier.run` interpret it on the two states; each interpreter clause models one trait impl.
  "Any gadget" in a property is "any `Prog`".  Second-phase callbacks are programs over the randomized trait (with `challenge_scalar`).
* **Entry points.** `prove_*`/`verify_*` functions are drivers `Drv S a` over the prover or verifier state; a failed one still leaves the state it reached.
  The `gen_proof_*`/`verify_proof_*` functions all have one shape and are modelled by `genProof`/`verifyProof` applied to the driver,
  including the `.unwrap()` of `prove`; Model/Api has one definition for each of the 26 functions.
* **Trees.** `InMemoryHashDb` is an association list (last write wins, C44); hashing is the modelled Poseidon hash; digests as keys are the big-endian bytes.
* **Profiles.** u64 subtraction in `bound_check` panics on underflow in the debug profile and wraps in the release profile; the profile is a parameter.

Semantics used by gadget theorems (Spec/Semantics, Spec/Gadgets): an assignment `σ` gives values to all variables, `σ.Gates` is
`out i = left i * right i`, a verifier state is satisfied when all its constraints evaluate to 0.
`SoundFor stmt P`: from every verifier state, if the `verify_*` driver succeeds and σ satisfies gates and constraints of the resulting state, then `P`
holds of the values σ gives to the committed variables.  `SoundForWith` adds public openings of statically committed points, `SoundForExactly`
fixes the number of commitments.  `EndToEnd prove verify`: the proof made by `gen_proof_*` is accepted by `verify_proof_*`,
for all coins and every oracle that never answers zero.

How the layers compose: C17 turns a satisfied prover state in step with a verifier into acceptance; C21 turns a tree of accepting answers into a satisfying σ
(or a relation between the generators); C55 composes C21 with the soundness of each statement into a claim about committed values; C22 and C56 are about
what a proof reveals.

## 3. Trusted base

* Lean 4.33.0 kernel, and the Mathlib definitions that occur in statements (Field, Module, ZMod, List, Finset, Function.Bijective, Nat.card).
* Axioms: only `propext`, `Classical.choice`, `Quot.sound`.  No `sorry`, no own axioms, no `native_decide`/`bv_decide`
  (`decide +kernel` is used for concrete computations; it is checked by the kernel alone).
* That the Lean model matches the Rust text (read, not extracted).  Each definition cites the lines.
* Dependencies not in the sandbox, modelled by their documented behaviour:
  - `amcl_wrapper` field arithmetic is arithmetic of a prime field; `batch_invert` of a non-empty list of non-zero scalars returns the inverses and the inverse of the product (nothing is assumed about other inputs: `Env.batchInvert_spec`);
  - `amcl_wrapper` group arithmetic is that of an F-module (on the points of prime order; for the other points of the curve see C93); inner products / multi-scalar multiplication return `Err` on length mismatch;
    `to_bytes` of scalars and points is injective (events carry the value itself);
  - `merlin` frames messages injectively and derives challenges from the whole log;
  - `new_vandermonde_vector(e, n)` is `[1, e, e^2, ..]`, and a vector of zeros for `e = 0` (which concerns runs in which the challenge y is 0);
  - `rand`, `sha3`/SHAKE, `from_msg_hash` are arbitrary functions;
  - `usize` does not overflow; numbers of rounds are limited to 31 by the code itself (`lg_n >= 32` is an error, C15).
* Modelled: every function of `src/` that is not a unit test, for the BLS12-381 feature (default; the Poseidon tables for all features, C69), with the exceptions listed next.
* Not modelled:
  - all unit tests, `tests/` except the circuits of tests/r1cs.rs (C60) and the way tests/multiple_constraint_systems.rs puts several statements into one proof (C50, C61);
  - the orders of the four curves are not in /repo but in amcl; C69 takes the published ones (`Curve.*.order`), and `from_hex` to reduce modulo the order;
  - likewise MODBYTES (48 for bls381, 32 for the others), and `FieldElement::from(&[u8; MODBYTES])` as the big-endian number modulo the order (C70);
  - serialisation (serde derives), `println!` timing, performance and constant-time behaviour, memory zeroisation (`clear_on_drop`), aborts for lack of memory.
* Outside any theorem here: the hardness of discrete logarithms itself (C74 reduces proofs of false statements to it). The running time of the extractor (C68) is counted in runs of the prover; the arithmetic by which a witness
  is computed from the answers (C21, C63) is a fixed formula, whose cost is not counted.

## 4. Properties: what is modelled, how proved

| id | modelled | proof |
|----|----------|-------|
| C01 | `LC` and its operators | list induction, ring; a syntax of expressions for nested ones |
| C02 | `simplify` with arbitrary iteration order | HashMap fold invariant; permutation lemma |
| C03 | prover state + all trait methods, `Prog` | invariant by induction on `Prog` |
| C04 | both interpreters | simulation relation `InStep` by induction on pairs of programs (`Prog.Same`) |
| C05 | `multiply` both sides | unfold + gate relation |
| C06 | allocation functions both sides | freshness invariant by induction |
| C07 | `evaluate_lc`, all methods | extension invariant by induction |
| C08 | `create_randomized_constraints` | induction over callback list + C07 style frame |
| C09 | `Transcript`, prove, verify | explicit log equations; injectivity of the log; locality of the verdict |
| C10 | both `flattened_constraints` | fold induction |
| C11 | idem | root counting of the z polynomial |
| C12 | `VecPoly1`, `VecPoly3`, `Poly2`, `Poly6` | list sums, ring; counterexamples for dropped preconditions |
| C13 | `create_ipp`, `verify_ipp` | induction on log n |
| C14 | `verification_scalars` | induction on rounds |
| C15 | idem | case analysis |
| C16 | `verify_ipp` | extraction by induction on rounds (4 challenges with different squares per round), extractor is a computable function |
| C17 | `prove`, `verify` | C10+C12+C13+C14 + algebra |
| C18 | idem | exact residual of the verification equation |
| C19 | idem | case analysis; negative witness for short H |
| C20 | `verify` equation | linear in r |
| C21 | `verify` | tree extraction (y, z, u, x, w, r and rounds) on top of C16, Vandermonde elimination |
| C22 | `prove` | explicit bijection of coins (`Coins.explain`) |
| C23 | `commit` | algebra |
| C24–C32 | each gadget as `Prog`, each entry point as `Drv` | soundness/completeness rules as in section 2; counterexamples where the code is wrong |
| C33–C35 | Poseidon permutation, constraints, hash gadgets | induction over rounds |
| C36–C40 | 4-/8-ary trees with HashDb | refinement to a map, induction over depth and history |
| C41–C43 | Merkle gadgets | induction over levels; negative witnesses for depth |
| C44 | InMemoryHashDb | list-map induction |
| C45 | get_generators | string lemmas |
| C46–C47 | randomizer | induction over index list / levels |
| C48 | prove_* argument checks | case analysis |
| C49 | verify | negative witness + positive theorem for well-sized proofs |
| C50 | drivers in sequence | bind rules of the gadget logic |
| C51–C52 | MDS tables of BLS12-381 | numeric inverse certificates checked by the kernel; cube-root-of-unity witness and explicit hash collision |
| C53 | allocate_single users | negative witness, positive theorem without pending gate |
| C54 | gen_challenges | induction on the number of challenges |
| C55 | verify_* statements + verify | C21 composed with each statement's soundness; binding functional on commitments |
| C56 | `prove`, `verify` | simulator `Verifier.simulate` in Spec/Simulator (dry run, random points, solve the two verifier equations); bijection of coins and choices |
| C57 | 4-ary and 8-ary inclusion statements and trees | C41/C42 soundness when `arity ^ depth ≤ order`; otherwise false: a prover following the path of position `order + i` (`forgeInclusion4`, `forgeInclusion8`), concrete tree in Props/Gadgets/AliasDemo |
| C58 | `verify` with challenges from the log | round-by-round: a partial proof is live if it extends to a full accepted tree; few answers revive a dead one (Lemmas/FiatShamir*); counting over adaptive provers (Lemmas/Attack) that may repeat questions; in the game (Lemmas/Game, Lemmas/Uniform) the prover chooses the commitments and the proof after its questions, and the verifier asks the remaining ones |
| C59 | `verify` and the drivers, run on combinations of the generators instead of points | naturality: everything the verifier does commutes with linear maps (Lemmas/Algebraic*); without a relation the run on points lifts to the run on combinations, where generators are independent, so C58 applies |
| C60 | the circuits of tests/r1cs.rs, for any number of factors (Model/Gadgets/Factors) | verifier semantics of the chain of gates; prover simulation, both composed with C10/C12 |
| C61 | all `verify_*` calls, one after the other on one verifier (Spec/Statements) | each committed variable is pinned: two solutions of the circuit that differ only there are told apart (Lemmas/Gadgets/Pinned*), so C21's extraction opens the commitment; the statements are composed as in C50, the game as in C58 and C59 |
| C62 | an arbitrary interactive prover (Spec/Interactive), the verifier with coins instead of the log's hash; `prove` as such a prover | counting from the last challenge to the first: a node at which more than the threshold of challenges lead to good subtrees is good, the others contribute at most the threshold (Lemmas/Interactive), then C21; `prove` and `create_ipp` run twice with equal first challenges send equal first messages (Lemmas/PublicCoin), C17 |
| C63 | nothing new: linear functions of the answers of a prover (Spec/Opening) | the constraints are linear in the committed values: a left inverse of their coefficients (where determined) and a basis of the combinations without committed values exist by duality of finite-dimensional spaces; applied to the commitments (C21) they give openings, or a relation between `g` and `h`; the statements determine their commitments (`Pinned`, C61) |
| C64 | `new`, `update` (also stopped after any number of insertions), `clone`, `get` of both trees, on one shared database | invariant over the calls: every child list of every tree of the specification is in the database under its hash; insertions keep this when there is no collision; the first `k` insertions of an update are an update of a subtree |
| C65 | the verifier's calls for all statements of `Stmt` (14 kinds), the prover in step with it | a counting logic for programs (`VC`) and drivers (`DC`): each gadget adds a number of gates and constraints that is computed by induction on the loops; then C19 (generators), C58/C61 (game) and C62 (interactive) with the closed forms |
| C66 | `prove`, `commit`, the challenges | `Distinguisher` (adaptive: asks the oracle, gets proofs, decides) in Spec/RandomOracle, run in a world with the code's proofs and lazily sampled challenges, and in one with `Verifier.simulate` and programmed challenges; induction on the distinguisher: the coins of each proof are renamed by the bijection of C56, and the worlds only differ if `y` or `x` is zero or the oracle has been asked about a log with the proof's first point, whose blinding makes it uniform |
| C67 | `Prover::new`, `prove`, `Verifier::new`, `verify` | `proveChain`, `verifyChain`, `chainLog` in Spec/Chain: each prover and verifier continues the transcript of the one before; induction on the chain with C17 and the log of a proof (C09); the log is decoded front to back (the number of rounds is logged as `n`); two pairs of final scalars: the difference of the two accepted equations is `finalRelation` |
| C68 | the same provers as in C62; programs that draw scalars and run the prover with challenges of their choice (`Rewinding` in Spec/Extractor, with expected values and outcomes), the extractor `extractor` | two recursions for drawing without repetition: the expected number of runs and the probability of failure of the search below one challenge, each bounded by induction on the number of challenges left after exchanging two sums; then induction on the number of draws; what is found makes the tree of C62 |
| C69 | the tables of poseidon_constants.rs for all features (`Curve` in Model/Gadgets/Curves), `PoseidonParams::new`, `Poseidon_permutation` | Pratt certificates for the orders; one elimination check for all square submatrices, evaluated by the kernel, and a proof by double induction that it bounds the number of zeros of the image; fifth powers are undone by an explicit exponent; explicit third roots of unity; for bn254 the negation, with the order for which the tables are right |
| C70 | `challenge_scalar` from bytes (Model/Challenge: the number the bytes are, big-endian, reduced), MODBYTES of the four curves | the numbers below 256^m fall into ⌊256^m/n⌋ full runs of residues and a part of one: exact distribution; hybrid argument over the challenges; events of C59, C62 (`c70_transfer`) and the worlds of C66 replayed with oracles that answer bytes; numeric evaluation for the curves; for bn254 the negation |
| C71 | the STROBE operations merlin makes of every event (Model/Merlin: framing with label and length, `to_le_bytes`, `to_bytes`), adversaries that ask operations (Spec/Merlin) | every event is two operations from which its kind, label and contents can be read; so logs are determined; questions that are no logs are sent to logs that the code cannot make, injectively, which turns the adversaries into those of C59, C66 and C70 |
| C72 | the second phase of Model/Prover and Model/Verifier; a shuffle argument written as client code (Model/Gadgets/Shuffle; not in /repo, which has no client of this interface) | the first-phase values are a function of the log before the callback's challenge (they are extracted from A_I1, the commitments being binding), so a challenge for which the constraints hold although the claim fails is bad in the sense of C59; one more rule of bad answers in its game. Shuffle: two monic products that agree at more than k points are equal, so their roots are |
| C73 | both phases of Model/Prover; the distinguishers of C66 with coins for the gates and challenges of the callbacks, whose numbers come from a dry run (Spec/RandomizedZK) | the callbacks only ask questions that extend the log of their own run, which contains the random first point; the simulator of C56 handles both phases; then the game of C66 with the challenges shifted. Shuffle: satisfied for every challenge; its circuit draws nothing more |
| C74 | random points indexed by messages, relations between them, the solver `logOf` and the relation finder `findRelation` made from a prover (Spec/DiscreteLog); `getGenerators` (Model/Utils); the provers of C59 | the solver plants `α_i B + β_i X`: these are uniform points, independent of `β`, so a relation cancels the coefficients of `X` with probability 1/|F| only. A prover that deceives the verifier either wins the game of C59, or one of the finitely many candidates of `Relation` is a relation; the sizes come from C65 |
| C75 | statements whose parameter is the constant of the last constraint (`Closes`), a prover that runs the code's `prove` on arbitrary wires (`madeUp`), the parameter `fitting` computed from the challenge z, and the game in which the prover chooses the parameter (Spec/PublicInputs) | `prove` ignores the constants of the constraints; the verifier's only use of them is `wc`, the sum of z^(i+1) c_i. So whatever the wires violate can be moved into the last constant, once z is known; the result differs from the true parameter unless z is a root of a fixed polynomial. Instances: wires that are all zero violate the MiMC and Merkle statements. Positive part: bad sets by label (C58) and a union bound |
| C76 | somebody who takes an honest proof as it is, asks the oracle, and picks the verifier it is sent to (`Replayer`, Spec/Replay); the oracle keeps the answers it gave to the honest prover (`seen`) | the coefficient of the blinding generator in the verifier's second equation: for a proof made by `prove` it is a cubic polynomial in x whose coefficients are the blindings of the prover, whatever the other verifier's challenges and statement are; so u and x of that verifier hit a set of at most three values fixed before they are drawn. Logs with different labels or commitments have no draw in common. One parameter: the verifier's weights differ in `wc` only, by z^n (a' - a), and so does the first equation |
| C77 | both `get_weight_matrices`, `flattened_constraints_elaborated`, `multiply_row_vector_with_matrix` of amcl_wrapper (Model/Matrices) | where the entry is still zero, assigning is adding: a row is the flattening of its constraint with z = 1; weights are determined by their residuals (C10). Counterexample for a repeated variable |
| C78 | `gen_proof_*` with `?` (`genProof`) and with `.unwrap()` (`genProofUnwrap`, Model/Unwrap) | an honest prover has the known number of gates (`HonestPair`), then C19; concrete panics of the three functions that unwrap |
| C79 | `R1CSProof.withScalars` (Spec/Malleable) | the accepted honest proof opens all points, so the two equations (C20) of the other proof, at the same challenges up to u and x, fix t_x, t_x_blinding and e_blinding (independence); then w and the rounds are the same and a, b are unique (C67) |
| C80 | `Made`, `known`, `Forger.ForgesAfter` (Spec/After) | the draws of the proofs seen are logs that begin with another label or other commitments than the forged proof, so the verifier's challenges are fresh and C58/C61 apply; the commitments of a list of statements can be read off the verifier's state |
| C81 | the verifying functions of all gadgets (Model/Gadgets, `Stmt.verify`), `commitments.remove(0)` as `takeComms` | induction over the gadgets: each is total on the verifier's side (`VT`, Lemmas/Gadgets/Total); how a function ends depends only on the number of commitments; panic and ignoring of the rest by cases |
| C82 | as C81, `Verifier.verify`, `flattened_constraints` | induction over the gadgets: only variables in range are constrained (`VR`, Lemmas/Gadgets/Range), then C49 |
| C83 | the proving and verifying functions of the gadgets, `genProof`, `verifyProof` | the run before `prove` draws no challenge (`withOracle`); prover and verifier stay in step also on false inputs (`Shared`, `Follows`); soundness of each gadget gives an unsatisfied constraint; the proof of a wrong assignment fails the check by exactly `x² · Σ zⁱ cᵢ` (C11) |
| C84 | as C61; `val : G → F`, one value for each commitment (Spec/Linked) | uniqueness of openings (C61) turns `AllHold` into truth of `val`, claims depend on the statement's own commitments only; with C58 the game |
| C85 | `mimc`, `prove_mimc_preimage`, `verify_mimc_preimage` | `mimcBack` (Spec/Mimc) runs the rounds backwards; both compositions are the identity by induction; with a prescribed second input the image is a monic polynomial of degree 3^rounds in the first |
| C86 | `Verifier::verify`, all `verify_*` functions | `chooseGenerator` (Spec/Chosen): a proof of identities only, with `t_x` from the openings for the first equation and `a` such that `G[0]` has coefficient 1 in the second, which is then solved for `G[0]`; the naturality of the drivers (C60) for the openings of all commitments |
| C87 | all `prove_*` functions, `Prover::prove` | a structural account of the variables a gadget program uses (`Prog.Scoped`: only ones it was given or has allocated), so that the prover's evaluations succeed; the verifier's run (C81) and the pairing of the programs (C04) for everything else; `c19_prove_enough` for the proof |
| C88 | `Prover::prove`, all `prove_*` functions | the negation: an observer who repeats the verifier's steps (`observe`) knows `x` and the weights of each proof; `t_x_blinding` and `e_blinding` are polynomials in `x` whose coefficients are the coins, so that linear combinations of the proofs give the blindings of the commitments, and three proofs give the commitment to the wires without its blinding; that the label changes nothing in the prover but the transcript is a lemma over all proving functions (`Drv.Blind`) |
| C89 | all `gen_proof_*` and `verify_proof_*` functions (Model/Api, one definition each) | from the completeness theorems of the pairs `prove_*`/`verify_*` (C26–C46), `c78_same_proofs` for those that `unwrap`, and C83 for false inputs |
| C90 | the permutation and hash functions on lists (Model/Gadgets/Poseidon), `mimc`, the tables | Spec/Hades has the permutation on vectors with Mathlib's matrices; the loop over lists is shown to be that, round by round; with C35 and C32 for proofs, C69 for the matrix |
| C91 | the verifying functions of Model/Api; provers as trees of questions (`Asker`, Spec/Asker), answers drawn when first needed and kept | the tree of questions is walked with answers drawn beforehand (Lemmas/Asker), which gives the prover of C58; the verifying function is the call of C89; then C74 |
| C92 | `Env.hashOrd` (one permutation for each map), the 26 functions of Model/Api, clients as trees of `commit` and gadget calls (`Script`, Spec/HashOrder) | two runs are related by a simulation: equal transcripts, wires and results, constraints equal up to the order of their terms (Lemmas/HashOrder); every gadget keeps the relation (Lemmas/HashOrderGadgets); evaluation and flattening of constraints don't depend on the order |
| C93 | the whole model over a group with any scalar multiplication (`[SMul F G]`); maps to a group of prime order that respect sums and scalars (`PointHom`, Spec/Cofactor), the oracle seen through such a map (`Oracle.along`) | the residual of the verification equation commutes with the map, so acceptance is inherited by the projections (`verify_through`); bad challenges over the group pull back along the map (`BadRule.through`), and the counting of C58 works over any group (Lemmas/GameCount); existence of the map by the Chinese remainder; witness of order 3 for the verdict that depends on the random number |
| C94 | `verifyIpp` as for C13; a prover that chooses the commitment and the proof after asking the oracle (`IppForger`, Spec/IppGame) | a living partial proof (C58) gives a tree of accepted answers, so special soundness (C16) gives the vectors; bad challenges belong to one commitment because it is in the log before them; counting as for C58. Conversely, with `L = R = 0`, `a = b = 1` the verification equation is solved for `P`, and the only vectors that could go with it have inner product `2^k`. `c94_algebraic`: with the generators of the code, which do have relations, for provers that make their points as combinations of them, as for C59 |
| C95 | `createIpp`/`verifyIpp` on vectors filled up with zeros (`padTo`), the commitment of test_ipp_non_power_of_2 (`shortCommit`) | the zeros contribute nothing to the multi-scalar multiplications; C13 for acceptance, C94 and independence of the generators for soundness; vectors of ones for what is not checked |
| C96 | the trees of C36–C39, at two depths | the root is the root over the nodes of any level (`rootOf_split`); the child lists above that level are among those of the deep tree, so its database answers for the shallow one |
| C97 | `verify_proof`, `get`, `update` of C36–C39; what the holder of two proofs computes (`refresh`, Spec/Refresh) | induction over the depth: above the level where the paths part the siblings are unchanged, at that level one of them is the new hash on the other path, below nothing changes; stale proofs by C39 |
| C98 | `prove`, `verify`, `gen_proof_*`, `verify_proof_*` as before, `get_generators` (C45) | the two runs are followed side by side: they can part only at the comparison of the number of generators and at the slices, and there only when the shorter vector is too short |
| C99 | `prove`, `verify`, `gen_proof_*`, `verify_proof_*` as before, with all variants of `R1CSError` and panics as separate outcomes | case distinction over the run of `prove` and `verify`: all helpers return a value or panic; the gadgets are shown to run to the end (C81, C87), with the number of gates of C65 |
| C100 | `commit`, `verify_*` as before | a linear left inverse of (x, r) ↦ x g + r h gives the values, so that C55, C58, C61 and C84 apply to combinations; for payments the sums are compared in the field and lifted to numbers by the bounds |
| C101 | `allocate_statics_for_*`, `Poseidon_hash_{2,4}_constraints`, `Poseidon_hash_{2,4}` | the list of statics is computed for all n; the state of the gadget is shown to be the padded state and the theorems about the permutation (C35, C90) are applied at the wider width |
| C102 | `get`, `update`, `verify_proof`, `HashDb` | a proof accepted for the root consists of the true siblings (the induction behind C38), with which the new root is computed; the bad databases are constructed: the one of another tree with an entry that leads from the root to its children |
| C103 | `randomizer_gadget` and its entry points, `HashDb` | two runs of the gadget with different databases are compared call by call (a relation between programs that allows the first one to fail earlier); the bad database is that of the original tree with an entry leading from the new root to its children, with which the gadget is the same program as for two equal trees; a checked database is completed to the full one of C46 |
| C104 | `get_indices_to_modify`, `get_randomized_data`, `randomize`, the tree, both entry points of the randomizer | the contents after the three phases of updates are computed by induction on the lists (C36, C47) and put into C46; that the roots differ is binding of the root |
| C105 | `new`, `get`, `update` as sequences of single requests, a scheduler | the sequences, served alone, are the modelled functions; invariant of the interleaving: each client would do well with a private database, all of whose entries the common one holds, and no insertion by others destroys one, as there is no collision |
| C106 | as C105, with a register for the tree object, exchanged when its root is unchanged | invariant: the register holds the tree of the successful writes in order, all its nodes are in the database, and every busy client is at work on a prefix of that order; equal roots mean equal contents, so that an exchange appends its write to the order |

## 5. Findings (code vs. property), all proved in the model

1. `hamming_distance_gadget` never constrains `var_diff` to equal `original - new`: any two vectors are accepted for any distance (C31; `c31_unsound`, `c31_forgery_end_to_end`).
2. `synthesize_inverse_sbox` never constrains its left wire to the S-box input: any inputs, any non-zero output (C34; `c34_unsound`, `c34_forgery_end_to_end`); an honest prover fails at 0.
3. `vector_product_gadget` never links its bit wire to the bitmap: 0 is accepted for every non-empty set (C29; `c29_unsound`, `c29_zero_forgery_end_to_end`).
4. `verify_leaf_inclusion_*` do not check the number of proof nodes against the depth: every inner node is accepted as a leaf (C43; `c43_inner_node_*`).
5. `verify` only checks the number of L points; a proof with a different number of R points makes it panic (C49; `c49_wrong_R_panics`, `c49_counterexample`); short H panics in `prove` and `verify` (C19).
6. `hamming_distance` and the inverse S-box use `allocate_single(..).1.unwrap()` and panic from a state with a pending multiplier (C53).
7. The cube S-box is not injective on the BLS12-381 scalar field (3 divides r-1), with explicit hash collisions for the shipped parameters (C52).
8. `get_generators` prefixes ending in digits can produce equal generators: ("G", 11) and ("G1", 1) (C45; `c45_ambiguous`).
9. `verify_bounded_num` for a bit size beyond the field accepts values outside the bounds (C26).
10. Trees with more positions than the field has elements (4-ary: depth 128 and more): the index is only compared in the field, so the path of the never written position `order + i` proves that
   index `i` is empty (C57; `c57_denies_written_*`, `c57_end_to_end_4`, concrete tree in Props/Gadgets/AliasDemo).
11. `prove_set_membership_alt` for a set with a repeated element builds a bitmap with several ones, which no verifier accepts (C29; `c29_once_only`).
12. The Poseidon tables for the feature bn254 are made for the field of alt_bn128, not for that of amcl's BN254: no matrix entry is 1/(i + j + width) in the field they are used in, and some numbers exceed its
   order (C69; `c69_bn254_other_field`, `c69_reduced`). The matrices still mix as well as possible (`c69_mds`). For secp256k1 the tables for the widths 3 and 9 are missing, so that the crate does not compile with it.
13. With the feature bn254 a challenge is 32 bytes reduced modulo a 253.2-bit order, which leaves it 1.4 % from uniform (C70; `c70_bn254_biased`); the other curves are within 2^-127 (`c70_curves`). Soundness and zero
   knowledge survive, because no event gains more than a factor 51/50 per challenge (`c70_likelihood`, `c70_factor`) and the simulator's challenges are made in the same way (`c70_zero_knowledge`).
14. Public parameters (the image of a MiMC or Poseidon preimage, the root of a Merkle tree) are not written to the transcript, so that a prover who may choose them gets proofs of false statements accepted: the parameter is computed
   after the challenges (C75; `c75_forgery`, `c75_mimc`, `c75_merkle_4`, `c75_merkle_8`). An application must fix the parameter beforehand, or put it into the transcript itself (`c75_labels_partial`).
15. `gen_proof_for_hamming_distance`, `gen_proof_for_randomizer` and `gen_proof_of_leaf_inclusion_4_ary_merkle_tree` panic (`prove(..).unwrap()`) where the other ten functions return `InvalidGeneratorsLength` (C78;
   `c78_hamming_panics`, `c78_randomizer_panics`, `c78_inclusion4_panics`).
16. All verifying functions but the one for Hamming distance panic when given too few commitments (`commitments.remove(0)` of an empty vector) and silently ignore commitments beyond those they need (C81;
   `c81_few_panics`, `c81_inclusion_panics`, `c81_many_ignored`). For inclusion in Merkle trees
   `c81_inclusion4_exact`/`c81_inclusion8_exact` say for every number of commitments whether the function panics: one commitment left out of an honest proof's list crashes the verifier (`c81_inclusion4_crash`, `c81_inclusion8_crash`).
17. MiMC with two free inputs is not one-way: the rounds can be run backwards from the image and any value of the half of the state that is thrown away. Anyone can make an accepted proof of knowledge of a preimage of any image
   (C85; `c85_invert`, `c85_collisions`, `c85_anyone`). With a prescribed second input at most 3^rounds preimages are left (`c85_prescribed_partial`).
18. The generators are not in the transcript. Whoever may name one element of `G` can make an accepted proof of any statement about any values it has committed to (C86; `c86_verifier`, `c86_statements`). The element is a combination of the
   other generators (`c86_related`), so generators hashed from labels, as in the tests, are safe; a choice among sets given beforehand costs a factor (`c86_family_partial`).
19. No proving function tests its inputs: for false ones a proof comes out, with no error, that no verifier accepts (C87; `c87_unnoticed`). The exception is `prove_bounded_num`, which in debug builds panics on `val - lower` or
   `upper - val` (`c87_bounded_debug`) and in release builds goes on with the wrapped difference.
20. The prover's random numbers come from the system source alone (`FieldElement::random()`), not also from the transcript and the secrets. If the source repeats, three proofs about the same secrets in different transcripts give away the commitment to
   the wires without its blinding, against which guesses can be tested (`c88_wires`, `c88_guess`), and enough proofs (seven for two commitments) the blindings of the commitments (`c88_blinding`).
21. Neither deserialization nor `verify` checks that points lie in the group of prime order. This does not help to prove anything false (`c93_game`, `c93_algebraic`), but a proof with a point of order 3 in it is accepted or refused depending on the random number the verifier
   draws to combine its two equations (`c93_luck`): verifiers disagree about the same proof.
22. `verify_ipp` is public, but logs neither `P` nor `Q` nor the generators. A caller that does not log `P` first (the tests of the crate do not) accepts a proof for a `P` chosen after the challenges, with which no vectors go (`c94_unlogged`);
   a caller that does log it is safe (`c94_game`). The R1CS verifier, which does not call `verify_ipp`, logs everything `P` is made of.
23. The padding constant separates hashes of different numbers of inputs only if there is room for it (`c101_separation`): `Poseidon_hash_4` of (x, y, 101, 0) with parameters of width 5 is what the gadget for two inputs computes from x and y with the same
   parameters and three statics (`c101_overlap`), so a program that uses both must not take the two hashes for one function without collisions.
24. `get` and `update` believe the database: they do not compare the children they are given with the hash they have asked for. With a store that is not trusted (`HashDb` is a trait), `get` returns whatever the store likes (`c102_get`), and `update` computes
   the new root from siblings of the store's choice, so that one update can replace the contents of the whole tree (`c102_update`). Checking the proof before and after the update prevents this (`c102_checked`).
25. `verify_proof_for_randomizer` uses the root of the new tree only as the first key it looks up; the constraints contain the children found there, and nothing ties them to the root. With a database from the prover, the verifier accepts the original tree in place of any
   new root (`c103_believed`). A verifier that checks that each answer hashes to its key is safe (`c103_checked`).

## 6. Hypotheses carried by theorems

* C13/C17 and all `EndToEnd` theorems: round challenges and y are non-zero (they are hashes; for a zero challenge the code would invert 0),
  at most 31 rounds, at least the padded number of generators on both sides.
* C17 for at most one gate: `batch_invert` is then called with an empty list, about which nothing is documented; the theorem asks for its success.
* C26: bounds below the group order, `2^n` at most the group order (otherwise false, see findings).
* C36–C39: no collision among the child lists hashed in the history, or the collision is an explicit alternative in the conclusion.
* C41/C42/C46: S-box cube or quint (C34 shows inverse is unsound); depth such that the index digits fit MODBYTES.
* C16/C21/C55: a full tree of accepting answers; generators independent, or the conclusion offers the relation.
* C22: h generates the group (`a ↦ a • h` bijective) and the drawn x, y are non-zero.  C56: the same, and an oracle whose answers only depend on the position in the log (which events before it are challenges). C66: h generates the group; the hash that makes challenges is a random oracle; the statements have no randomized constraints (no gadget of the crate has any), their witnesses satisfy them, and there are enough generators. C67: all challenges drawn along the chain are non-zero (completeness); statements of the chain have no randomized constraints; the same random scalar and non-zero challenges (final scalars).
* C59: provers are algebraic (they give the combination for each point they make); the bound counts the answers for which the verifier accepts and no relation is found.
* C58/C59: in the game a prover asks any questions in any order (also the same one repeatedly), then chooses the commitments and the proof, and the verifier asks the challenges of the proof; the bound counts the questions of both. It is for statements without randomized constraints, which all gadgets of the code are. c58_attack and c59_attack are for any circuit (also with randomized constraints) that is fixed beforehand, and count provers that have asked all the challenges of the proof themselves.
* C62: the verifier's challenges are drawn uniformly and do not depend on the log; the prover is a function of the challenges it has seen (its coins are fixed). C68: the same; there is no other hypothesis on how often the prover is accepted.
* C70: the bytes the transcript returns are uniformly random and, for different logs, independent.
* C71: STROBE is a random function of the sequence of operations (its sponge and its block encoding are external); scalars and points are encoded injectively, with fixed lengths that differ from each other and from 8; callers use no label `dom-sep` of their own (`Transcript.Regular`); sizes are below 2^64 (`c71_u64_wraps` shows that this is needed); the forger is algebraic.
* C72: as C59 (independent generators, or a prover that finds no relation between them in `c72_algebraic`; finite field; the prover asked for every challenge that the verifier draws); the callback draws one challenge first (`Randomizes`); all systems that it builds have at most B gates and constraints. The shuffle gadget is our own client code.
* C73: as C66 (every point is a multiple of the blinding generator, random oracle); the callbacks succeed, and the constraints are satisfied, for every challenge, and the numbers of challenges and gates do not depend on the challenges (`Provable2`; shown for shuffles and for all statements of C66).
* C74: every point is a unique multiple of the base `B` (a group of prime order, as the subgroup G1 is); `G1::from_msg_hash` is a random function; the prover is algebraic (C59); the statements are as in C61 (`Stmt.Ok`). The cost of the solver (one run of the prover, one run of the verifier's computation and a search among the points of the questions) is visible from its definition but running time is not formalised.
* C75: forgeries: known openings of the commitments, generators for the number of gates, and challenges outside of a set of at most (number of constraints + 1) values that is fixed beforehand; MiMC: the first left wire x + c_0 is not 0; trees: depth > 0, an S-box other than inverse. Positive part: independent generators (C58), one size for all parameters, injective labels or finitely many parameters.
* C76: the blinding generator h is not a combination of the others, the three first blindings are not all zero; targets without randomized constraints. One parameter: g is not 0, no challenge is 0, and acceptance for two values of the verifier's random scalar (C20).
* C77: no variable occurs twice in a constraint (true of simplified constraints), and there is at least one constraint.
* C78: the statement is true and the inputs are honest (`HonestPair`, which the completeness theorems of the gadgets provide), and there are not fewer generators H than G (fewer H panic everywhere, C19).
* C79: generators without a relation, and an oracle that never answers 0 (as in C17); "at most one value of the random scalar" is stated as: no two values are accepted.
* C80: as C58/C61 (generators without a relation). The proofs seen are made with `prove`, by whatever prover state its interface can reach; those with the same label must be about commitments for which the claim holds. (A proof about the same commitments and label for another statement has the same transcript prefix, see C75.)
* C81: `Stmt.Runs` (bounds in order in debug builds, enough MiMC constants, valid Poseidon parameters of the right width) and no half allocated gate; for the randomizer a tree from a collision free history, depth not 0 and a new verifier.
* C82: `c82_in_range` none. For the check: as many R as L (otherwise C49), `nextPowerOfTwo gates` generators H, non-zero challenges, and batch inversion of the empty list only if the proof has no rounds.
* C83: `Stmt.Ok` public parameters, `g ≠ 0`, non-zero challenges, fewer than 2^32 generators, siblings of the right number per level, batch inversion of the empty list. The Hamming distance and the randomizer are treated apart, each as the only statement of a proof (`c83_hamming`, `c83_randomizer`); for the randomizer no hash collision between the original tree and the new one with the listed values put back.
* C84: no relation between `g` and `h` (needed: `c84_related`); for the game none between all generators; `Stmt.Ok`; as many commitments as the statements have.
* C85: as many constants as rounds (otherwise `mimc` panics); for `c85_anyone` those of C32.
* C86: the challenges are not zero; enough generators; the parameters are ones with which the verifying functions run (C81). `c86_family_partial`: those of C61 for every set of generators.
* C87: the shapes written out in `Request` (Spec/Request): number of siblings per level, tree depth within the bytes of a field element, lengths of given blindings; the parameters are ones with which the verifying functions run (C81); enough generators. `c87_unnoticed`: those of C83.
* C88: the challenges of the proofs are different and, for `c88_blinding`, such that the linear system has a solution (the observer sees whether it has); one-phase statements.
* C89: those of the completeness theorems of each gadget (C26–C46): the alternative set without the value twice, S-boxes other than the inverse, Merkle proofs of the right shape, trees without hash collisions; challenges not zero; fewer than 2^32 gates. `c89_rejected`: those of C83 (for the Hamming distance and the randomizer see `c83_hamming`, `c83_randomizer`).
* C90: parameters of the right shape (what `PoseidonParams::new` guarantees, `c90_tables`); for preimage proofs an S-box other than the inverse (C34).
* C91: admissible public parameters (`Stmt.Ok`, as for C61), the number of commitments the statement is about (any number in `c91_forge_any`/`c91_game_any`, for all statements but inclusion, where the number of commitments gives the depth), distinct messages for the generators (proved for those of the tests), a group of the order of the field (as for C74); `c91_game` has generators without a relation instead, and then points need not be made from the generators.
* C92: none for the functions of the crate; `c92_client` asks that the client's gadgets do not look at the order of simplified terms (`Steady`), which `c92_gadgets` proves of all gadgets of the crate.
* C93: as C61, with the projected generators independent; `c93_algebraic` assumes nothing of the generators. Of multiplication by scalars outside the group it is only assumed that it agrees with the projection, which holds for multiplication by the representing integer (`c93_curve`), also when that is computed with an endomorphism of the curve.
* C94: `Independent` for the generators including `Q`, non-zero factors, as for C16; `c94_algebraic` does without `Independent`, for provers that make their points as combinations of the generators, and finds a relation otherwise; in `c94_unlogged` the challenges drawn along the one log of the wrong proof are not zero, and `2^k` is not 1 in the field (it is not for `0 < k < 32` in the fields of the crate).
* C95: as C94; `c95_padded` as C13 (non-zero round challenges).
* C96: as C36–C39, for both trees.
* C97: as C36–C39; `c97_one_root` and `c97_one_node` have none.
* C98: the longer vectors begin with the shorter ones; `c98_travel` and `c98_get_generators` take a round trip of C89.
* C99: `p.WF` (the prover's state is one that its own functions build); for the gadgets `Stmt.Runs` and the right number of commitments (C81), a vector `H` not shorter than the number of gates for `c99_proof` (otherwise proving panics, C19).
* C100: `Unrelated` (no relation between g and h; with a relation commitments stand for nothing, c84_related); `c100_balance` needs the number of inputs (outputs) times the bound below the order of the field.
* C101: the width is the number of inputs plus the number of statics and at least one static is asked for; the S-box is not `inverse` (that case is C34); the client code `proveWide`/`verifyWide` is the pattern of the repository's tests with another number of statics.
* C102: collisions are stated as in C36–C39; `c102_update` needs a positive depth and a root that is not by chance a key of the other tree's database; `HashDb.Arrays` (the values are arrays of 4 or 8 entries) is ensured by the types of the code; a database that changes its answers is modelled by two databases, one for each call. In `c102_session` the wrapper that drops every answer whose hash is not the key asked for (`HashDb.audited`) is not part of the code: it is what a user can add.
* C103: `c103_believed` needs a positive depth, a non-empty list of indices and a new root that is not by chance a key of the original database, and the sizes of C46; collisions are between an answer of the database (or a node of the new tree) and a node of the new tree.
* C104: the data fit into the tree, into the field (fewer than its order) and into one limb (2^58, see C47); no collision among the nodes that occur; the sizes of C46. SHAKE, `from_bytes` and the message hash are arbitrary functions.
* C105: all clients use the same hash function and arity; no collision among the nodes that occur in any of their trees; single requests are atomic; each client has its own tree object (two clients that update copies of one tree object get two trees, see C64). The check of `c105_guarded` is code that a user can add, it is not in the crate.
* C106: the register is not part of the crate (`Spec/SharedTree.lean` says how it is used); it is compared and exchanged in one step; each client has one write.

## 7. Axioms per theorem

All theorems depend at most on `propext`, `Classical.choice`, `Quot.sound` (checked by `#print axioms` over all property theorems and by vcheck).
