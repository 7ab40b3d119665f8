import Verif.Model.Driver

/-! # The proof generating functions that `unwrap` -/

namespace Bp
variable {F G : Type} [Field F] [AddCommGroup G] [SMul F G]

/-- The shape of `gen_proof_for_hamming_distance` (hamming_distance.rs:108-131), `gen_proof_for_randomizer` (randomizer.rs:201-282) and `gen_proof_of_leaf_inclusion_4_ary_merkle_tree`
(sparse_merkle_tree_4_ary.rs:132-177): as `genProof`, but with `prover.prove(G, H).unwrap()` in place of `prover.prove(G, H)?`: an error of `prove` becomes a panic, an error of the `prove_*` step is
still returned. -/
def genProofUnwrap (env : Env F G) (label : String) (g h : G) (c : Coins F) (Gs Hs : List G) {α : Type} (d : Drv (Prover F G) α) : Res (R1CSProof F G × α) :=
  match d (Prover.new g h [.init label]) with
  | (.error e, _) => .error e
  | (.ok a, p) =>
    match p.prove env c Gs Hs with
    | .ok (pr, _) => .ok (pr, a)
    | .error (.err _) => Res.panic "called `Result::unwrap()` on an `Err` value"
    | .error (.panic w) => Res.panic w

end Bp
