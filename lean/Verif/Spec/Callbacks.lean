import Verif.Model.CS

/-! # Specification: callbacks are run one after the other -/

namespace Bp
variable {F G : Type} [Field F] [AddCommGroup G] [SMul F G]

/-- The callbacks are run on the prover, each once and in this order, each on the state that the one before has left; the first that fails ends the run with its error (or panic). -/
inductive Prover.RanAll (env : Env F G) : List (Callback F) → Prover F G → Res (Prover F G) → Prop where
  | done (p : Prover F G) : RanAll env [] p (.ok p)
  | next {cb : Callback F} {cbs : List (Callback F)} {p q : Prover F G} {r : Res (Prover F G)} (h1 : p.run2 env cb = .ok ((), q)) (h2 : RanAll env cbs q r) : RanAll env (cb :: cbs) p r
  | fails {cb : Callback F} {cbs : List (Callback F)} {p : Prover F G} {e : Fault} (h1 : p.run2 env cb = .error e) : RanAll env (cb :: cbs) p (.error e)

/-- The same for the verifier. -/
inductive Verifier.RanAll (env : Env F G) : List (Callback F) → Verifier F G → Res (Verifier F G) → Prop where
  | done (s : Verifier F G) : RanAll env [] s (.ok s)
  | next {cb : Callback F} {cbs : List (Callback F)} {s q : Verifier F G} {r : Res (Verifier F G)} (h1 : s.run2 env cb = .ok ((), q)) (h2 : RanAll env cbs q r) : RanAll env (cb :: cbs) s r
  | fails {cb : Callback F} {cbs : List (Callback F)} {s : Verifier F G} {e : Fault} (h1 : s.run2 env cb = .error e) : RanAll env (cb :: cbs) s (.error e)

end Bp
