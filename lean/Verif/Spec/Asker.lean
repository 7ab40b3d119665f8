import Verif.Spec.Api
import Verif.Spec.DiscreteLog
import Verif.Spec.RandomOracle

/-! # Specification: somebody who asks a random hash, and then calls a verifying function

The game is played as it is usually described: the hash is a random function, whose values are drawn when they are first needed.  A cheating prover asks it whatever it likes, one question after the other, and each question may depend on
all the answers so far; in the end it hands over commitments and a proof.  Then somebody calls the verifying function of the crate, which asks the same hash for its challenges. -/

namespace Bp
variable {F G M ι α : Type} [Field F] [AddCommGroup G] [Module F G]

/-- Somebody who asks the hash questions, and ends with `a`.  (`M` are the points as they know them: combinations of given points, say.) -/
inductive Asker (F M α : Type) where
  | done (a : α)
  | ask (q : Transcript F M) (next : F → Asker F M α)

namespace Asker

/-- At most `Q` questions, whatever the answers. -/
def Within : Asker F M α → ℕ → Prop
  | done _, _ => True
  | ask _ next, Q => ∃ Q', Q = Q' + 1 ∧ ∀ a, (next a).Within Q'

/-- What is to be expected of the game, when `K` are the questions answered so far: a question that has been answered gets the same answer, another one gets a random answer.  In the end, `verdict` is what is expected of the rest of the
game, given all the answers. The hash sees the points `f m`. -/
noncomputable def chance (f : M → G) (verdict : Answered F G → α → ℚ) : Asker F M α → Answered F G → ℚ
  | done a, K => verdict K a
  | ask q next, K => match K (q.mapG f) with
    | some a => (next a).chance f verdict K
    | none => avg fun a : F => (next a).chance f verdict (K.add (q.mapG f) a)

end Asker

/-- Somebody hands over commitments and a proof, after the questions `K` have been answered.  With which probability does the verifying function for the statement `st` accept them, although `claim` is false of the (right number of)
commitments?  The challenges which have not been asked for yet are random, and so is the random number that the verifying function draws. -/
noncomputable def Stmt.fooled [ByteRep F] [DecidableEq G] (st : Stmt F) (env : Env F G) (label : String) (f : M → G) (claim : List M → Prop) (g h : G) (Gs Hs : List G) (K : Answered F G) (sub : List M × R1CSProof F M) : ℚ :=
  prob fun x : (Fin (drawsOf [st]) → F) × F => sub.1.length = st.size ∧ ¬ claim sub.1 ∧
    st.check (env.withOracle (K.over (nextCoins [] (List.ofFn x.1)))) (sub.2.mapG f) (sub.1.map f) label g h Gs Hs x.2 = .ok ()

namespace Asker

/-- Go on with the answers `cs` to questions that have not been answered; `K` are those answered. -/
noncomputable def walk (f : M → G) : Asker F M α → Answered F G → List F → Asker F M α × Answered F G
  | done a, K, _ => (done a, K)
  | ask q next, K, cs => match K (q.mapG f) with
    | some a => (next a).walk f K cs
    | none => match cs with
      | [] => (ask q next, K)
      | a :: cs => (next a).walk f (K.add (q.mapG f) a) cs

/-- The next question.  (Who has ended asks something that does not matter.) -/
def question : Asker F M α → Transcript F M
  | done _ => []
  | ask q _ => q

/-- What somebody who has ended has ended with. -/
def result (dflt : α) : Asker F M α → α
  | done a => a
  | ask _ _ => dflt

/-- The same prover, in the form of C58: the next question, and the outcome, as functions of the list of answers. -/
noncomputable def forger [Zero M] (f : M → G) (A : Asker F M (List M × R1CSProof F M)) : Forger F M where
  ask cs := (A.walk f (fun _ => none) cs).1.question
  out cs := ((A.walk f (fun _ => none) cs).1.result ([], ⟨0, 0, 0, 0, 0, 0, 0, 0, 0, 0, 0, 0, 0, 0, ⟨[], [], 0, 0⟩⟩)).2
  coms cs := ((A.walk f (fun _ => none) cs).1.result ([], ⟨0, 0, 0, 0, 0, 0, 0, 0, 0, 0, 0, 0, 0, 0, ⟨[], [], 0, 0⟩⟩)).1

end Asker
end Bp
