import Verif.Model.Basic

/-! # Transcript: src/transcript.rs over merlin

A merlin transcript is modelled by the list of everything absorbed so far (latest event last).  A challenge is an arbitrary
function (`O`, the oracle) of that list.  Drawing a challenge is itself an event (merlin ratchets its state). -/

namespace Bp

/-- One transcript operation, with its label and payload.  The calls that src/transcript.rs:30-60 makes. -/
inductive TEvent (F G : Type) where
  /-- `Transcript::new(label)` -/
  | init (label : String)
  /-- `append_message(b"dom-sep", s)` -/
  | domSep (s : String)
  /-- `append_u64(label, n)` / `append_message(label, &n.to_le_bytes())` -/
  | u64 (label : String) (n : ℕ)
  /-- `commit_point`, transcript.rs:51-53 -/
  | point (label : String) (p : G)
  /-- `commit_scalar`, transcript.rs:47-49 -/
  | scalar (label : String) (x : F)
  /-- `challenge_scalar`, transcript.rs:55-60 -/
  | challenge (label : String)
deriving DecidableEq

/-- The log of a transcript.  The state behind src/transcript.rs:29-61. -/
abbrev Transcript (F G : Type) := List (TEvent F G)

/-- The random oracle: a challenge as a function of the whole log, the last event being the draw itself.  src/transcript.rs:55-60. -/
abbrev Oracle (F G : Type) := Transcript F G → F

namespace Transcript
variable {F G : Type}

/-- `Transcript::new`, merlin.  Called by the users of src/r1cs/prover.rs:84 and src/r1cs/verifier.rs:97. -/
def new (label : String) : Transcript F G := [.init label]

/-- `innerproduct_domain_sep`, transcript.rs:30-33. -/
def ippDomainSep (t : Transcript F G) (n : ℕ) : Transcript F G := t ++ [.domSep "ipp v1", .u64 "n" n]

/-- `r1cs_domain_sep`, transcript.rs:35-37. -/
def r1csDomainSep (t : Transcript F G) : Transcript F G := t ++ [.domSep "r1cs v1"]

/-- `r1cs_1phase_domain_sep`, transcript.rs:39-41. -/
def r1cs1PhaseDomainSep (t : Transcript F G) : Transcript F G := t ++ [.domSep "r1cs-1phase"]

/-- `r1cs_2phase_domain_sep`, transcript.rs:43-45. -/
def r1cs2PhaseDomainSep (t : Transcript F G) : Transcript F G := t ++ [.domSep "r1cs-2phase"]

/-- `append_u64`, merlin.  Called at src/r1cs/prover.rs:327, src/r1cs/verifier.rs:279. -/
def appendU64 (t : Transcript F G) (label : String) (n : ℕ) : Transcript F G := t ++ [.u64 label n]

/-- `commit_scalar`, transcript.rs:47-49. -/
def commitScalar (t : Transcript F G) (label : String) (x : F) : Transcript F G := t ++ [.scalar label x]

/-- `commit_point`, transcript.rs:51-53. -/
def commitPoint (t : Transcript F G) (label : String) (p : G) : Transcript F G := t ++ [.point label p]

/-- `challenge_scalar`, transcript.rs:55-60: returns the challenge and the new log. -/
def challengeScalar (O : Oracle F G) (t : Transcript F G) (label : String) : F × Transcript F G :=
  let t' := t ++ [.challenge label]
  (O t', t')

end Transcript
end Bp
