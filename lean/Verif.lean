import Verif.Model.Basic
import Verif.Model.LinComb
import Verif.Model.Transcript
import Verif.Model.VecPoly
import Verif.Model.Env
import Verif.Model.Ipp
import Verif.Model.Prog
import Verif.Model.CS
import Verif.Model.R1CS
import Verif.Spec.Semantics
import Verif.Lemmas.LC
import Verif.Props.LinComb
import Verif.Spec.CS
import Verif.Lemmas.CS
import Verif.Lemmas.CS2
import Verif.Props.CS
import Verif.Spec.Lockstep
import Verif.Lemmas.Lockstep
import Verif.Props.Lockstep
import Verif.Lemmas.Sums
import Verif.Spec.Flatten
import Verif.Lemmas.Flatten
import Verif.Props.Flatten
import Verif.Lemmas.VecPoly
import Verif.Props.VecPoly
import Verif.Spec.Ipp
import Verif.Lemmas.Ipp
import Verif.Lemmas.Ipp2
import Verif.Props.Ipp
import Verif.Spec.R1CS
import Verif.Lemmas.Verify
import Verif.Lemmas.Verify2
import Verif.Lemmas.Prove
import Verif.Lemmas.Honest
import Verif.Lemmas.Complete
import Verif.Spec.Log
import Verif.Lemmas.Log
import Verif.Lemmas.Prove2
import Verif.Props.R1CS
import Verif.Props.Verify
import Verif.Model.Driver
import Verif.Model.Gadgets.Basic
import Verif.Model.Gadgets.Simple
import Verif.Model.Gadgets.Poseidon
import Verif.Spec.Gadgets
import Verif.Lemmas.Gadgets.Frame
import Verif.Lemmas.Gadgets.Helpers
import Verif.Lemmas.Gadgets.Simple
import Verif.Lemmas.Gadgets.Hamming
import Verif.Lemmas.Gadgets.Driver
import Verif.Lemmas.Gadgets.ZMod
import Verif.Lemmas.Bls
import Verif.Props.Gadgets.Basic
import Verif.Lemmas.Gadgets.Zip
import Verif.Lemmas.Gadgets.Count
import Verif.Lemmas.Gadgets.Poseidon
import Verif.Lemmas.Gadgets.PoseidonHash
import Verif.Lemmas.Gadgets.PoseidonFun
import Verif.Model.Gadgets.PoseidonTables
import Verif.Lemmas.Gadgets.PoseidonInj
import Verif.Spec.Compose
import Verif.Props.Gadgets.Sets
import Verif.Props.Gadgets.Alt
import Verif.Props.Gadgets.Alt2
import Verif.Props.Gadgets.Hamming
import Verif.Props.Gadgets.Mimc
import Verif.Props.Gadgets.Compose
import Verif.Props.Gadgets.Poseidon
import Verif.Props.Gadgets.PoseidonInj
import Verif.Model.Gadgets.Tree
import Verif.Spec.Tree
import Verif.Lemmas.Gadgets.Tree
import Verif.Props.Gadgets.Tree
import Verif.Props.Gadgets.Merkle
import Verif.Props.Gadgets.Alias
import Verif.Props.Gadgets.AliasDemo
import Verif.Model.Utils
import Verif.Props.Utils
import Verif.Model.Gadgets.Randomizer
import Verif.Spec.Randomizer
import Verif.Lemmas.Gadgets.Randomizer
import Verif.Lemmas.Gadgets.RandomizerHonest
import Verif.Props.Gadgets.Randomizer
import Verif.Spec.Soundness
import Verif.Lemmas.Extract
import Verif.Props.Soundness
import Verif.Spec.Soundness2
import Verif.Lemmas.Interp
import Verif.Lemmas.ExtractR1CS
import Verif.Lemmas.ExtractR1CS2
import Verif.Props.SoundnessR1CS
import Verif.Props.SoundnessExample
import Verif.Spec.ZK
import Verif.Lemmas.ZK
import Verif.Lemmas.ZK2
import Verif.Props.ZK
import Verif.Spec.Knowledge
import Verif.Lemmas.Knowledge
import Verif.Props.Knowledge
import Verif.Spec.Simulator
import Verif.Lemmas.ZK3
import Verif.Lemmas.ZK4
import Verif.Lemmas.ZK5
import Verif.Props.Simulator
import Verif.Spec.FiatShamir
import Verif.Lemmas.FiatShamir
import Verif.Lemmas.FiatShamir2
import Verif.Lemmas.Attack
import Verif.Lemmas.Uniform
import Verif.Lemmas.Game
import Verif.Lemmas.UnitVec
import Verif.Props.FiatShamir
import Verif.Props.FiatShamirExample
import Verif.Lemmas.Gadgets.OnePhase
import Verif.Spec.Algebraic
import Verif.Lemmas.Algebraic
import Verif.Lemmas.Algebraic2
import Verif.Lemmas.Algebraic3
import Verif.Props.Algebraic
import Verif.Props.AlgebraicExample
import Verif.Model.Gadgets.Factors
import Verif.Lemmas.Gadgets.Factors
import Verif.Props.Gadgets.Factors
import Verif.Lemmas.Gadgets.Pinned
import Verif.Lemmas.Gadgets.Pinned2
import Verif.Lemmas.Gadgets.Pinned3
import Verif.Spec.Statements
import Verif.Lemmas.Statements
import Verif.Props.Statements
import Verif.Spec.Interactive
import Verif.Lemmas.Interactive
import Verif.Lemmas.PublicCoin
import Verif.Props.Interactive
import Verif.Spec.Opening
import Verif.Lemmas.Opening
import Verif.Props.Opening
import Verif.Spec.Forest
import Verif.Lemmas.Gadgets.Forest
import Verif.Props.Gadgets.Forest
import Verif.Spec.Sizes
import Verif.Lemmas.Gadgets.Sizes
import Verif.Lemmas.Sizes
import Verif.Props.Sizes
import Verif.Spec.RandomOracle
import Verif.Lemmas.RandomOracle
import Verif.Lemmas.Average
import Verif.Lemmas.RandomOracle2
import Verif.Lemmas.RandomOracle3
import Verif.Props.RandomOracle
import Verif.Spec.Chain
import Verif.Lemmas.Chain
import Verif.Props.Chain
import Verif.Spec.Extractor
import Verif.Lemmas.Extractor
import Verif.Props.Extractor
import Verif.Model.Gadgets.PoseidonTables2
import Verif.Model.Gadgets.Curves
import Verif.Spec.Mds
import Verif.Lemmas.Curves
import Verif.Lemmas.Gadgets.Mds
import Verif.Lemmas.Gadgets.MdsTables
import Verif.Props.Gadgets.Curves
import Verif.Model.Challenge
import Verif.Spec.Challenge
import Verif.Lemmas.Challenge
import Verif.Lemmas.ChallengeZK
import Verif.Props.Challenge
import Verif.Model.Merlin
import Verif.Spec.Merlin
import Verif.Lemmas.Merlin
import Verif.Lemmas.MerlinGame
import Verif.Lemmas.MerlinZK
import Verif.Props.Merlin
import Verif.Spec.Randomized
import Verif.Lemmas.Randomized
import Verif.Props.Randomized
import Verif.Model.Gadgets.Shuffle
import Verif.Lemmas.Gadgets.Shuffle
import Verif.Props.Shuffle
import Verif.Props.ShuffleExample
import Verif.Spec.RandomizedZK
import Verif.Lemmas.RandomizedZK
import Verif.Props.RandomizedZK
import Verif.Spec.DiscreteLog
import Verif.Lemmas.DiscreteLog
import Verif.Props.DiscreteLog
import Verif.Spec.PublicInputs
import Verif.Lemmas.PublicInputs
import Verif.Props.PublicInputs
import Verif.Props.PublicInputsExample
import Verif.Spec.Replay
import Verif.Lemmas.Replay
import Verif.Props.Replay
import Verif.Model.Matrices
import Verif.Spec.Matrices
import Verif.Lemmas.Matrices
import Verif.Props.Matrices
import Verif.Model.Unwrap
import Verif.Props.Gadgets.Generators
import Verif.Spec.Malleable
import Verif.Props.Malleable
import Verif.Spec.After
import Verif.Props.After
import Verif.Spec.Total
import Verif.Lemmas.Gadgets.Total
import Verif.Props.Total
import Verif.Lemmas.Gadgets.Range
import Verif.Props.Range
import Verif.Spec.Refuted
import Verif.Lemmas.Refuted
import Verif.Props.Refuted
import Verif.Props.Refuted2
import Verif.Spec.Linked
import Verif.Props.Linked
import Verif.Spec.Mimc
import Verif.Props.Gadgets.MimcBack
import Verif.Spec.Chosen
import Verif.Props.Chosen
import Verif.Spec.Request
import Verif.Lemmas.Gadgets.Scope
import Verif.Props.Request
import Verif.Spec.Reuse
import Verif.Lemmas.Reuse
import Verif.Props.Reuse
import Verif.Model.Api
import Verif.Spec.Api
import Verif.Props.Api
import Verif.Spec.Hades
import Verif.Lemmas.Gadgets.Hades
import Verif.Props.Gadgets.Hades
import Verif.Spec.Asker
import Verif.Lemmas.Asker
import Verif.Props.Asker
import Verif.Spec.HashOrder
import Verif.Lemmas.HashOrder
import Verif.Lemmas.HashOrderGadgets
import Verif.Props.HashOrder
import Verif.Spec.Cofactor
import Verif.Lemmas.GameCount
import Verif.Lemmas.Cofactor
import Verif.Props.Cofactor
import Verif.Spec.IppGame
import Verif.Lemmas.IppGame
import Verif.Props.IppGame
import Verif.Props.Padded
import Verif.Props.Small
import Verif.Spec.IppAlgebraic
import Verif.Lemmas.IppAlgebraic
import Verif.Props.IppAlgebraic
import Verif.Props.Gadgets.Depths
import Verif.Lemmas.Gadgets.Nodes
import Verif.Props.Nodes
import Verif.Props.AskerMany
import Verif.Spec.Refresh
import Verif.Props.Gadgets.Refresh
import Verif.Spec.Prefix
import Verif.Props.Prefix
import Verif.Props.Errors
import Verif.Spec.Callbacks
import Verif.Props.Callbacks
import Verif.Spec.Linear
import Verif.Props.Linear
import Verif.Spec.Statics
import Verif.Props.Statics
import Verif.Spec.Untrusted
import Verif.Props.Gadgets.Untrusted
import Verif.Spec.Believed
import Verif.Lemmas.Gadgets.Believed
import Verif.Props.Gadgets.Believed
import Verif.Props.Gadgets.Audited
import Verif.Spec.Flow
import Verif.Props.Gadgets.Flow
import Verif.Spec.Clients
import Verif.Props.Gadgets.Clients
import Verif.Props.Gadgets.LightClient
import Verif.Spec.SharedTree
import Verif.Props.Gadgets.SharedTree
