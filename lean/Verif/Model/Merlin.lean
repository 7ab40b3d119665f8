import Verif.Model.Transcript

/-! # What the transcript does with bytes: src/transcript.rs over merlin

`Model/Transcript` logs typed events.  The code hands bytes to merlin, which hands them to STROBE with a frame around them.  This file models which operations STROBE gets.  STROBE itself (how the operations become blocks of the
sponge) is not modelled: a challenge is a function of the sequence of operations. -/

namespace Bp

/-- The STROBE operations that merlin uses.  `meta_ad(label, false); meta_ad(length, true)` is one operation, the second call continues the first.  What is behind the calls of src/transcript.rs:30-60. -/
inductive StrobeOp where
  /-- `meta_ad` -/
  | metaAd (d : List UInt8)
  /-- `ad` -/
  | ad (d : List UInt8)
  /-- `prf`, with the length of the buffer that is filled -/
  | prf (len : ℕ)
deriving DecidableEq

/-- The bytes of a label (`&'static [u8]`).  The labels of src/transcript.rs:30-60. -/
def utf8 (s : String) : List UInt8 := s.toByteArray.data.toList

/-- `to_le_bytes` of an unsigned integer with `k` bytes; merlin's `encode_u64`, `encode_u32`.  `n.to_le_bytes()`, src/transcript.rs:32, and the lengths that merlin writes. -/
def leBytes : ℕ → ℕ → List UInt8
  | 0, _ => []
  | k + 1, n => UInt8.ofNat n :: leBytes k (n / 256)

/-- How scalars and points become bytes: `FieldElement::to_bytes`, `G1::to_bytes` of amcl_wrapper; and MODBYTES, the number of bytes of a challenge (transcript.rs:56). -/
structure Wire (F G : Type) where
  scalar : F → List UInt8
  point : G → List UInt8
  modBytes : ℕ

/-- `Transcript::append_message` of merlin.  Called at src/transcript.rs:31-52. -/
def appendMessage (label msg : List UInt8) : List StrobeOp := [.metaAd (label ++ leBytes 4 msg.length), .ad msg]

/-- `Transcript::challenge_bytes` of merlin.  Called at src/transcript.rs:57. -/
def challengeBytes (label : List UInt8) (len : ℕ) : List StrobeOp := [.metaAd (label ++ leBytes 4 len), .prf len]

/-- The operations for an event.  `Transcript::new(l)` (after the initial state, which is always the same) is `append_message(b"dom-sep", l)`; domain separators are transcript.rs:30-45, numbers are appended by merlin's
`append_u64` or as `n.to_le_bytes()` (transcript.rs:32), scalars by transcript.rs:47-49, points by transcript.rs:51-53, challenges are drawn by transcript.rs:55-60. -/
def TEvent.ops {F G : Type} (W : Wire F G) : TEvent F G → List StrobeOp
  | .init l => appendMessage (utf8 "dom-sep") (utf8 l)
  | .domSep s => appendMessage (utf8 "dom-sep") (utf8 s)
  | .u64 l n => appendMessage (utf8 l) (leBytes 8 n)
  | .point l p => appendMessage (utf8 l) (W.point p)
  | .scalar l x => appendMessage (utf8 l) (W.scalar x)
  | .challenge l => challengeBytes (utf8 l) W.modBytes

/-- The operations for a log.  For the methods of src/transcript.rs:30-60. -/
def Transcript.ops {F G : Type} (W : Wire F G) (t : Transcript F G) : List StrobeOp := t.flatMap (TEvent.ops W)

/-- The challenge for a log, if `H` is the challenge for a sequence of operations.  src/transcript.rs:55-60. -/
def Oracle.ofOps {F G : Type} (W : Wire F G) (H : List StrobeOp → F) : Oracle F G := fun t => H (t.ops W)

end Bp
