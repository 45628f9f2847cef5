/-
Vocabulary for C141.
-/
import Verif.Spec.Session

namespace Mh2c

/-- One of the frames of the stream, which are there completely up to it, is HEADERS. -/
inductive SendsHeaders : Bytes → Prop
  | here (stream : Bytes) (hl : frameLength stream ≤ stream.length) (ht : stream[3]? = some 1) :
      SendsHeaders stream
  | later (stream : Bytes) (hl : frameLength stream ≤ stream.length)
      (h : SendsHeaders (stream.drop (frameLength stream))) : SendsHeaders stream

end Mh2c
