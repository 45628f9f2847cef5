/-
Vocabulary for C119: which octets can be put on the wire as a frame.
-/
import Verif.Spec.Session

namespace Mh2c

open Rfc

/-- RFC 7540 4.1: the reserved bit and the stream identifier, as one number of 32 bits. -/
def streamField (octets : Bytes) : Nat := beValue ((octets.drop 5).take 4)

/-- Octets laid out as a frame of the given type whose length field counts the payload (modulo 2^24,
the field has 24 bits). -/
structure FrameOf (type : UInt8) (octets : Bytes) : Prop where
  header : 9 ≤ octets.length
  length : announced octets = (octets.length - 9) % 2 ^ 24
  type : octets[3]? = some type

end Mh2c
