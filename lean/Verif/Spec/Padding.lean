/-
Vocabulary for what padding may change about a frame.
-/
import Verif.Spec.FrameApi
import Verif.Spec.Delimit

namespace Mh2c

open Rfc

/-- A frame without its padding and the octets it was read from. -/
def withoutPadding : Frame → Frame
  | .headers f => .headers { f with encodedPayload := [], padding := [] }
  | .pushPromise f => .pushPromise
      { f with encodedPayload := [], payload := { f.payload with padding := [] } }
  | .raw f => .raw { f with payload := [] }
  | f => f

/-- Frames of one class, type and stream that agree in every member but header, padding and, for a
frame delivered undecoded, the octets themselves. -/
def SameButPadding (f g : Frame) : Prop :=
  SameButHeader (withoutPadding f) (withoutPadding g)

/-- The padding octets a peer takes for octets of the header block: the pad length octet holds the
number of padding octets modulo 256, so the last `length % 256` of them are all that the peer skips. -/
def readAsBlock (flags : UInt8) (padding : Bytes) : Bytes :=
  if hasPadded flags then padding.take (padding.length - padding.length % 256) else []

end Mh2c
