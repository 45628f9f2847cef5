/-
Vocabulary for C112: the body of a message, as RFC 7540 8.1 and 6.1 define it.
-/
import Verif.Spec.Conversation
import Verif.Spec.Delimit
import Verif.Model.Accessors

namespace Mh2c

open Rfc

/-- A frame as a server puts it on the wire (RFC 7540 4.1). -/
structure WireFrame where
  type : UInt8
  flags : UInt8
  streamId : UInt32
  payload : Bytes
  deriving DecidableEq, Repr

def WireFrame.octets (w : WireFrame) : Bytes := frameOctets w.type w.flags w.streamId.toNat w.payload

/-- The stream identifier has 31 bits, the length 24. -/
def WireFrame.Fits (w : WireFrame) : Prop := w.streamId.toNat < 2 ^ 31 ∧ w.payload.length < 2 ^ 24

/-- RFC 7540 8.1, 6.1: the body sent on a stream is what its DATA frames (type 0) carry without
their padding, one after the other; other frames may come in between. -/
inductive BodySent (streamId : UInt32) : List WireFrame → Bytes → Prop
  | nil : BodySent streamId [] []
  | other (w : WireFrame) (ws : List WireFrame) (body : Bytes)
      (h : ¬ (w.type = 0 ∧ w.streamId = streamId)) (hr : BodySent streamId ws body) :
      BodySent streamId (w :: ws) body
  | data (w : WireFrame) (ws : List WireFrame) (content body : Bytes) (ht : w.type = 0)
      (hs : w.streamId = streamId) (hc : Content w.flags w.payload content)
      (hr : BodySent streamId ws body) : BodySent streamId (w :: ws) (content ++ body)

/-- What a caller of `receive_frame` gets who puts together what `get_payload` gives for the DATA
frames of a stream. -/
def bodyReceived (streamId : UInt32) (frames : List Frame) : Bytes :=
  frames.flatMap fun f =>
    if f.header.type = 0 ∧ f.header.streamId = streamId then
      match f.getPayload with
      | .octets b => b
      | _ => []
    else []

end Mh2c
