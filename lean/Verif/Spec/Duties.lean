/-
Vocabulary for C108 and C109: what a server reads in the octets of a client.
-/
import Verif.Spec.Printing

namespace Mh2c.Sample

open Rfc

/-- A frame as RFC 7540 section 4.1 lays it out. -/
structure WireFrame where
  type : UInt8
  flags : UInt8
  streamId : Nat
  payload : Bytes
  deriving DecidableEq

/-- The complete frames in a sequence of octets, read one after the other. -/
def wireFrames (octets : Bytes) : List WireFrame :=
  match octets with
  | l2 :: l1 :: l0 :: type :: flags :: s3 :: s2 :: s1 :: s0 :: rest =>
      let n := beValue [l2, l1, l0]
      if rest.length < n then []
      else ⟨type, flags, beValue [s3, s2, s1, s0] % 2 ^ 31, rest.take n⟩ :: wireFrames (rest.drop n)
  | _ => []
termination_by octets.length
decreasing_by simp; omega

/-- What a server reads after the connection preface of 24 octets. -/
def readByServer (octets : Bytes) : List WireFrame := wireFrames (octets.drop 24)

/-- The flow-control window of the connection (RFC 7540 6.9): it starts at 65535 octets and grows by
the increments of the WINDOW_UPDATE frames on stream 0; SETTINGS do not change it. -/
def connectionWindow (frames : List WireFrame) : Nat :=
  65535 + ((frames.filter fun f => f.type = 8 ∧ f.streamId = 0).map
    fun f => beValue f.payload % 2 ^ 31).sum

/-- The octets of the received frames that count against the window: the payloads of the DATA
frames, padding included. -/
def dataOctets (frames : List Frame) : Nat :=
  (frames.map fun f => match f with | .data d => d.payload.length | _ => 0).sum

/-- The frame asks for a SETTINGS acknowledgement (RFC 7540 6.5.3). -/
def AsksSettings : Frame → Bool
  | .settings f => !f.header.flags.toNat.testBit 0
  | _ => false

/-- The frame asks for a PING response (RFC 7540 6.7), which repeats its eight octets. -/
def AsksPing : Frame → Bool
  | .ping f => !f.header.flags.toNat.testBit 0
  | _ => false

/-- The data of the PING frames that ask for a response. -/
def pingData (frames : List Frame) : List Bytes :=
  frames.filterMap fun f => match f with
    | .ping p => if AsksPing (.ping p) then some p.opaqueData else none
    | _ => none

/-- Everything the server has asked for was answered: as many SETTINGS acknowledgements as SETTINGS,
and the response to every PING. -/
def Answered (received : List Frame) (sent : List WireFrame) : Prop :=
  (sent.filter fun f => f.type = 4 ∧ f.flags.toNat.testBit 0).length =
    (received.filter AsksSettings).length ∧
  ((sent.filter fun f => f.type = 6 ∧ f.flags.toNat.testBit 0).map (·.payload)) =
    pingData received

/-- RFC 7540 3.5: the client connection preface. -/
def preface : Bytes :=
  [0x50, 0x52, 0x49, 0x20, 0x2a, 0x20, 0x48, 0x54, 0x54, 0x50, 0x2f, 0x32, 0x2e, 0x30, 0x0d, 0x0a,
   0x0d, 0x0a, 0x53, 0x4d, 0x0d, 0x0a, 0x0d, 0x0a]

/-- RFC 7540 6.5: SETTINGS with HEADER_TABLE_SIZE 8192, ENABLE_PUSH 0, INITIAL_WINDOW_SIZE 65535. -/
def settingsOctets : Bytes :=
  [0, 0, 18, 4, 0, 0, 0, 0, 0] ++ [0, 1, 0, 0, 0x20, 0] ++ [0, 2, 0, 0, 0, 0] ++
    [0, 4, 0, 0, 0xff, 0xff]

/-- RFC 7540 6.5: SETTINGS with ACK. -/
def ackOctets : Bytes := [0, 0, 0, 4, 1, 0, 0, 0, 0]

/-- The payload of the request. -/
def requestBlock : Bytes :=
  [130, 16, 132, 185, 88, 211, 63, 140, 98, 116, 166, 184, 205, 83, 19, 148, 114, 22, 196, 127, 135,
   17, 136, 170, 105, 210, 154, 196, 185, 236, 155]

/-- RFC 7540 6.2: HEADERS with END_STREAM and END_HEADERS on stream 1. -/
def requestOctets : Bytes := [0, 0, 31, 1, 5, 0, 0, 0, 1] ++ requestBlock

/-- RFC 7540 6.8: GOAWAY, last stream 1, NO_ERROR. -/
def goawayOctets : Bytes := [0, 0, 8, 7, 0, 0, 0, 0, 0] ++ [0, 0, 0, 1] ++ [0, 0, 0, 0]

/-- C72. At whatever point the sample stops (peer closes, exception, undefined behaviour), it has
sent a prefix of this sequence. -/
def sequence : Bytes := preface ++ settingsOctets ++ ackOctets ++ requestOctets ++ goawayOctets

/-- RFC 7540 8.1 and 5.1: the frames after which no more of the response to the request on stream 1
comes: HEADERS or DATA with END_STREAM, or RST_STREAM, on stream 1; and GOAWAY, after which this
client's sample has nothing to wait for. -/
def EndsResponse (f : Frame) : Prop :=
  (f.header.streamId = 1 ∧
    (f.header.type = 0 ∧ hasEndStream f.header.flags ∨
      f.header.type = 1 ∧ hasEndStream f.header.flags ∨ f.header.type = 3)) ∨
  f.header.type = 7

/-- What the sample's loop relies on: the response ends with a DATA frame, and DATA frames come on
stream 1 only. -/
def EndsWithData (f : Frame) : Prop :=
  (f.header.type = 0 → f.header.streamId = 1) ∧
  (f.header.type = 1 → f.header.streamId = 1 → ¬ hasEndStream f.header.flags) ∧
  (f.header.type = 3 → f.header.streamId ≠ 1)

end Mh2c.Sample
