/-
Vocabulary for C47: a client that sends frames, another one that receives them.
-/
import Verif.Spec.Session

namespace Mh2c

open Rfc

/-- `operator==` of the frame classes. For the classes without header block it compares all
members. -/
def SameFrame : Frame → Frame → Prop
  | .headers f, .headers g => f.same g = true
  | .pushPromise f, .pushPromise g => f.same g = true
  | .continuation f, .continuation g => f.same g = true
  | f, g => f = g

/-- A header block that can be sent against this table: every entry can be read back, headers that
are in a table are marked INDEXED. -/
def SendableBlock [Platform] (table : DynamicTable) (mode : EncodeMode) (block : HeaderBlock) :
    Prop :=
  (∀ e ∈ block, Sendable table mode e) ∧ Settled table block

/-- Frames made by the public constructors from arguments that fit their fields (stream identifiers
of 31 bits, payloads below 2^24 octets, ...), header blocks encoded against the given table. -/
inductive Proper [Platform] (table : DynamicTable) : Frame → Prop
  | data (flags : UInt8) (sid : UInt32) (payload : Bytes) (hs : sid.toNat < 2 ^ 31)
      (hp : payload.length < 2 ^ 24) : Proper table (.data (DataFrame.new flags sid payload))
  | headers (flags : UInt8) (sid : UInt32) (block : HeaderBlock) (mode : EncodeMode)
      (padding : Bytes) (priority : PriorityOption) (f : HeadersFrame) (hs : sid.toNat < 2 ^ 31)
      (hb : SendableBlock table mode block) (hp : padding.length ≤ 255)
      (hnp : ¬ hasPadded flags → padding = []) (he : priority.exclusive.toNat ≤ 1)
      (hd : priority.streamDependency.toNat < 2 ^ 31)
      (hnz : ¬ hasPriority flags → priority = ⟨0, 0, 0⟩)
      (hf : HeadersFrame.new flags sid block mode table padding priority = .ok f)
      (hl : f.encodedPayload.length < 2 ^ 24) : Proper table (.headers f)
  | priority (sid : UInt32) (p : PriorityOption) (f : PriorityFrame) (hs : sid.toNat < 2 ^ 31)
      (hf : PriorityFrame.new sid p = .ok f) : Proper table (.priority f)
  | rstStream (sid code : UInt32) (hs : sid.toNat < 2 ^ 31) :
      Proper table (.rstStream (RstStreamFrame.new sid code))
  | settings (flags : UInt8) (sid : UInt32) (payload : SfPayload) (hs : sid.toNat < 2 ^ 31)
      (hm : IsMap payload) : Proper table (.settings (SettingsFrame.new flags sid payload))
  | pushPromise (flags : UInt8) (sid : UInt32) (p : PushPromisePayload) (mode : EncodeMode)
      (f : PushPromiseFrame) (hs : sid.toNat < 2 ^ 31)
      (hb : SendableBlock table mode p.headerBlock) (hp : p.padding.length ≤ 255)
      (hnp : ¬ hasPadded flags → p.padding = []) (hr : p.reserved.toNat ≤ 1)
      (hd : p.promisedStreamId.toNat < 2 ^ 31)
      (hf : PushPromiseFrame.new flags sid p mode table = .ok f)
      (hl : f.encodedPayload.length < 2 ^ 24) : Proper table (.pushPromise f)
  | ping (flags : UInt8) (data : Bytes) (f : PingFrame) (hf : PingFrame.new flags data = .ok f) :
      Proper table (.ping f)
  | goaway (p : GoawayPayload) (hr : p.reserved.toNat ≤ 1) (hl : p.lastStreamId.toNat < 2 ^ 31)
      (hd : p.debugData.length < 2 ^ 24 - 8) : Proper table (.goaway (GoawayFrame.new p))
  | windowUpdate (sid : UInt32) (reserved : UInt8) (increment : UInt32) (f : WindowUpdateFrame)
      (hs : sid.toNat < 2 ^ 31) (hr : reserved.toNat ≤ 1)
      (hf : WindowUpdateFrame.new sid reserved increment = .ok f) : Proper table (.windowUpdate f)
  | continuation (flags : UInt8) (sid : UInt32) (block : HeaderBlock) (mode : EncodeMode)
      (f : ContinuationFrame) (hs : sid.toNat < 2 ^ 31) (hb : SendableBlock table mode block)
      (hf : ContinuationFrame.new flags sid block mode table = .ok f)
      (hl : f.encodedPayload.length < 2 ^ 24) : Proper table (.continuation f)

/-- What the sender does to its request table after sending a frame: `update_request_dynamic_table`
with the header block it sent, or with the SETTINGS_HEADER_TABLE_SIZE it announced (the library
applies a received one to the table of the receiving side). -/
def Client.follow (c : Client) : Frame → Res Unit × Client
  | .headers f => c.updateRequestDynamicTable f.headerBlock
  | .pushPromise f => c.updateRequestDynamicTable f.payload.headerBlock
  | .continuation f => c.updateRequestDynamicTable f.headerBlock
  | .settings f =>
      match f.payload.lookup 1 with
      | some size => c.updateRequestTableSize size.toNat
      | none => (.ok (), c)
  | _ => (.ok (), c)

/-- A sender: every frame is proper for the request table of the moment, is sent successfully and
followed by the update of the request table. -/
inductive Sent [Platform] : Client → List Frame → Client → Prop
  | nil (c : Client) : Sent c [] c
  | cons (c c1 c2 c' : Client) (f : Frame) (fs : List Frame) (hf : Proper c.requestTable f)
      (ht : c.requestTable.entries.length ≤ 2 ^ 31 + 65)
      (h1 : c.sendFrame f = (.ok (), c1)) (h2 : c1.follow f = (.ok (), c2)) (h : Sent c2 fs c') :
      Sent c (f :: fs) c'

/-- A receiver: `receive_frame` again and again, each call returning a frame. -/
inductive Received [Platform] : Client → List Frame → Client → Prop
  | nil (d : Client) : Received d [] d
  | cons (d d1 d' : Client) (g : Frame) (gs : List Frame) (h1 : d.receiveFrame = (.ok g, d1))
      (h : Received d1 gs d') : Received d (g :: gs) d'

/-- Sends frames one after the other until one is not sent. -/
def sendUntil [Platform] : List Frame → Client → Res Unit × Client
  | [], c => (.ok (), c)
  | f :: fs, c =>
      match c.sendFrame f with
      | (.ok (), c') => sendUntil fs c'
      | (r, c') => (r, c')

end Mh2c
