/-
Vocabulary for C91: everything a client sends over a connection, and how a server conforming to
RFC 7540 and RFC 7541 reads it.
-/
import Verif.Spec.Blocks
import Verif.Spec.ServerReads
import Verif.Spec.Conversation

namespace Mh2c

open Rfc

/-- A client sends CONTINUATION frames after a frame with these flags until one has END_HEADERS,
reporting the block of each through `update_request_dynamic_table`. In between it may receive, with
any outcome. The list is that of the headers sent. -/
inductive ClientContinues [Platform] (sid : UInt32) :
    (flags : UInt8) → Client → List Header → Client → Prop
  | done (flags : UInt8) (c : Client) (h : hasEndHeaders flags) : ClientContinues sid flags c [] c
  | more (flags flags' : UInt8) (c c1 c2 c' : Client) (block : HeaderBlock) (mode : EncodeMode)
      (f : ContinuationFrame) (hs : List Header) (h : ¬ hasEndHeaders flags)
      (good : GoodBlock c.requestTable block)
      (hf : ContinuationFrame.new flags' sid block mode c.requestTable = .ok f)
      (hl : f.encodedPayload.length < 2 ^ 24)
      (h1 : c.sendFrame (.continuation f) = (.ok (), c1))
      (h2 : c1.updateRequestDynamicTable block = (.ok (), c2))
      (hr : ClientContinues sid flags' c2 hs c') :
      ClientContinues sid flags c (headersOf block ++ hs) c'
  | receive (flags : UInt8) (c c' : Client) (op : Op) (hs : List Header) (hop : ¬ op.Sending)
      (hr : ClientContinues sid flags (op.run c).2 hs c') : ClientContinues sid flags c hs c'

/-- What a client does after the preface: it sends HEADERS frames built for its request table, each
reported through `update_request_dynamic_table` and followed by the CONTINUATION frames its flags
call for, and frames without a header block. In between it receives frames and raw octets, with any
outcome. The list says what it means to send. -/
inductive ClientSends [Platform] : Client → List Seen → Client → Prop
  | nil (c : Client) : ClientSends c [] c
  | headers (c c1 c2 c3 c' : Client) (flags : UInt8) (sid : UInt32) (block : HeaderBlock)
      (mode : EncodeMode) (padding : Bytes) (priority : PriorityOption) (f : HeadersFrame)
      (hs : List Header) (seen : List Seen) (good : GoodBlock c.requestTable block)
      (hsid : sid.toNat < 2 ^ 31) (hp : padding.length ≤ 255)
      (he : priority.exclusive.toNat ≤ 1) (hd : priority.streamDependency.toNat < 2 ^ 31)
      (hf : HeadersFrame.new flags sid block mode c.requestTable padding priority = .ok f)
      (hl : f.encodedPayload.length < 2 ^ 24)
      (h1 : c.sendFrame (.headers f) = (.ok (), c1))
      (h2 : c1.updateRequestDynamicTable block = (.ok (), c2))
      (h3 : ClientContinues sid flags c2 hs c3) (hr : ClientSends c3 seen c') :
      ClientSends c (⟨1, flags, sid, headersOf block ++ hs, []⟩ :: seen) c'
  | other (c c1 c' : Client) (f : Frame) (type flags : UInt8) (sid : UInt32) (payload : Bytes)
      (seen : List Seen) (hb : type ∉ [1, 5, 9]) (hs : sid.toNat < 2 ^ 31)
      (hl : payload.length < 2 ^ 24)
      (hw : f.serialize = .ok (frameOctets type flags sid.toNat payload))
      (h1 : c.sendFrame f = (.ok (), c1)) (hr : ClientSends c1 seen c') :
      ClientSends c (⟨type, flags, sid, [], payload⟩ :: seen) c'
  | receive (c c' : Client) (op : Op) (seen : List Seen) (hop : ¬ op.Sending)
      (hr : ClientSends (op.run c).2 seen c') : ClientSends c seen c'

end Mh2c
