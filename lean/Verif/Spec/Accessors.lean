/-
Vocabulary for C100: what a frame carries.
-/
import Verif.Model.Accessors
import Verif.Spec.Delimit
import Verif.Spec.Loose
import Verif.Spec.FrameApi

namespace Mh2c

open Rfc

/-- RFC 7540 section 6: what a frame with these flags, this type and this payload carries; header
blocks as read with `table` (`Spec/Loose.lean`). For a WINDOW_UPDATE frame (6.9) that is the increment, without the
reserved bit; for a SETTINGS frame, the first value given for each identifier (see C52). -/
inductive Carries [Platform] (table : DynamicTable) (flags : UInt8) :
    (type : UInt8) → (raw : Bytes) → Payload → Prop
  | data (raw content : Bytes) (hc : Content flags raw content) :
      Carries table flags 0 raw (.octets content)
  | headers (raw block : Bytes) (es : HeaderBlock) (hc : CarriesBlock flags 1 raw block)
      (h : ReadsAs table.entries block es) : Carries table flags 1 raw (.headers es)
  | priority (p : PriorityOption) (rest : Bytes) (h1 : p.exclusive.toNat ≤ 1)
      (h2 : p.streamDependency.toNat < 2 ^ 31) :
      Carries table flags 2
        (priorityOctets p.exclusive.toNat p.streamDependency.toNat p.weight ++ rest) (.priority p)
  | rstStream (code : UInt32) (rest : Bytes) :
      Carries table flags 3 (be 4 code.toNat ++ rest) (.error code)
  | settings (ps : List (UInt16 × UInt32)) (m : SfPayload) (h1 : IsMap m)
      (h2 : ∀ id, m.lookup id = ps.lookup id) :
      Carries table flags 4 (settingsOctets ps) (.settings m)
  | pushPromise (p : PushPromisePayload) (block : Bytes) (h1 : p.reserved.toNat ≤ 1)
      (h2 : p.promisedStreamId.toNat < 2 ^ 31) (h3 : p.padding.length ≤ 255)
      (h : ReadsAs table.entries block p.headerBlock) :
      Carries table flags 5 (withPadding flags
        (bitAnd31 p.reserved.toNat p.promisedStreamId.toNat ++ block) p.padding) (.promise p)
  | ping (raw : Bytes) : Carries table flags 6 raw (.octets raw)
  | goaway (p : GoawayPayload) (h1 : p.reserved.toNat ≤ 1) (h2 : p.lastStreamId.toNat < 2 ^ 31) :
      Carries table flags 7
        (goawayOctets p.reserved.toNat p.lastStreamId.toNat p.errorCode p.debugData) (.goaway p)
  | windowUpdate (r : Nat) (increment : UInt32) (h1 : r ≤ 1) (h2 : increment.toNat < 2 ^ 31) :
      Carries table flags 8 (bitAnd31 r increment.toNat) (.window increment)
  | continuation (raw : Bytes) (es : HeaderBlock) (h : ReadsAs table.entries raw es) :
      Carries table flags 9 raw (.headers es)

end Mh2c
