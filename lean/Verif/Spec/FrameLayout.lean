/-
Specification: frame layouts of RFC 7540, section 4.1 and section 6.
-/
import Verif.Basic
import Verif.Spec.Bytes

namespace Rfc

/-- RFC 7540 4.1: the nine-octet header followed by the payload (reserved bit 0). -/
def frameOctets (type flags : UInt8) (streamId : Nat) (payload : List UInt8) : List UInt8 :=
  be 3 payload.length ++ [type, flags] ++ be 4 streamId ++ payload

/-- RFC 7540 6.2, 6.3: a one-bit flag in front of a 31-bit number. -/
def bitAnd31 (bit value : Nat) : List UInt8 := be 4 (bit * 2 ^ 31 + value)

/-- RFC 7540 6.3: exclusive bit, stream dependency, weight. -/
def priorityOctets (exclusive dependency : Nat) (weight : UInt8) : List UInt8 :=
  bitAnd31 exclusive dependency ++ [weight]

/-- RFC 7540 6.1, 6.2, 6.6: pad length, content, padding. -/
def padded (content padding : List UInt8) : List UInt8 :=
  UInt8.ofNat padding.length :: (content ++ padding)

/-- RFC 7540 6.5.1: one setting. -/
def settingOctets (id : UInt16) (value : UInt32) : List UInt8 :=
  be 2 id.toNat ++ be 4 value.toNat

/-- RFC 7540 6.8: last stream id, error code, debug data. -/
def goawayOctets (reserved lastStreamId : Nat) (errorCode : UInt32) (debug : List UInt8) :
    List UInt8 :=
  bitAnd31 reserved lastStreamId ++ be 4 errorCode.toNat ++ debug

end Rfc

namespace Mh2c

open Rfc

/-- The payload of a SETTINGS frame with these settings in this order. -/
def settingsOctets (settings : List (UInt16 × UInt32)) : Bytes :=
  settings.flatMap fun s => settingOctets s.1 s.2

/-- RFC 7540 6.1, 6.2, 6.6: the PADDED flag is bit 3 of the flags. -/
def hasPadded (flags : UInt8) : Prop := flags.toNat.testBit 3 = true

/-- RFC 7540 6.2: the PRIORITY flag is bit 5 of the flags. -/
def hasPriority (flags : UInt8) : Prop := flags.toNat.testBit 5 = true

instance (flags : UInt8) : Decidable (hasPadded flags) := by unfold hasPadded; infer_instance
instance (flags : UInt8) : Decidable (hasPriority flags) := by unfold hasPriority; infer_instance

end Mh2c
