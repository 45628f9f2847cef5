/-
What RFC 7540 section 6 requires of a single frame.
-/
import Verif.Spec.Delimit

namespace Rfc

open Mh2c

/-- RFC 7540 6.1 to 6.10: frames that belong to a stream, frames that belong to the connection
(WINDOW_UPDATE may be either). -/
def StreamRule (type : UInt8) (streamId : Nat) : Prop :=
  (type ∈ [0, 1, 2, 3, 5, 9] → streamId ≠ 0) ∧ (type ∈ [4, 6, 7] → streamId = 0)

/-- RFC 7540 6.1 to 6.10: sizes and values that are a FRAME_SIZE_ERROR or a PROTOCOL_ERROR otherwise.
Header blocks are not looked into; rules about the state of a stream are not included. -/
inductive LayoutRule (flags : UInt8) : (type : UInt8) → (payload : Bytes) → Prop
  | data (payload content : Bytes) (h : Content flags payload content) : LayoutRule flags 0 payload
  | block (type : UInt8) (payload block : Bytes) (h : CarriesBlock flags type payload block) :
      LayoutRule flags type payload
  | priority (payload : Bytes) (h : payload.length = 5) : LayoutRule flags 2 payload
  | rstStream (payload : Bytes) (h : payload.length = 4) : LayoutRule flags 3 payload
  | settings (payload : Bytes) (h : payload.length % 6 = 0)
      (ha : flags.toNat.testBit 0 = true → payload = []) : LayoutRule flags 4 payload
  | ping (payload : Bytes) (h : payload.length = 8) : LayoutRule flags 6 payload
  | goaway (payload : Bytes) (h : 8 ≤ payload.length) : LayoutRule flags 7 payload
  | windowUpdate (payload : Bytes) (h : payload.length = 4) (h0 : beValue payload % 2 ^ 31 ≠ 0) :
      LayoutRule flags 8 payload

end Rfc
