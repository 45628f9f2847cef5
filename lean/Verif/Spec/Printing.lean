/-
Vocabulary for the printing properties and for the sample's receive loop.
-/
import Verif.Model.Sample
import Verif.Spec.Conversation

namespace Mh2c

open Rfc

/-- The octets that printing a frame adds to a stream. -/
def printedText [Platform] (f : Frame) (s : Stream) : Res Bytes := do
  let s' ← f.dump s
  return s'.out.drop s.out.length

/-- Printing a list of frames, one after the other, without failure. -/
inductive Prints [Platform] : List Frame → Stream → Stream → Prop
  | nil (s : Stream) : Prints [] s s
  | cons (f : Frame) (fs : List Frame) (s s1 s' : Stream) (h1 : f.dump s = .ok s1)
      (h : Prints fs s1 s') : Prints (f :: fs) s s'

/-- RFC 7540 6.1: the END_STREAM flag is bit 0. -/
def hasEndStream (flags : UInt8) : Prop := flags.toNat.testBit 0 = true

instance (flags : UInt8) : Decidable (hasEndStream flags) := by unfold hasEndStream; infer_instance

/-- The frames that end the sample's receive loop: GOAWAY, and DATA with END_STREAM. -/
def EndsLoop : Frame → Prop
  | .goaway _ => True
  | .data f => hasEndStream f.header.flags
  | _ => False

/-- The frame types of RFC 7540 11.2. -/
def rfcType : Frame → Option Nat
  | .data _ => some 0
  | .headers _ => some 1
  | .priority _ => some 2
  | .rstStream _ => some 3
  | .settings _ => some 4
  | .pushPromise _ => some 5
  | .ping _ => some 6
  | .goaway _ => some 7
  | .windowUpdate _ => some 8
  | .continuation _ => some 9
  | .raw _ => none

/-- The frame prints octets in hexadecimal: PING data, padding, the payload of a raw frame. -/
def PrintsOctets : Frame → Prop
  | .data f => hasPadded f.header.flags ∧ f.payload.head? ≠ some 0
  | .headers f => hasPadded f.header.flags ∧ f.padding ≠ []
  | .pushPromise f => hasPadded f.header.flags ∧ f.payload.padding ≠ []
  | .ping f => f.opaqueData ≠ []
  | .raw f => f.payload ≠ []
  | _ => False

/-- A received DATA frame that can be printed: the padding leaves room for itself; a platform that
objects to `v[v.size()]` needs an octet at the position where the data starts. -/
def DataPrintable [P : Platform] (flags : UInt8) (raw : Bytes) : Prop :=
  (hasPadded flags → ¬ PaddingTooLong raw) ∧
  (P.strictIndex = true → if hasPadded flags then 2 ≤ raw.length else raw ≠ [])

/-- A received GOAWAY frame that can be printed: its debug data is empty or has a zero octet. -/
def DebugPrintable (debug : Bytes) : Prop := debug = [] ∨ 0 ∈ debug

instance (debug : Bytes) : Decidable (DebugPrintable debug) := by
  unfold DebugPrintable; infer_instance

end Mh2c
