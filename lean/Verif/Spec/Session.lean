/-
Vocabulary for the session properties: transports that make progress, operation histories.
-/
import Verif.Model.Client
import Verif.Spec.FrameApi

namespace Mh2c

open Rfc

/-- The next `n` transport calls each transfer at least one octet. -/
def Willing (schedule : List Nat) (n : Nat) : Prop :=
  n ≤ schedule.length ∧ ∀ k ∈ schedule.take n, 0 < k

instance (s : List Nat) (n : Nat) : Decidable (Willing s n) := by unfold Willing; infer_instance

/-- RFC 7540 4.1: the payload length announced by the first three octets. -/
def announced (stream : Bytes) : Nat := beValue (stream.take 3)

/-- Length of the frame at the front of the stream, header included. -/
def frameLength (stream : Bytes) : Nat := 9 + announced stream

/-- Size accounting of RFC 7541 4.1: the size is the sum of the entry sizes and within the maximum. -/
def Accounted (t : DynamicTable) : Prop :=
  t.tableSize = tableSize t.entries ∧ t.tableSize ≤ t.maxTableSize

/-- The client operations. -/
inductive Op
  | sendPreface
  | sendRaw (data : Bytes)
  | receiveRaw (n : Nat)
  | sendFrame (f : Frame)
  | receiveFrame
  | updateRequestBlock (block : HeaderBlock)
  | updateRequestSize (n : Nat)

/-- Sizes in an entry fit the machine with room to spare. -/
def EntrySmall (e : HeaderEntry) : Prop :=
  (∀ h, e.entry = .header h → h.1.length + h.2.length + 32 < 2 ^ 63) ∧
  (∀ n, e.entry = .maxSize n → n < 2 ^ 63)

/-- Arguments that fit the machine: sizes below 2^63. -/
def Op.Small : Op → Prop
  | .updateRequestBlock block => ∀ e ∈ block, EntrySmall e
  | .updateRequestSize n => n < 2 ^ 63
  | _ => True

/-- What a call of an operation does. The value returned by the receiving operations is dropped. -/
def Op.run [Platform] : Op → Client → Res Unit × Client
  | .sendPreface, c => c.sendConnectionPreface
  | .sendRaw data, c => c.sendRawData data
  | .receiveRaw n, c =>
      match c.receiveRawData n with
      | (r, c') => ((do let _ ← r; return ()), c')
  | .sendFrame f, c => c.sendFrame f
  | .receiveFrame, c =>
      match c.receiveFrame with
      | (r, c') => ((do let _ ← r; return ()), c')
  | .updateRequestBlock b, c => c.updateRequestDynamicTable b
  | .updateRequestSize n, c => c.updateRequestTableSize n

/-- A history: every call returned or threw (exceptions are caught, the session goes on). -/
inductive History [Platform] : Client → List Op → Client → Prop
  | nil (c : Client) : History c [] c
  | cons (c : Client) (op : Op) (ops : List Op) (c' : Client) (hs : (op.run c).1.Safe)
      (h : History (op.run c).2 ops c') : History c (op :: ops) c'

/-- RFC 7540 3.5: the client connection preface. -/
def rfcPreface : Bytes :=
  [0x50, 0x52, 0x49, 0x20, 0x2a, 0x20, 0x48, 0x54, 0x54, 0x50, 0x2f, 0x32, 0x2e, 0x30, 0x0d, 0x0a,
    0x0d, 0x0a, 0x53, 0x4d, 0x0d, 0x0a, 0x0d, 0x0a]

/-- Operations of the sending side. -/
def Op.Sending : Op → Prop
  | .sendPreface | .sendRaw _ | .sendFrame _ | .updateRequestBlock _ | .updateRequestSize _ => True
  | .receiveRaw _ | .receiveFrame => False

/-- The receiving half of two clients is the same. -/
def SameInput (c d : Client) : Prop :=
  c.conn.incoming = d.conn.incoming ∧ c.conn.reads = d.conn.reads ∧
    c.responseTable = d.responseTable

/-- The sending half of two clients is the same. -/
def SameOutput (c d : Client) : Prop :=
  c.conn.sent = d.conn.sent ∧ c.conn.writes = d.conn.writes ∧ c.requestTable = d.requestTable

end Mh2c
