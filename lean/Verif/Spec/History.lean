/-
Vocabulary for C88 and C89: sequences of calls with their results.
-/
import Verif.Spec.Session

namespace Mh2c

open Rfc

/-- What a call gives back to the caller. -/
inductive Outcome
  | done (r : Res Unit)
  | octets (r : Res Bytes)
  | frame (r : Res Frame)

/-- One call: its result and the client afterwards. -/
def Op.call [Platform] : Op → Client → Outcome × Client
  | .sendPreface, c => (.done c.sendConnectionPreface.1, c.sendConnectionPreface.2)
  | .sendRaw data, c => (.done (c.sendRawData data).1, (c.sendRawData data).2)
  | .receiveRaw n, c => (.octets (c.receiveRawData n).1, (c.receiveRawData n).2)
  | .sendFrame f, c => (.done (c.sendFrame f).1, (c.sendFrame f).2)
  | .receiveFrame, c => (.frame c.receiveFrame.1, c.receiveFrame.2)
  | .updateRequestBlock b, c =>
      (.done (c.updateRequestDynamicTable b).1, (c.updateRequestDynamicTable b).2)
  | .updateRequestSize n, c => (.done (c.updateRequestTableSize n).1, (c.updateRequestTableSize n).2)

/-- A sequence of calls, exceptions caught: calls with their results, and the client at the end. -/
def runCalls [Platform] : Client → List Op → List (Op × Outcome) × Client
  | c, [] => ([], c)
  | c, op :: ops =>
      ((op, (op.call c).1) :: (runCalls (op.call c).2 ops).1, (runCalls (op.call c).2 ops).2)

/-- The calls that read from the connection. -/
def Op.receives : Op → Bool
  | .receiveRaw _ | .receiveFrame => true
  | _ => false

/-- What a call has to put on the wire. -/
inductive Asked [Platform] : Op → Bytes → Prop
  | preface : Asked .sendPreface (ascii "PRI * HTTP/2.0\r\n\r\nSM\r\n\r\n")
  | raw (data : Bytes) : Asked (.sendRaw data) data
  | frame (f : Frame) (w : Bytes) (h : f.serialize = .ok w) : Asked (.sendFrame f) w

/-- What a call with this result has put on the wire: all it was asked for if it returned, a part
from the beginning if not; nothing for other calls. -/
inductive SentBy [Platform] : Op × Outcome → Bytes → Prop
  | returned (op : Op) (w : Bytes) (h : Asked op w) : SentBy (op, .done (.ok ())) w
  | failed (op : Op) (e : Exc) (w w' : Bytes) (h : Asked op w) (hp : w' <+: w) :
      SentBy (op, .done (.throw e)) w'
  | unencoded (f : Frame) (r : Res Unit) (h : ∀ w, f.serialize ≠ .ok w) (hr : r ≠ .ok ()) :
      SentBy (.sendFrame f, .done r) []
  | updateBlock (b : HeaderBlock) (o : Outcome) : SentBy (.updateRequestBlock b, o) []
  | updateSize (n : Nat) (o : Outcome) : SentBy (.updateRequestSize n, o) []
  | receive (op : Op) (o : Outcome) (h : op.receives = true) : SentBy (op, o) []

/-- What a call with this result has taken from the input: the octets it returned; exactly one frame
if it got as far as building one; at most what it was asked for otherwise; nothing for other calls. -/
inductive TakenBy : Op × Outcome → Bytes → Prop
  | octets (w : Bytes) : TakenBy (.receiveRaw w.length, .octets (.ok w)) w
  | short (n : Nat) (w : Bytes) (h : w.length < n) :
      TakenBy (.receiveRaw n, .octets (.throw .runtimeError)) w
  | frame (r : Res Frame) (w : Bytes) (h : 9 ≤ w.length) (hw : w.length = frameLength w) :
      TakenBy (.receiveFrame, .frame r) w
  | cut (w : Bytes) (h : w.length < 9 ∨ w.length < frameLength w) :
      TakenBy (.receiveFrame, .frame (.throw .runtimeError)) w
  | other (op : Op) (o : Outcome) (h : op.receives = false) : TakenBy (op, o) []

end Mh2c
