/-
Vocabulary for C129: frames of several streams on one connection.
-/
import Verif.Spec.Body

namespace Mh2c

open Rfc

/-- RFC 7540 6.5.1, 6.5.2: one of the settings is SETTINGS_HEADER_TABLE_SIZE, identifier 1. -/
def namesTableSize : Bytes → Bool
  | a :: b :: _ :: _ :: _ :: _ :: rest => (a == 0 && b == 1) || namesTableSize rest
  | _ => false

/-- The frames that have to do with header compression: HEADERS, PUSH_PROMISE and CONTINUATION, and
SETTINGS with a table size. -/
def WireFrame.concernsTable (w : WireFrame) : Bool :=
  w.type == 1 || w.type == 5 || w.type == 9 || (w.type == 4 && namesTableSize w.payload)

/-- What a number of calls of `receive_frame` give, one after the other, and the client after them.
(After a call with undefined behaviour, see C122, the rest means nothing; what comes before does.) -/
def receives [Platform] : Nat → Client → List (Res Frame) × Client
  | 0, c => ([], c)
  | n + 1, c => (c.receiveFrame.1 :: (receives n c.receiveFrame.2).1, (receives n c.receiveFrame.2).2)

/-- Each frame with what the call that takes it gives. -/
def answers [Platform] (ws : List WireFrame) (c : Client) : List (WireFrame × Res Frame) :=
  ws.zip (receives ws.length c).1

/-- The transport has these frames for the client, and hands them over. -/
structure Delivers (c : Client) (ws : List WireFrame) (rest : Bytes) : Prop where
  fits : ∀ w ∈ ws, w.Fits
  incoming : c.conn.incoming = ws.flatMap WireFrame.octets ++ rest
  willing : Willing c.conn.reads (ws.flatMap WireFrame.octets).length

end Mh2c
