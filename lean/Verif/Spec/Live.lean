/-
Vocabulary for C143 and C144: servers that answer what they are sent, and programs that use a client with such a
server.
-/
import Verif.Model.Live
import Verif.Spec.AnyProgram

namespace Mh2c

/-- A server that answers: `srv n sent` is what it sends after the call number `n` of the program, when the program
has sent `sent` in all, and before it is sent more. -/
abbrev Server := Nat → Bytes → Bytes

/-- The octets the server sends after the call number `n` are on their way to the client. -/
def Client.hears (srv : Server) (n : Nat) (c : Client) : Client :=
  { c with conn := { c.conn with incoming := c.conn.incoming ++ srv n c.conn.sent } }

/-- The same client, with other octets to come and another transport. -/
def Client.fed (c : Client) (incoming : Bytes) (reads : List Nat) : Client :=
  { c with conn := { c.conn with incoming := incoming, reads := reads } }

/-- What a call waits for. -/
inductive Wanted
  /-- `receive_frame`: a frame -/
  | frame
  /-- `receive_raw_data(n)` -/
  | octets (n : Nat)
  deriving DecidableEq

/-- The octets do not contain what is wanted. -/
def Wanted.missing : Wanted → Bytes → Prop
  | .frame, there => there.length < frameLength there
  | .octets n, there => there.length < n

/-- What becomes of a program. -/
inductive LiveRun
  /-- it has ended as `r` says, with the client `c`; the server has sent `said` in the meantime -/
  | ended (r : Res Unit) (c : Client) (said : Bytes)
  /-- it waits for ever in a call, made with the client `c`; the server has sent `said` in the meantime; if the call
  threw `e`, it would go on with `next e` -/
  | waiting (w : Wanted) (c : Client) (said : Bytes) (next : Exc → Prog)

/-- The server has said something before. -/
def LiveRun.after (before : Bytes) : LiveRun → LiveRun
  | .ended r c said => .ended r c (before ++ said)
  | .waiting w c said next => .waiting w c (before ++ said) next

/-- Go on after the call number `n` has returned or thrown. -/
def goOnLive {α : Type} (srv : Server) (n : Nat) (x : Res α × Client) (k : Except Exc α → Client → LiveRun) : LiveRun :=
  match x with
  | (.ok a, c) => (k (.ok a) (c.hears srv n)).after (srv n c.conn.sent)
  | (.throw e, c) => (k (.error e) (c.hears srv n)).after (srv n c.conn.sent)
  | (.ub u, c) => .ended (.ub u) c []
  | (.diverge, c) => .ended .diverge c []

/-- A run with a server that answers. `n` is the number of the next call. -/
def Prog.live [Platform] (srv : Server) : Prog → Nat → Client → LiveRun
  | .done, _, c => .ended (.ok ()) c []
  | .preface k, n, c => goOnLive srv n c.sendConnectionPreface fun o => (k o).live srv (n + 1)
  | .sendRaw data k, n, c => goOnLive srv n (c.sendRawData data) fun o => (k o).live srv (n + 1)
  | .sendFrame f k, n, c => goOnLive srv n (c.sendFrame f) fun o => (k o).live srv (n + 1)
  | .receiveRaw l k, n, c =>
      if c.receiveRawWaits l then .waiting (.octets l) c [] fun e => k (.error e)
      else goOnLive srv n (c.receiveRawData l) fun o => (k o).live srv (n + 1)
  | .receiveFrame k, n, c =>
      if c.receiveFrameWaits then .waiting .frame c [] fun e => k (.error e)
      else goOnLive srv n c.receiveFrame fun o => (k o).live srv (n + 1)
  | .report b k, n, c => goOnLive srv n (c.updateRequestDynamicTable b) fun o => (k o).live srv (n + 1)
  | .setSize l k, n, c => goOnLive srv n (c.updateRequestTableSize l) fun o => (k o).live srv (n + 1)
  | .own k, n, c => (k c.requestTable).live srv n c
  | .throws e, _, c => .ended (.throw e) c []

end Mh2c
