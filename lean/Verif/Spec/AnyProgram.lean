/-
Vocabulary for C142: programs that use a client.
-/
import Verif.Model.Memory
import Verif.Spec.Session

namespace Mh2c

/-- A program that uses one client, one call after the other. What it does next may depend on everything it has
received, and on the exceptions that calls have thrown: a call that throws `e` is followed by `next (.error e)`, which is
`throws e` if the program does not catch it. Programs do not catch `std::bad_alloc`. -/
inductive Prog
  /-- it has come to its end -/
  | done
  /-- `send_connection_preface` -/
  | preface (next : Except Exc Unit → Prog)
  /-- `send_raw_data` -/
  | sendRaw (data : Bytes) (next : Except Exc Unit → Prog)
  /-- `send_frame` -/
  | sendFrame (f : Frame) (next : Except Exc Unit → Prog)
  /-- `receive_raw_data` -/
  | receiveRaw (n : Nat) (next : Except Exc Bytes → Prog)
  /-- `receive_frame` -/
  | receiveFrame (next : Except Exc Frame → Prog)
  /-- `update_request_dynamic_table` with a header block -/
  | report (block : HeaderBlock) (next : Except Exc Unit → Prog)
  /-- `update_request_dynamic_table` with a size -/
  | setSize (n : Nat) (next : Except Exc Unit → Prog)
  /-- something of its own, such as making a frame; it may look at `get_request_dynamic_table` -/
  | own (next : DynamicTable → Prog)
  /-- it throws an exception of its own -/
  | throws (e : Exc)

/-- Go on after a call that returned or threw. -/
def goOn {α β : Type} (x : Res α × Client) (k : Except Exc α → Client → Res β × Client) : Res β × Client :=
  match x with
  | (.ok a, c) => k (.ok a) c
  | (.throw e, c) => k (.error e) c
  | (.ub u, c) => (.ub u, c)
  | (.diverge, c) => (.diverge, c)

/-- A run where memory never runs out. -/
def Prog.run [Platform] : Prog → Client → Res Unit × Client
  | .done, c => (.ok (), c)
  | .preface k, c => goOn c.sendConnectionPreface fun o => (k o).run
  | .sendRaw data k, c => goOn (c.sendRawData data) fun o => (k o).run
  | .sendFrame f k, c => goOn (c.sendFrame f) fun o => (k o).run
  | .receiveRaw n k, c => goOn (c.receiveRawData n) fun o => (k o).run
  | .receiveFrame k, c => goOn c.receiveFrame fun o => (k o).run
  | .report b k, c => goOn (c.updateRequestDynamicTable b) fun o => (k o).run
  | .setSize n k, c => goOn (c.updateRequestTableSize n) fun o => (k o).run
  | .own k, c => (k c.requestTable).run c
  | .throws e, c => (.throw e, c)

/-- The same when memory can run out. -/
def goOnMem {α β : Type} (x : Ended α × Client × Memory)
    (k : Except Exc α → Client → Memory → Ended β × Client × Memory) : Ended β × Client × Memory :=
  match x with
  | (.res (.ok a), c, m) => k (.ok a) c m
  | (.res (.throw e), c, m) => k (.error e) c m
  | (.res (.ub u), c, m) => (.res (.ub u), c, m)
  | (.res .diverge, c, m) => (.res .diverge, c, m)
  | (.badAlloc, c, m) => (.badAlloc, c, m)

/-- A run when memory can run out. What the program does of its own may run out of it, too. -/
def Prog.runMem [Platform] : Prog → Client → Memory → Ended Unit × Client × Memory
  | .done, c, m => (.res (.ok ()), c, m)
  | .preface k, c, m => goOnMem (c.sendPrefaceMem m) fun o => (k o).runMem
  | .sendRaw data k, c, m => goOnMem (c.sendRawDataMem data m) fun o => (k o).runMem
  | .sendFrame f k, c, m => goOnMem (c.sendFrameMem f m) fun o => (k o).runMem
  | .receiveRaw n k, c, m => goOnMem (c.receiveRawDataMem n m) fun o => (k o).runMem
  | .receiveFrame k, c, m => goOnMem (c.receiveFrameMem m) fun o => (k o).runMem
  | .report b k, c, m => goOnMem (c.updateRequestTableMem b m) fun o => (k o).runMem
  | .setSize n k, c, m =>
      goOnMem (.res (c.updateRequestTableSize n).1, (c.updateRequestTableSize n).2, m) fun o => (k o).runMem
  | .own k, c, m =>
      if m.next.1 then (k c.requestTable).runMem c m.next.2 else (.badAlloc, c, m.next.2)
  | .throws e, c, m => (.res (.throw e), c, m)

/-- How a call ends that returns or throws. -/
def ends {α : Type} : Except Exc α → Res α
  | .ok a => .ok a
  | .error e => .throw e

/-- Where memory never runs out, the program calls `receive_frame` at some time, and the next frame of the server,
which is there completely, is HEADERS. -/
inductive ReceivesHeaders [Platform] : Prog → Client → Prop
  | here (k : Except Exc Frame → Prog) (c : Client) (hl : frameLength c.conn.incoming ≤ c.conn.incoming.length)
      (ht : c.conn.incoming[3]? = some 1) : ReceivesHeaders (.receiveFrame k) c
  | preface (k : Except Exc Unit → Prog) (c c' : Client) (o : Except Exc Unit) (hr : c.sendConnectionPreface = (ends o, c'))
      (h : ReceivesHeaders (k o) c') : ReceivesHeaders (.preface k) c
  | sendRaw (data : Bytes) (k : Except Exc Unit → Prog) (c c' : Client) (o : Except Exc Unit) (hr : c.sendRawData data = (ends o, c'))
      (h : ReceivesHeaders (k o) c') : ReceivesHeaders (.sendRaw data k) c
  | sendFrame (f : Frame) (k : Except Exc Unit → Prog) (c c' : Client) (o : Except Exc Unit) (hr : c.sendFrame f = (ends o, c'))
      (h : ReceivesHeaders (k o) c') : ReceivesHeaders (.sendFrame f k) c
  | receiveRaw (n : Nat) (k : Except Exc Bytes → Prog) (c c' : Client) (o : Except Exc Bytes)
      (hr : c.receiveRawData n = (ends o, c')) (h : ReceivesHeaders (k o) c') :
      ReceivesHeaders (.receiveRaw n k) c
  | receiveFrame (k : Except Exc Frame → Prog) (c c' : Client) (o : Except Exc Frame) (hr : c.receiveFrame = (ends o, c'))
      (h : ReceivesHeaders (k o) c') : ReceivesHeaders (.receiveFrame k) c
  | report (b : HeaderBlock) (k : Except Exc Unit → Prog) (c c' : Client) (o : Except Exc Unit)
      (hr : c.updateRequestDynamicTable b = (ends o, c')) (h : ReceivesHeaders (k o) c') :
      ReceivesHeaders (.report b k) c
  | setSize (n : Nat) (k : Except Exc Unit → Prog) (c c' : Client) (o : Except Exc Unit) (hr : c.updateRequestTableSize n = (ends o, c'))
      (h : ReceivesHeaders (k o) c') : ReceivesHeaders (.setSize n k) c
  | own (k : DynamicTable → Prog) (c : Client) (h : ReceivesHeaders (k c.requestTable) c) :
      ReceivesHeaders (.own k) c

end Mh2c
