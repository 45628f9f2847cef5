/-
Model of one client used by several threads: the calls of the API in single steps, one transport call
or one use of a dynamic table at a time.
-/
import Verif.Spec.History

namespace Mh2c

/-- mh2c/ssl/ssl_connection.cpp:107-114: one call of `BIO_write`, with the number of octets taken
(`none`: it failed). -/
def Conn.bioWrite (c : Conn) (data : Bytes) : Option Nat × Conn :=
  match c.writes with
  | [] => (none, c)
  | w :: ws =>
      let k := min w (toIntLength data.length)
      if k = 0 then (none, { c with writes := ws })
      else (some k, { c with writes := ws, sent := c.sent ++ data.take k })

/-- mh2c/ssl/ssl_connection.cpp:125-131: one call of `BIO_read` for at most `n` octets (`none`: it
failed). -/
def Conn.bioRead (c : Conn) (n : Nat) : Option Bytes × Conn :=
  match c.reads with
  | [] => (none, c)
  | r :: rs =>
      let k := min r (min (toIntLength n) c.incoming.length)
      if k = 0 then (none, { c with reads := rs })
      else (some (c.incoming.take k), { c with reads := rs, incoming := c.incoming.drop k })

/-- Where a thread is in the call it is making (mh2c/ssl/ssl_connection.cpp:103-136,
mh2c/http2_client.cpp:112-157). -/
inductive Phase
  /-- between two calls -/
  | idle
  /-- mh2c/ssl/ssl_connection.cpp:106, with these octets still to be written -/
  | writing (rest : Bytes)
  /-- mh2c/ssl/ssl_connection.cpp:124 in `receive_raw_data(n)`, with these octets read -/
  | readingRaw (n : Nat) (got : Bytes)
  /-- the same in mh2c/http2_client.cpp:134 (`receive_frame`), reading the frame header -/
  | readingHeader (got : Bytes)
  /-- the same in mh2c/http2_client.cpp:139, reading the payload -/
  | readingPayload (fh : FrameHeader) (got : Bytes)
  deriving DecidableEq, Repr

/-- A thread: the calls (mh2c/http2_client.h:26-35) it still has to make, the current one included,
where it is in that one, and the results of the others. -/
structure Worker where
  todo : List Op
  phase : Phase
  results : List (Op × Outcome)

/-- The current call (mh2c/http2_client.cpp:169-195) is over; exceptions are caught by the program. -/
def Worker.finish (w : Worker) (o : Outcome) : Worker :=
  match w.todo with
  | [] => w
  | op :: ops => ⟨ops, .idle, w.results ++ [(op, o)]⟩

/-- mh2c/http2_client.cpp:142-145: the end of `receive_frame`. -/
def Worker.process [Platform] (w : Worker) (c : Client) (fh : FrameHeader) (raw : Bytes) :
    Worker × Client :=
  (w.finish (.frame (c.processFrame fh raw).1), (c.processFrame fh raw).2)

/-- One step of a thread on the client it shares: the beginning of a call (mh2c/http2_client.ipp:9-14,
mh2c/http2_client.cpp:112-157), a transport call with what is done with its result
(mh2c/ssl/ssl_connection.cpp:103-136), or the end of a call. Simplification: a transport call is one
step, as if a lock were around it (OpenSSL asks the program for one), and so is the use of a table. -/
def Worker.step [Platform] (w : Worker) (c : Client) : Worker × Client :=
  match w.phase with
  | .idle =>
      match w.todo with
      | [] => (w, c)
      | .sendPreface :: _ =>
          ({ w with phase := .writing (bstr "PRI * HTTP/2.0\r\n\r\nSM\r\n\r\n") }, c)
      | .sendRaw data :: _ => ({ w with phase := .writing data }, c)
      | .sendFrame f :: _ =>
          match f.serialize with
          | .ok raw => ({ w with phase := .writing raw }, c)
          | .throw e => (w.finish (.done (.throw e)), c)
          | .ub k => (w.finish (.done (.ub k)), c)
          | .diverge => (w.finish (.done .diverge), c)
      | .receiveRaw n :: _ => ({ w with phase := .readingRaw n [] }, c)
      | .receiveFrame :: _ => ({ w with phase := .readingHeader [] }, c)
      | .updateRequestBlock b :: _ =>
          (w.finish (.done (c.updateRequestDynamicTable b).1), (c.updateRequestDynamicTable b).2)
      | .updateRequestSize n :: _ =>
          (w.finish (.done (c.updateRequestTableSize n).1), (c.updateRequestTableSize n).2)
  | .writing rest =>
      if rest.length = 0 then (w.finish (.done (.ok ())), c)
      else
        match c.conn.bioWrite rest with
        | (some k, conn) => ({ w with phase := .writing (rest.drop k) }, { c with conn := conn })
        | (none, conn) => (w.finish (.done (.throw .runtimeError)), { c with conn := conn })
  | .readingRaw n got =>
      if n ≤ got.length then (w.finish (.octets (.ok got)), c)
      else
        match c.conn.bioRead (n - got.length) with
        | (some more, conn) =>
            ({ w with phase := .readingRaw n (got ++ more) }, { c with conn := conn })
        | (none, conn) => (w.finish (.octets (.throw .runtimeError)), { c with conn := conn })
  | .readingHeader got =>
      if 9 ≤ got.length then
        match buildFrameHeader got with
        | .ok fh =>
            if fh.length.toNat > 0 then ({ w with phase := .readingPayload fh [] }, c)
            else w.process c fh []
        | .throw e => (w.finish (.frame (.throw e)), c)
        | .ub k => (w.finish (.frame (.ub k)), c)
        | .diverge => (w.finish (.frame .diverge), c)
      else
        match c.conn.bioRead (9 - got.length) with
        | (some more, conn) =>
            ({ w with phase := .readingHeader (got ++ more) }, { c with conn := conn })
        | (none, conn) => (w.finish (.frame (.throw .runtimeError)), { c with conn := conn })
  | .readingPayload fh got =>
      if fh.length.toNat ≤ got.length then w.process c fh got
      else
        match c.conn.bioRead (fh.length.toNat - got.length) with
        | (some more, conn) =>
            ({ w with phase := .readingPayload fh (got ++ more) }, { c with conn := conn })
        | (none, conn) => (w.finish (.frame (.throw .runtimeError)), { c with conn := conn })

/-- A client (mh2c/http2_client.h:20-41) and the threads that share it, by number. -/
structure Shared where
  client : Client
  workers : Nat → Worker

/-- The threads with the calls (mh2c/http2_client.h:26-35) each of them is going to make. -/
def Shared.start (c : Client) (ops : Nat → List Op) : Shared := ⟨c, fun i => ⟨ops i, .idle, []⟩⟩

/-- Thread `i` goes on by a step. Nothing in the library (mh2c/http2_client.cpp:87-199, no lock)
keeps it from that. -/
def Shared.step [Platform] (s : Shared) (i : Nat) : Shared :=
  ⟨((s.workers i).step s.client).2,
    fun j => if j = i then ((s.workers i).step s.client).1 else s.workers j⟩

/-- The threads go on in the order of the schedule; there is no lock in
mh2c/http2_client.cpp:87-199. -/
def Shared.run [Platform] (s : Shared) (schedule : List Nat) : Shared := schedule.foldl Shared.step s

end Mh2c
