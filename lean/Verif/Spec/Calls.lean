/-
Counting transport calls and octets between two states of a client.
-/
import Verif.Spec.Session

namespace Mh2c

/-- Calls of `BIO_read` and `BIO_write` made between two states: the schedules hold one number for
each call to come. -/
def transportCalls (c c' : Client) : Nat :=
  (c.conn.reads.length - c'.conn.reads.length) + (c.conn.writes.length - c'.conn.writes.length)

/-- Octets taken from the peer and octets sent between two states. -/
def octetsMoved (c c' : Client) : Nat :=
  (c.conn.incoming.length - c'.conn.incoming.length) + (c'.conn.sent.length - c.conn.sent.length)

end Mh2c
