/-
Model of mh2c/ssl/ssl_connection.{h,cpp}.

The TLS layer is an arbitrary environment. A `Conn` holds what the peer will deliver, what has been
sent, and two schedules: how many octets each future `BIO_read` / `BIO_write` call transfers.
-/
import Verif.Basic

namespace Mh2c

/-- The connection as seen by the code of mh2c/ssl/ssl_connection.cpp:103-136. `reads`/`writes`: for
each future call the largest number of octets the TLS layer is willing to transfer; 0, or an
exhausted list, is an error return (`result <= 0`). Simplification: a call that blocks forever is
not modelled. -/
structure Conn where
  incoming : Bytes
  sent : Bytes
  reads : List Nat
  writes : List Nat
  deriving DecidableEq, Repr

/-- Conversion of a `size_t` length to the `int` parameter of `BIO_read`/`BIO_write`
(mh2c/ssl/ssl_connection.cpp:109 and 126; two's complement): 0 stands for every non-positive result,
which makes the call fail. -/
def toIntLength (n : Nat) : Nat := if n % 2 ^ 32 < 2 ^ 31 then n % 2 ^ 32 else 0

/-- mh2c/ssl/ssl_connection.cpp:121-136 `read`: `length` octets still to be read. The recursion is
over the schedule, one call of `BIO_read` per step. -/
def readLoop : (reads : List Nat) → (incoming : Bytes) → (length : Nat) →
    Res Bytes × List Nat × Bytes
  | reads, incoming, 0 => (.ok [], reads, incoming)
  | [], incoming, _ + 1 => (.throw .runtimeError, [], incoming)
  | r :: rs, incoming, length + 1 =>
      let k := min r (min (toIntLength (length + 1)) incoming.length)
      if k = 0 then (.throw .runtimeError, rs, incoming)
      else
        match readLoop rs (incoming.drop k) (length + 1 - k) with
        | (.ok got, rs', inc') => (.ok (incoming.take k ++ got), rs', inc')
        | (r, rs', inc') => (r, rs', inc')

/-- mh2c/ssl/ssl_connection.cpp:121-136 `read`: result and new connection state. -/
def Conn.read (c : Conn) (length : Nat) : Res Bytes × Conn :=
  match readLoop c.reads c.incoming length with
  | (res, reads, incoming) => (res, { c with reads := reads, incoming := incoming })

/-- mh2c/ssl/ssl_connection.cpp:103-119 `write`: `data` is what is still to be written. -/
def writeLoop : (writes : List Nat) → (sent data : Bytes) → Res Unit × List Nat × Bytes
  | writes, sent, [] => (.ok (), writes, sent)
  | [], sent, _ :: _ => (.throw .runtimeError, [], sent)
  | w :: ws, sent, b :: bs =>
      let k := min w (toIntLength (b :: bs).length)
      if k = 0 then (.throw .runtimeError, ws, sent)
      else writeLoop ws (sent ++ (b :: bs).take k) ((b :: bs).drop k)

/-- mh2c/ssl/ssl_connection.cpp:103-119 `write`. -/
def Conn.write (c : Conn) (data : Bytes) : Res Unit × Conn :=
  match writeLoop c.writes c.sent data with
  | (res, writes, sent) => (res, { c with writes := writes, sent := sent })

/-- mh2c/ssl/ssl_verify_mode.h:13-16 `verify_mode`. -/
inductive VerifyMode
  | verifyNone
  | verifyServerCert
  deriving DecidableEq, Repr

/-- Return values of the OpenSSL calls made by the constructor, in order
(mh2c/ssl/ssl_connection.cpp:43-95). -/
structure TlsOutcome where
  /-- `BIO_get_ssl` gave a non-null `SSL*` -/
  hasSsl : Bool
  /-- `SSL_set_alpn_protos` -/
  setAlpn : Int
  /-- `SSL_CTX_set_default_verify_paths` -/
  setVerifyPaths : Int
  /-- `BIO_do_connect` -/
  connect : Int
  /-- `BIO_do_handshake` -/
  handshake : Int
  /-- `SSL_get_verify_result` (`X509_V_OK` is 0) -/
  verifyResult : Int
  /-- `SSL_get0_alpn_selected` (empty if none) -/
  alpnSelected : Bytes
  deriving DecidableEq

/-- mh2c/ssl/ssl_connection.cpp:33-101, the constructor, as decision logic over the outcomes.
The calls themselves, object creation and destruction are modelled in Model/Tls. -/
def connectTls (mode : VerifyMode) (o : TlsOutcome) : Res Unit :=
  if o.hasSsl = false then .throw .runtimeError
  else if o.setAlpn ≠ 0 then .throw .runtimeError
  else if o.setVerifyPaths ≠ 1 then .throw .runtimeError
  else if o.connect ≤ 0 then .throw .runtimeError
  else if o.handshake ≤ 0 then .throw .runtimeError
  else if mode ≠ .verifyNone ∧ o.verifyResult ≠ 0 then .throw .runtimeError
  else
    let alpnProtos : Bytes := [0x02, 0x68, 0x32]
    let expected := o.alpnSelected.length = alpnProtos.length - 1 ∧
      o.alpnSelected = (alpnProtos.drop 1).take o.alpnSelected.length
    if ¬ expected then .throw .runtimeError else .ok ()

end Mh2c
