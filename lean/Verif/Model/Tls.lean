/-
Model of the life of a connection: mh2c/ssl/ssl_ctx.cpp, ssl_bio.cpp, the constructor in
ssl_connection.cpp with all its OpenSSL calls, and the destructors, as a sequence of calls.
-/
import Verif.Model.Ssl
import Verif.Model.Dump

namespace Mh2c

/-- The OpenSSL calls the library makes (mh2c/ssl/ssl_connection.cpp:26-136,
mh2c/ssl/ssl_bio.cpp:17-24, mh2c/ssl/ssl_ctx.cpp:15-21), and two that it could make. -/
inductive TlsCall
  /-- `SSL_CTX_new(TLS_client_method())`; whether it gave a context -/
  | ctxNew (ok : Bool)
  /-- `SSL_CTX_free` -/
  | ctxFree
  /-- `BIO_new_ssl_connect`; whether it gave a BIO -/
  | bioNew (ok : Bool)
  /-- `BIO_free_all` -/
  | bioFree
  /-- `SSL_library_init`, `SSL_load_error_strings` -/
  | libraryInit
  /-- `BIO_set_conn_hostname` with this C string -/
  | setConnHostname (endpoint : Bytes)
  /-- `BIO_get_ssl` -/
  | getSsl
  /-- `SSL_set_mode(ssl, SSL_MODE_AUTO_RETRY)` -/
  | setAutoRetry
  /-- `SSL_set_alpn_protos` -/
  | setAlpn (protos : Bytes)
  /-- `SSL_CTX_set_default_verify_paths` -/
  | setVerifyPaths
  /-- `BIO_do_connect` -/
  | doConnect
  /-- `BIO_do_handshake` -/
  | doHandshake
  /-- `SSL_get_verify_result` -/
  | getVerifyResult
  /-- `SSL_get0_alpn_selected` -/
  | getAlpn
  /-- `BIO_read` -/
  | read
  /-- `BIO_write` -/
  | write
  /-- `SSL_set1_host`: the name the certificate has to carry. Not called by the library. -/
  | setExpectedHost (name : Bytes)
  /-- `SSL_set_tlsext_host_name`: the name sent in the SNI extension. Not called by the library. -/
  | setServerName (name : Bytes)
  deriving DecidableEq, Repr

/-- What the OpenSSL calls of one construction give (mh2c/ssl/ssl_connection.cpp:33-101,
mh2c/ssl/ssl_bio.cpp:18, mh2c/ssl/ssl_ctx.cpp:15). -/
structure TlsEnv extends TlsOutcome where
  ctxOk : Bool
  bioOk : Bool
  deriving DecidableEq

/-- mh2c/ssl/ssl_connection.cpp:39 `hostname + ":" + std::to_string(port)`. -/
def hostPort (host : Bytes) (port : UInt16) : Bytes :=
  host ++ bstr ":" ++ Stream.toString port.toNat

/-- The C string `s.c_str()` (mh2c/ssl/ssl_connection.cpp:40) as a function that takes a `const
char*` sees it. -/
def terminated (s : Bytes) : Bytes := s.takeWhile (· ≠ 0)

/-- mh2c/ssl/ssl_connection.cpp:33-101, the body of the constructor: outcome and calls.
`loaded` is the state of `load_once` (line 24), a flag of the process. -/
def connectBody (loaded : Bool) (host : Bytes) (port : UInt16) (mode : VerifyMode) (o : TlsOutcome) :
    Res Unit × List TlsCall :=
  let c1 := (if loaded then [] else [TlsCall.libraryInit]) ++
    [.setConnHostname (terminated (hostPort host port)), .getSsl]
  if o.hasSsl = false then (.throw .runtimeError, c1)
  else
    let alpnProtos : Bytes := [0x02, 0x68, 0x32]
    let c2 := c1 ++ [.setAutoRetry, .setAlpn alpnProtos]
    if o.setAlpn ≠ 0 then (.throw .runtimeError, c2)
    else
      let c3 := c2 ++ [.setVerifyPaths]
      if o.setVerifyPaths ≠ 1 then (.throw .runtimeError, c3)
      else
        let c4 := c3 ++ [.doConnect]
        if o.connect ≤ 0 then (.throw .runtimeError, c4)
        else
          let c5 := c4 ++ [.doHandshake]
          if o.handshake ≤ 0 then (.throw .runtimeError, c5)
          else
            let c6 := if mode ≠ .verifyNone then c5 ++ [.getVerifyResult] else c5
            if mode ≠ .verifyNone ∧ o.verifyResult ≠ 0 then (.throw .runtimeError, c6)
            else
              let c7 := c6 ++ [.getAlpn]
              let expected := o.alpnSelected.length = alpnProtos.length - 1 ∧
                o.alpnSelected = (alpnProtos.drop 1).take o.alpnSelected.length
              if ¬ expected then (.throw .runtimeError, c7) else (.ok (), c7)

/-- mh2c/ssl/ssl_connection.cpp:33-35 with mh2c/ssl/ssl_ctx.cpp:15-19 and
mh2c/ssl/ssl_bio.cpp:17-22: the members are constructed in order; if a later step throws, the
members constructed so far are destroyed in reverse order (mh2c/ssl/ssl_bio.cpp:24,
mh2c/ssl/ssl_ctx.cpp:21). -/
def construct (loaded : Bool) (host : Bytes) (port : UInt16) (mode : VerifyMode) (env : TlsEnv) :
    Res Unit × List TlsCall :=
  if env.ctxOk = false then (.throw .runtimeError, [.ctxNew false])
  else if env.bioOk = false then (.throw .runtimeError, [.ctxNew true, .bioNew false, .ctxFree])
  else
    match connectBody loaded host port mode env.toTlsOutcome with
    | (.ok (), calls) => (.ok (), [.ctxNew true, .bioNew true] ++ calls)
    | (r, calls) => (r, [.ctxNew true, .bioNew true] ++ calls ++ [.bioFree, .ctxFree])

/-- Whether `load_once` is set after a construction: `std::call_once` runs after both members have
been constructed (mh2c/ssl/ssl_connection.cpp:37). -/
def loadedAfter (loaded : Bool) (env : TlsEnv) : Bool := loaded || env.ctxOk && env.bioOk

/-- The uses of a connection between construction and destruction: `true` for a `BIO_read`, `false`
for a `BIO_write` (mh2c/ssl/ssl_connection.cpp:103-136). -/
def useCalls (uses : List Bool) : List TlsCall := uses.map fun r => if r then .read else .write

/-- The calls of one client: construction and, if that succeeded, uses and destruction
(mh2c/http2_client.cpp:102-105, 165-167: `~http2_client` destroys the `ssl_connection`, whose
members are destroyed in reverse order). -/
def clientCalls (loaded : Bool) (host : Bytes) (port : UInt16) (mode : VerifyMode) (env : TlsEnv)
    (uses : List Bool) : List TlsCall :=
  match construct loaded host port mode env with
  | (.ok (), calls) => calls ++ useCalls uses ++ [.bioFree, .ctxFree]
  | (_, calls) => calls

/-- One client of a process: the arguments of its constructor (mh2c/http2_client.cpp:163-165), what
OpenSSL answers, and its uses. -/
structure ClientRun where
  host : Bytes
  port : UInt16
  mode : VerifyMode
  env : TlsEnv
  uses : List Bool

/-- The calls of a process that makes one client after the other (mh2c/ssl/ssl_connection.cpp:24:
the flag is shared by them). -/
def processCalls : (loaded : Bool) → List ClientRun → List TlsCall
  | _, [] => []
  | loaded, r :: rs =>
      clientCalls loaded r.host r.port r.mode r.env r.uses ++
        processCalls (loadedAfter loaded r.env) rs

end Mh2c
