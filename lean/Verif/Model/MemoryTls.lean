/-
Model of the construction of a client when memory can run out (`std::bad_alloc`): the constructors of
http2_client, ssl_connection, ssl_bio and ssl_ctx with their OpenSSL calls.
-/
import Verif.Model.Memory
import Verif.Model.Tls

namespace Mh2c

/-- mh2c/ssl/ssl_connection.cpp:33-101, the body of the constructor: outcome and calls. Memory is needed for
the endpoint (line 39), for the protocol list (line 49), for the protocol that was chosen (lines 91-92), and
for the text of each exception. Simplification: the static list is made by the first call that comes there,
and a short string needs no memory of its own; here both may run out of it every time. -/
def connectBodyMem (loaded : Bool) (host : Bytes) (port : UInt16) (mode : VerifyMode) (o : TlsOutcome)
    (m : Memory) : Ended Unit × List TlsCall × Memory :=
  let failed (calls : List TlsCall) (m : Memory) : Ended Unit × List TlsCall × Memory :=
    let (r, m') := raise (.throw .runtimeError) m
    (r, calls, m')
  let c0 := if loaded then [] else [TlsCall.libraryInit]
  if m.next.1 = false then (.badAlloc, c0, m.next.2)
  else
    let m := m.next.2
    let c1 := c0 ++ [.setConnHostname (terminated (hostPort host port)), .getSsl]
    if o.hasSsl = false then failed c1 m
    else
      let c2 := c1 ++ [.setAutoRetry]
      if m.next.1 = false then (.badAlloc, c2, m.next.2)
      else
        let m := m.next.2
        let alpnProtos : Bytes := [0x02, 0x68, 0x32]
        let c3 := c2 ++ [.setAlpn alpnProtos]
        if o.setAlpn ≠ 0 then failed c3 m
        else
          let c4 := c3 ++ [.setVerifyPaths]
          if o.setVerifyPaths ≠ 1 then failed c4 m
          else
            let c5 := c4 ++ [.doConnect]
            if o.connect ≤ 0 then failed c5 m
            else
              let c6 := c5 ++ [.doHandshake]
              if o.handshake ≤ 0 then failed c6 m
              else
                let c7 := if mode ≠ .verifyNone then c6 ++ [.getVerifyResult] else c6
                if mode ≠ .verifyNone ∧ o.verifyResult ≠ 0 then failed c7 m
                else
                  let c8 := c7 ++ [.getAlpn]
                  if m.next.1 = false then (.badAlloc, c8, m.next.2)
                  else
                    let m := m.next.2
                    let expected := o.alpnSelected.length = alpnProtos.length - 1 ∧
                      o.alpnSelected = (alpnProtos.drop 1).take o.alpnSelected.length
                    if ¬ expected then failed c8 m else (.res (.ok ()), c8, m)

/-- mh2c/http2_client.cpp:163-165 (`std::make_unique` asks for the memory of the client first) and
mh2c/ssl/ssl_connection.cpp:33-35 with mh2c/ssl/ssl_ctx.cpp:15-19 and mh2c/ssl/ssl_bio.cpp:17-22: the members
are constructed in order; if a later step throws, those constructed so far are destroyed in reverse order
(mh2c/ssl/ssl_bio.cpp:24, mh2c/ssl/ssl_ctx.cpp:21). The tables of the client are empty and need no memory. -/
def constructMem (loaded : Bool) (host : Bytes) (port : UInt16) (mode : VerifyMode) (env : TlsEnv)
    (m : Memory) : Ended Unit × List TlsCall :=
  if m.next.1 = false then (.badAlloc, [])
  else if env.ctxOk = false then ((raise (.throw .runtimeError) m.next.2).1, [.ctxNew false])
  else if env.bioOk = false then
    ((raise (.throw .runtimeError) m.next.2).1, [.ctxNew true, .bioNew false, .ctxFree])
  else
    match connectBodyMem loaded host port mode env.toTlsOutcome m.next.2 with
    | (.res (.ok ()), calls, _) => (.res (.ok ()), [.ctxNew true, .bioNew true] ++ calls)
    | (r, calls, _) => (r, [.ctxNew true, .bioNew true] ++ calls ++ [.bioFree, .ctxFree])

/-- Whether `load_once` is set after a construction (mh2c/ssl/ssl_connection.cpp:37): both members have to be
constructed, and the memory of the client has to be there. -/
def loadedAfterMem (loaded : Bool) (env : TlsEnv) (m : Memory) : Bool :=
  loaded || m.next.1 && env.ctxOk && env.bioOk

/-- The calls of one client: construction and, if that succeeded, uses and destruction
(mh2c/http2_client.cpp:102-105, 165-167). -/
def clientCallsMem (loaded : Bool) (r : ClientRun) (m : Memory) : List TlsCall :=
  match constructMem loaded r.host r.port r.mode r.env m with
  | (.res (.ok ()), calls) => calls ++ useCalls r.uses ++ [.bioFree, .ctxFree]
  | (_, calls) => calls

/-- The calls of a process that makes one client after the other, each with the memory there is
(mh2c/ssl/ssl_connection.cpp:24: the flag is shared by them). -/
def processCallsMem : (loaded : Bool) → List (ClientRun × Memory) → List TlsCall
  | _, [] => []
  | loaded, (r, m) :: rs =>
      clientCallsMem loaded r m ++ processCallsMem (loadedAfterMem loaded r.env m) rs

end Mh2c
