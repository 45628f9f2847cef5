/-
Vocabulary for the properties of connections: ownership of OpenSSL objects, and what certificate
verification means.
-/
import Verif.Model.Tls

namespace Mh2c

/-- Which OpenSSL objects of a client are alive. -/
structure Live where
  ctx : Bool
  bio : Bool
  deriving DecidableEq

/-- The calls that need a live BIO (or the SSL in it). -/
def TlsCall.UsesBio : TlsCall → Prop
  | .setConnHostname _ | .getSsl | .setAutoRetry | .setAlpn _ | .doConnect | .doHandshake
  | .getVerifyResult | .getAlpn | .read | .write | .setExpectedHost _ | .setServerName _ => True
  | _ => False

/-- The legal calls and their effect on ownership. An object is freed while it is alive, the BIO
before the context it was made from. -/
inductive LegalCall : Live → TlsCall → Live → Prop
  | init (l : Live) : LegalCall l .libraryInit l
  | ctxNew : LegalCall ⟨false, false⟩ (.ctxNew true) ⟨true, false⟩
  | ctxFailed : LegalCall ⟨false, false⟩ (.ctxNew false) ⟨false, false⟩
  | bioNew : LegalCall ⟨true, false⟩ (.bioNew true) ⟨true, true⟩
  | bioFailed : LegalCall ⟨true, false⟩ (.bioNew false) ⟨true, false⟩
  | useCtx (b : Bool) : LegalCall ⟨true, b⟩ .setVerifyPaths ⟨true, b⟩
  | useBio (c : TlsCall) (h : c.UsesBio) : LegalCall ⟨true, true⟩ c ⟨true, true⟩
  | bioFree : LegalCall ⟨true, true⟩ .bioFree ⟨true, false⟩
  | ctxFree : LegalCall ⟨true, false⟩ .ctxFree ⟨false, false⟩

/-- A sequence of legal calls. -/
inductive LegalCalls : Live → List TlsCall → Live → Prop
  | nil (l : Live) : LegalCalls l [] l
  | cons (l m n : Live) (c : TlsCall) (cs : List TlsCall) (h : LegalCall l c m)
      (hs : LegalCalls m cs n) : LegalCalls l (c :: cs) n

/-- A server as far as certificates go: the names in its certificate, and whether the chain leads to
a trusted root. -/
structure Peer where
  names : List Bytes
  trusted : Bool

/-- When OpenSSL reports X509_V_OK after the handshake: the chain is trusted, and each name set as
expected before the handshake is in the certificate. -/
def Verifies (calls : List TlsCall) (peer : Peer) : Prop :=
  peer.trusted = true ∧ ∀ name, TlsCall.setExpectedHost name ∈ calls → name ∈ peer.names

/-- OpenSSL answers `SSL_get_verify_result` for this server. -/
def Answers (env : TlsEnv) (calls : List TlsCall) (peer : Peer) : Prop :=
  env.verifyResult = 0 ↔ Verifies calls peer

/-- The endpoint strings passed to OpenSSL in a sequence of calls. -/
def endpoints (calls : List TlsCall) : List Bytes :=
  calls.filterMap fun | .setConnHostname s => some s | _ => none

end Mh2c
