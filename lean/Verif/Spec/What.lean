/-
Vocabulary for the texts of exceptions.
-/
import Verif.Model.What
import Verif.Spec.Text
import Verif.Spec.Causes
import Verif.Spec.Duties

namespace Mh2c

open Rfc

/-- The octets are codes and then at least eight bits that no code is a prefix of. `left` are the whole
octets of these bits and `needed` the octets that a code would have needed that is longer than they
are, the shortest there is, beside the bits of an octet that was read in part. -/
def EndsInCode (bad : Bytes) (left needed : Nat) : Prop :=
  ∃ (symbols : List Nat) (bitsLeft : List Bool) (n : Nat),
    bytesBits bad = symbols.flatMap huffCode ++ bitsLeft ∧ (∀ s ∈ symbols, s < 257) ∧
      (∀ s < 257, ¬ huffCode s <+: bitsLeft) ∧ 8 ≤ bitsLeft.length ∧
      n ∈ huffLengths ∧ bitsLeft.length < n ∧ (∀ k ∈ huffLengths, bitsLeft.length < k → n ≤ k) ∧
      left = bitsLeft.length / 8 ∧ needed = (n - bitsLeft.length % 8 + 7) / 8

/-- The payload has this string literal of RFC 7541 5.2 with the H bit set (`BadHuffman` says that there
is one that is not the Huffman code of a string). -/
def HuffmanAt (payload bad : Bytes) : Prop :=
  ∃ (before lengthOctets after rest : Bytes) (b : UInt8),
    payload = before ++ lengthOctets ++ bad ++ after ∧
      lengthOctets.head? = some b ∧ 128 ≤ b.toNat ∧ lengthOctets.length ≤ 6 ∧
      intDecode 7 (lengthOctets ++ bad ++ after) = some (bad.length, rest)

/-- The text about a string literal of the payload whose Huffman code ends inside a code: how many
octets were left and how many would have been needed. -/
def HuffmanText (payload : Bytes) (w : What) : Prop :=
  ∃ bad left needed, HuffmanAt payload bad ∧ EndsInCode bad left needed ∧
    w = .said (ascii "invalid argument: encoded_data.size()=" ++ decimal left ++
      ascii ", required_byte=" ++ decimal needed)

/-- The payload has this index (RFC 7541 6.1 and 6.2) and it is beyond the static table and the entries
(`MissingIndex` says that there is such an index). -/
def MissingAt (payload : Bytes) (entries : List Field) (i : Nat) : Prop :=
  ∃ (before rep rest : Bytes) (b : UInt8) (n : Nat),
    payload = before ++ rep ∧ rep.head? = some b ∧ indexBits b = some n ∧
      intDecode n rep = some (i, rest) ∧ 61 + entries.length < i

/-- The text about an index of the payload that is in none of the tables: it is the standard
library's, for the position in the dynamic table that the index means (62 is the first) and the number
of entries. -/
def MissingText (payload : Bytes) (entries : List Field) (w : What) : Prop :=
  ∃ i, MissingAt payload entries i ∧ w = .vectorAt (i - 62) entries.length

/-- The text of a payload of the wrong length. -/
def lengthText (n : Nat) : What := .said (ascii "invalid payload size: " ++ decimal n)

/-- The texts of the standard library have no newline and do not start with an equals sign. -/
def Outside.Plain (o : Outside) : Prop :=
  (10 ∉ o.mapAt ∧ o.mapAt.head? ≠ some 61) ∧
    ∀ i n, 10 ∉ o.vectorAt i n ∧ (o.vectorAt i n).head? ≠ some 61

/-- The calls of OpenSSL that the constructor makes, in order, and what it checks at the end. -/
inductive Step
  | ctxNew | bioNew | getSsl | setAlpn | setVerifyPaths | connect | handshake | verify | alpn
  deriving DecidableEq

/-- The constructor, with verification or without, is content with what this call gave. -/
def Step.Fine (mode : VerifyMode) (env : TlsEnv) : Step → Prop
  | ctxNew => env.ctxOk = true
  | bioNew => env.bioOk = true
  | getSsl => env.hasSsl = true
  | setAlpn => env.setAlpn = 0
  | setVerifyPaths => env.setVerifyPaths = 1
  | connect => 0 < env.connect
  | handshake => 0 < env.handshake
  | verify => mode = .verifyServerCert → env.verifyResult = 0
  | alpn => env.alpnSelected = ascii "h2"

/-- All of them in order. -/
def steps : List Step :=
  [.ctxNew, .bioNew, .getSsl, .setAlpn, .setVerifyPaths, .connect, .handshake, .verify, .alpn]

/-- The first that was not fine. -/
def FailedAt (mode : VerifyMode) (env : TlsEnv) (step : Step) : Prop :=
  ∃ before after, steps = before ++ step :: after ∧ (∀ s ∈ before, s.Fine mode env) ∧
    ¬ step.Fine mode env

/-- How the text for a step begins. -/
def Step.text : Step → Bytes
  | ctxNew => ascii "SSL_CTX_new failed"
  | bioNew => ascii "BIO_new_ssl_connect failed"
  | getSsl => ascii "BIO_get_ssl failed"
  | setAlpn => ascii "SSL_set_alpn_protos failed: err="
  | setVerifyPaths => ascii "SSL_CTX_set_default_verify_paths failed: err="
  | connect => ascii "BIO_do_connect failed: err_code="
  | handshake => ascii "BIO_do_handshake failed: err_code="
  | verify => ascii "SSL_get_verify_result failed: verify_result="
  | alpn => ascii "unexpected alpn result: alpn_result="

/-- A number that may be negative, in decimal. -/
def signed (n : Int) : Bytes := if n < 0 then ascii "-" ++ decimal n.natAbs else decimal n.natAbs

/-- How it goes on: with the number the call gave, or `errno`, or the protocol that was chosen, up to
its first zero octet. -/
def Step.rest (errno : Int) (env : TlsEnv) : Step → Bytes
  | ctxNew => []
  | bioNew => []
  | getSsl => []
  | setAlpn => signed env.setAlpn
  | setVerifyPaths => signed env.setVerifyPaths
  | connect => signed errno
  | handshake => signed errno
  | verify => signed env.verifyResult
  | alpn => env.alpnSelected.takeWhile (· ≠ 0)

/-- C72. The pieces that the sample sends, one call for each. -/
def Sample.conversation : List Bytes :=
  [preface, settingsOctets, ackOctets, requestOctets, goawayOctets]

end Mh2c
