/-
Specification: malformed header lists (RFC 7540 section 8.1.2).
-/
import Verif.Spec.Hpack

namespace Rfc

/-- Pseudo-header fields have names beginning with a colon. -/
def IsPseudo (f : Field) : Prop := f.1.head? = some 58

/-- 8.1.2.2: fields that belong to a connection. -/
def connectionNames : List (List UInt8) :=
  [ascii "connection", ascii "keep-alive", ascii "proxy-connection", ascii "transfer-encoding",
   ascii "upgrade"]

/-- Malformed whatever the message is: an upper case letter in a name (8.1.2), a connection-specific
field (8.1.2.2), a pseudo-header field other than those defined (8.1.2.1) or after a regular one
(8.1.2.1). -/
def MalformedList (defined : List (List UInt8)) (fs : List Field) : Prop :=
  (∃ f ∈ fs, ∃ b ∈ f.1, 65 ≤ b.toNat ∧ b.toNat ≤ 90) ∨
  (∃ f ∈ fs, f.1 ∈ connectionNames) ∨
  (∃ f ∈ fs, IsPseudo f ∧ f.1 ∉ defined) ∨
  ∃ before f after, fs = before ++ f :: after ∧ ¬ IsPseudo f ∧ ∃ g ∈ after, IsPseudo g

/-- 8.1.2.4: a response has exactly one `:status` and no other pseudo-header field. -/
def MalformedResponse (fs : List Field) : Prop :=
  MalformedList [ascii ":status"] fs ∨ (fs.map (·.1)).count (ascii ":status") ≠ 1

/-- 8.1.2.3: a request has exactly one `:method` and, unless it is a CONNECT request, exactly one
`:scheme` and `:path`; `:authority` is the only other pseudo-header field. -/
def MalformedRequest (fs : List Field) : Prop :=
  MalformedList [ascii ":method", ascii ":scheme", ascii ":path", ascii ":authority"] fs ∨
  (fs.map (·.1)).count (ascii ":method") ≠ 1 ∨
  ((ascii ":method", ascii "CONNECT") ∉ fs ∧
    ((fs.map (·.1)).count (ascii ":scheme") ≠ 1 ∨ (fs.map (·.1)).count (ascii ":path") ≠ 1))

/-- RFC 7541 6.2.2, 5.2: a field with a new name, without indexing and without Huffman coding, for
names and values of at most 126 octets. -/
def plainLiteral (f : Field) : List UInt8 :=
  0 :: UInt8.ofNat f.1.length :: f.1 ++ UInt8.ofNat f.2.length :: f.2

end Rfc
