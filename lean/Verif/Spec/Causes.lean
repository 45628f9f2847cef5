/-
Vocabulary for C120: what in the stream can be the cause of an exception.
-/
import Verif.Spec.Session
import Verif.Spec.Wire
import Verif.Spec.Huffman

namespace Mh2c

open Rfc

/-- The payload of the frame at the front of the stream. -/
def payloadAt (stream : Bytes) : Bytes := (stream.drop 9).take (announced stream)

/-- The frame types with a fixed or minimal payload length (RFC 7540 6.3, 6.4, 6.8, 6.9), and a
payload that is too short, or for WINDOW_UPDATE not of this length. -/
def WrongLength (type : UInt8) (payload : Bytes) : Prop :=
  (type = 2 ∧ payload.length < 5) ∨ (type = 3 ∧ payload.length < 4) ∨
    (type = 7 ∧ payload.length < 8) ∨ (type = 8 ∧ payload.length ≠ 4)

instance (type : UInt8) (payload : Bytes) : Decidable (WrongLength type payload) := by
  unfold WrongLength; infer_instance

/-- The payload has a string literal of RFC 7541 5.2 with the H bit set whose announced number of
octets, at most six octets after the beginning of the literal, is not the Huffman code of a string. -/
def BadHuffman (payload : Bytes) : Prop :=
  ∃ (before lengthOctets bad after rest : Bytes) (b : UInt8),
    payload = before ++ lengthOctets ++ bad ++ after ∧
      lengthOctets.head? = some b ∧ 128 ≤ b.toNat ∧ lengthOctets.length ≤ 6 ∧
      intDecode 7 (lengthOctets ++ bad ++ after) = some (bad.length, rest) ∧
      ¬ ∃ s, HuffDecodes bad s

/-- The payload has an index (RFC 7541 6.1 and 6.2) that is beyond the static table and the entries. -/
def MissingIndex (payload : Bytes) (entries : List Field) : Prop :=
  ∃ (before rep rest : Bytes) (b : UInt8) (n i : Nat),
    payload = before ++ rep ∧ rep.head? = some b ∧ indexBits b = some n ∧
      intDecode n rep = some (i, rest) ∧ 61 + entries.length < i

end Mh2c
