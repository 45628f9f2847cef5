/-
Vocabulary for C96: sending on what was received.
-/
import Verif.Spec.Conversation

namespace Mh2c

open Rfc

/-- A frame as RFC 7540 tells a sender to write it: the reserved bit of DATA and SETTINGS frame
headers is clear (4.1), PRIORITY has five octets of payload (6.3), RST_STREAM four (6.4). Beyond the
RFC, the settings of a SETTINGS frame are in increasing order of identifiers, none repeated. -/
structure Plain (octets : Bytes) : Prop where
  reserved : octets[3]? = some 0 ∨ octets[3]? = some 4 → ∀ b, octets[5]? = some b → b.toNat < 128
  priority : octets[3]? = some 2 → octets.length = 9 + 5
  rstStream : octets[3]? = some 3 → octets.length = 9 + 4
  settings : octets[3]? = some 4 → ∃ ps, octets.drop 9 = settingsOctets ps ∧
    ps.Pairwise fun a b => a.1 < b.1

/-- Receive `n` frames from one client and send each through another, stopping at a failure. -/
def relay [Platform] : Nat → Client → Client → Res Unit × Client × Client
  | 0, c, d => (.ok (), c, d)
  | n + 1, c, d =>
      match c.receiveFrame with
      | (.ok f, c') =>
          match d.sendFrame f with
          | (.ok (), d') => relay n c' d'
          | (r, d') => (r, c', d')
      | (.throw e, c') => (.throw e, c', d)
      | (.ub k, c') => (.ub k, c', d)
      | (.diverge, c') => (.diverge, c', d)

/-- The first `n` frames of a stream are as a sender should write them. -/
def PlainStream : Nat → Bytes → Prop
  | 0, _ => True
  | n + 1, stream => Plain (stream.take (frameLength stream)) ∧
      PlainStream n (stream.drop (frameLength stream))

end Mh2c
