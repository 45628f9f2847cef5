/-
Vocabulary for C122: the calls of the client API whose behaviour is defined.
-/
import Verif.Spec.Session
import Verif.Spec.Delimit
import Verif.Spec.Loose
import Verif.Spec.Causes

namespace Mh2c

open Rfc

/-- Entering a header block into a table of this maximum size: every header that is inserted fits the
size in force at that point. An entry that holds the wrong variant is an exception, which ends the
call. -/
def UpdateDefined : (max : Nat) → HeaderBlock → Prop
  | _, [] => True
  | max, ⟨.incrementalIndexing, .header h⟩ :: es => entrySize h ≤ max ∧ UpdateDefined max es
  | _, ⟨.incrementalIndexing, .maxSize _⟩ :: _ => True
  | _, ⟨.sizeUpdate, .maxSize n⟩ :: es => UpdateDefined n es
  | _, ⟨.sizeUpdate, .header _⟩ :: _ => True
  | max, _ :: es => UpdateDefined max es

/-- Receiving a frame of this type, with these flags and this payload. Only SETTINGS and the frames
with a header block can go wrong. -/
def FrameDefined [Platform] (table : DynamicTable) (type flags : UInt8) (payload : Bytes) : Prop :=
  (type = 4 → payload.length % 6 = 0) ∧
  (type = 1 → ∃ block es, CarriesBlock flags type payload block ∧ ReadsAs table.entries block es ∧
    UpdateDefined table.maxTableSize es) ∧
  (type = 5 ∨ type = 9 → ∃ block, CarriesBlock flags type payload block ∧
    ((∃ es, ReadsAs table.entries block es ∧ UpdateDefined table.maxTableSize es) ∨
      ∃ e, Rejects table.entries block e))

/-- Receiving a frame of this type, with these flags and this payload, ends with this exception. -/
def FrameThrows [Platform] (table : DynamicTable) (type flags : UInt8) (payload : Bytes) (e : Exc) :
    Prop :=
  (e = .invalidArgument ∧ WrongLength type payload) ∨ (e = .outOfRange ∧ 9 < type.toNat) ∨
  ((type = 5 ∨ type = 9) ∧ ∃ block, CarriesBlock flags type payload block ∧
    Rejects table.entries block e)

/-- The call has defined behaviour. -/
def OpDefined [Platform] (c : Client) : Op → Prop
  | .sendPreface | .sendRaw _ | .receiveRaw _ | .updateRequestSize _ => True
  | .sendFrame f => ∀ g, f = .goaway g → g.payload.reserved.toNat ≤ 1
  | .receiveFrame =>
      -- the transport delivered less than the frame
      (∃ part, part.length < frameLength c.conn.incoming ∧
        c.conn.incoming = part ++ c.receiveFrame.2.conn.incoming) ∨
      ∃ type flags, c.conn.incoming[3]? = some type ∧ c.conn.incoming[4]? = some flags ∧
        FrameDefined c.responseTable type flags (payloadAt c.conn.incoming)
  | .updateRequestBlock block => UpdateDefined c.requestTable.maxTableSize block

/-- Every call of the session is defined in the state it is made in. -/
def SessionDefined [Platform] : Client → List Op → Prop
  | _, [] => True
  | c, op :: ops => OpDefined c op ∧ SessionDefined (op.run c).2 ops

end Mh2c
