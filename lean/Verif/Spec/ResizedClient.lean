/-
Vocabulary for C93: a client whose request table is resized between requests.
-/
import Verif.Spec.Blocks
import Verif.Spec.Session

namespace Mh2c

open Rfc

/-- The calls that are not `update_request_dynamic_table`. -/
def Op.KeepsRequestTable : Op → Prop
  | .updateRequestBlock _ | .updateRequestSize _ => False
  | _ => True

/-- A client after any history of calls, and the table of its peer: header blocks are encoded against
the client's request table, decoded by the peer and reported; the size of the request table is
changed in between to anything within the peer's size, which the peer is not told; and anything else
is called, with any outcome. -/
inductive ResizedClient [Platform] : (c : Client) → (peer : Table) → Prop
  | start (conn : Conn) : ResizedClient (.new conn) ⟨[], 4096⟩
  | report (c c' : Client) (peer peer' : Table) (block : HeaderBlock) (mode : EncodeMode)
      (bytes : Bytes) (items : List Item) (prev : ResizedClient c peer)
      (good : GoodBlock c.requestTable block)
      (hsent : encodeHeaderBlock block mode c.requestTable = .ok bytes)
      (hpeer : BlockDecodes peer bytes items peer')
      (hupd : c.updateRequestDynamicTable block = (.ok (), c')) : ResizedClient c' peer'
  | resize (c c' : Client) (peer : Table) (n : Nat) (prev : ResizedClient c peer)
      (hn : n ≤ peer.max) (hupd : c.updateRequestTableSize n = (.ok (), c')) : ResizedClient c' peer
  | other (c : Client) (peer : Table) (op : Op) (hop : op.KeepsRequestTable)
      (prev : ResizedClient c peer) : ResizedClient (op.run c).2 peer

end Mh2c
