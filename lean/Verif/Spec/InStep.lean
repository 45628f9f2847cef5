/-
Vocabulary for C33: histories of header blocks that the peer reads as they were meant.
-/
import Verif.Spec.Requests
import Verif.Spec.Indexing
import Verif.Spec.Update

namespace Mh2c

open Rfc

/-- Header blocks, size updates among their entries or not, each encoded in the client's request table,
read by the peer as the headers the client was given, and reported through
`update_request_dynamic_table`. None asks to index a header that is in a table already. How the peer
comes to read them, in particular whether references follow insertions, is left open. -/
inductive ReadAsMeant : DynamicTable → Table → DynamicTable → Table → Prop
  | nil (table : DynamicTable) (peer : Table) : ReadAsMeant table peer table peer
  | block (table table1 table' : DynamicTable) (peer peer1 peer' : Table) (mode : EncodeMode)
      (block : HeaderBlock) (octets : Bytes) (items : List Item)
      (hclear : SentBlock.Clear ⟨table, mode, block, octets⟩)
      (hsmall : ∀ e ∈ block, EntrySmall e)
      (henc : encodeHeaderBlock block mode table = .ok octets)
      (hd : BlockDecodes peer octets items peer1) (hf : fields items = headersOf block)
      (hup : updateDynamicTable block table = (.ok (), table1))
      (hnew : ∀ h ∈ block.toIndex, ¬ InTables h table)
      (hr : ReadAsMeant table1 peer1 table' peer') : ReadAsMeant table peer table' peer'

end Mh2c
