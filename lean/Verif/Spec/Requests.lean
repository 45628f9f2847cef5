/-
Vocabulary for C91: header blocks sent one after the other, whatever the tables do.
-/
import Mathlib.Data.List.Forall2
import Verif.Spec.Wire
import Verif.Model.Client

namespace Mh2c

open Rfc

/-- A header block that was sent: the client's request table at that time, how it was encoded, the
block, its octets. -/
structure SentBlock where
  table : DynamicTable
  mode : EncodeMode
  block : HeaderBlock
  octets : Bytes

/-- The block has the representations `items`, and no literal has the mistyped name (C31). -/
def SentBlock.Represented (b : SentBlock) (items : List Item) : Prop :=
  List.Forall₂ (SentAs b.table) b.block items ∧
    ∀ e ∈ b.block, ∀ h, e.entry = .header h → ¬ InTables h b.table →
      h.1 ≠ bstr "accept-control-allow-origin"

/-- Not asked of any entry: INDEXED, without Huffman coding, for a header with an empty value that is
in no table. (See `C31_exact_partial`.) -/
def SentBlock.Clear (b : SentBlock) : Prop :=
  ∀ h, ⟨.indexed, .header h⟩ ∈ b.block → ¬ InTables h b.table → h.2 ≠ [] ∨ b.mode = .huffman

/-- Header blocks sent and reported through `update_request_dynamic_table`, with changes of the table
size in between. Nothing is asked of the peer's table or of references. -/
inductive Reports : DynamicTable → List SentBlock → DynamicTable → Prop
  | nil (table : DynamicTable) : Reports table [] table
  | block (table table1 table' : DynamicTable) (mode : EncodeMode) (block : HeaderBlock)
      (octets : Bytes) (sent : List SentBlock)
      (henc : encodeHeaderBlock block mode table = .ok octets)
      (hup : updateDynamicTable block table = (.ok (), table1))
      (hr : Reports table1 sent table') :
      Reports table (⟨table, mode, block, octets⟩ :: sent) table'
  | resize (table table1 table' : DynamicTable) (n : Nat) (sent : List SentBlock)
      (hup : table.updateTableSize n = .ok table1) (hr : Reports table1 sent table') :
      Reports table sent table'

/-- A conforming decoder with table `t` reads the blocks one after the other, each as the headers the
client was given. -/
inductive PeerReads : (t : Table) → List SentBlock → (t' : Table) → Prop
  | nil (t : Table) : PeerReads t [] t
  | cons (t t1 t' : Table) (b : SentBlock) (items : List Item) (sent : List SentBlock)
      (hd : BlockDecodes t b.octets items t1) (hf : fields items = headersOf b.block)
      (hr : PeerReads t1 sent t') : PeerReads t (b :: sent) t'

end Mh2c
