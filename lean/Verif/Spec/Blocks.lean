/-
Vocabulary for C32, C33 and C93: header blocks that both ends read alike, and histories of them.
-/
import Mathlib.Data.List.Forall2
import Verif.Spec.Wire
import Verif.Model.Client

namespace Mh2c

open Rfc

/-- The field of an index where the peer's current table `t` and the client's table `t0` at the
start of the block agree, index 20 excepted. -/
def agreed (t0 t : Table) (i : Nat) : Option Field :=
  if i ≠ 20 ∧ t0.get? i = t.get? i then t.get? i else none

/-- The same for the name of a literal, which must not be empty. -/
def agreedName (t0 t : Table) (i : Nat) : Option Field :=
  match agreed t0 t i with
  | some f => if f.1 = [] then none else some f
  | none => none

/-- Blocks of a restrained peer: conforming, with integers in their shortest form and below 2^31,
and with references that mean the same in the table at the start of the block. -/
inductive PlainBlock (t0 : Table) : Table → Bytes → List Item → Table → Prop
  | nil (t : Table) : PlainBlock t0 t [] [] t
  | cons (t t' : Table) (bs rest : Bytes) (item : Item) (items : List Item)
      (hi : ItemAt intDecodeMinimal (agreed t0 t) (agreedName t0 t) bs item rest)
      (hr : PlainBlock t0 (item.apply t) rest items t') :
      PlainBlock t0 t bs (item :: items) t'

/-- Blocks after which the client's request table stays that of the peer: typed entries; INDEXED
only for headers in a table; INCREMENTAL_INDEXING only for headers in no table, that fit; dynamic
references before changes; not the mistyped name. -/
structure GoodBlock (table : DynamicTable) (block : HeaderBlock) : Prop where
  typed : ∀ e ∈ block, WellTyped e
  indexed : ∀ e ∈ block, e.pfx = .indexed → ∀ h, e.entry = .header h → InTables h table
  incremental : ∀ e ∈ block, e.pfx = .incrementalIndexing → ∀ h, e.entry = .header h →
    ¬ InTables h table
  name : ∀ e ∈ block, ∀ h, e.entry = .header h → ¬ InTables h table →
    h.1 ≠ bstr "accept-control-allow-origin"
  order : block.Pairwise fun a b => ChangesTable table a → ¬ HitsDynamic table b
  fits : ∀ items, List.Forall₂ (SentAs table) block items → Fits table.maxTableSize items

/-- Histories: starting with the tables of a fresh connection, the client encodes a block against its
request table, the peer decodes what was sent, the client reports the block through
`update_request_dynamic_table`. -/
inductive Session : (table : DynamicTable) → (peer : Table) → Prop
  | start : Session .default ⟨[], 4096⟩
  | send (table table' : DynamicTable) (peer peer' : Table) (block : HeaderBlock)
      (mode : EncodeMode) (bytes : Bytes) (items : List Item) (prev : Session table peer)
      (good : GoodBlock table block)
      (hsent : encodeHeaderBlock block mode table = .ok bytes)
      (hpeer : BlockDecodes peer bytes items peer')
      (hupd : updateDynamicTable block table = (.ok (), table')) : Session table' peer'

/-- As `Session` (C33), where the client may also call `update_request_dynamic_table(n)` with a size
within the peer's. The peer is not told. -/
inductive ResizedSession : (table : DynamicTable) → (peer : Table) → Prop
  | start : ResizedSession .default ⟨[], 4096⟩
  | send (table table' : DynamicTable) (peer peer' : Table) (block : HeaderBlock)
      (mode : EncodeMode) (bytes : Bytes) (items : List Item) (prev : ResizedSession table peer)
      (good : GoodBlock table block)
      (hsent : encodeHeaderBlock block mode table = .ok bytes)
      (hpeer : BlockDecodes peer bytes items peer')
      (hupd : updateDynamicTable block table = (.ok (), table')) : ResizedSession table' peer'
  | resize (table table' : DynamicTable) (peer : Table) (n : Nat) (prev : ResizedSession table peer)
      (hn : n ≤ peer.max) (hupd : table.updateTableSize n = .ok table') : ResizedSession table' peer

end Mh2c
