/-
C31-C34: the client and RFC 7541 peers.
-/
import Verif.Spec.Blocks
import Verif.Proofs.HeaderRfc

namespace Mh2c

open Rfc

/-! ## C31 -/

/-- C31, the part that holds. Missing (false, see below): blocks in which a dynamic reference
follows an insertion or an evicting size update, INDEXED asked for a header that is in no table, and
literals with the mistyped static name.

For every other block of typed entries, a conforming decoder that holds the same table decodes
exactly the given headers, in order, each in the representation asked for (or as an index if it is
in a table), and there is no other way to decode it. -/
theorem C31_peer_decodes_partial (table : DynamicTable) (mode : EncodeMode) (block : HeaderBlock)
    (htyped : ∀ e ∈ block, WellTyped e)
    (hidx : ∀ e ∈ block, e.pfx = .indexed → ∀ h, e.entry = .header h → InTables h table)
    (hname : ∀ e ∈ block, ∀ h, e.entry = .header h → ¬ InTables h table →
      h.1 ≠ bstr "accept-control-allow-origin")
    (hpair : block.Pairwise fun a b => ChangesTable table a → ¬ HitsDynamic table b) :
    ∃ bytes items t', encodeHeaderBlock block mode table = .ok bytes ∧
      BlockDecodes ⟨table.entries, table.maxTableSize⟩ bytes items t' ∧
      List.Forall₂ (SentAs table) block items ∧
      fields items = headersOf block ∧
      ∀ items2 t2, BlockDecodes ⟨table.entries, table.maxTableSize⟩ bytes items2 t2 →
        items2 = items ∧ t2 = t' := by
  have hs : ∃ items, List.Forall₂ (SentAs table) block items := by
    clear hpair hname
    induction block with
    | nil => exact ⟨[], .nil⟩
    | cons e es ih =>
        obtain ⟨is, his⟩ := ih (fun e' he' => htyped e' (List.mem_cons_of_mem _ he'))
          (fun e' he' => hidx e' (List.mem_cons_of_mem _ he'))
        have : ∃ item, SentAs table e item := by
          obtain ⟨p, x⟩ := e
          rcases htyped _ List.mem_cons_self with ⟨h1, n, h2⟩ | ⟨h1, h, h2⟩
          · simp only at h1 h2
            subst h1 h2
            exact ⟨_, .size n⟩
          · simp only at h1 h2
            subst h2
            by_cases hh : InTables h table
            · exact ⟨_, .hit p h h1 hh⟩
            · cases p with
              | indexed => exact absurd (hidx _ List.mem_cons_self rfl h rfl) hh
              | sizeUpdate => exact absurd rfl h1
              | incrementalIndexing => exact ⟨_, .incremental h hh⟩
              | withoutIndexing => exact ⟨_, .withoutIndexing h hh⟩
              | neverIndexed => exact ⟨_, .neverIndexed h hh⟩
        obtain ⟨item, hitem⟩ := this
        exact ⟨item :: is, .cons hitem his⟩
  obtain ⟨items, hs⟩ := hs
  obtain ⟨bytes, h1, h2⟩ := block_rfc (mode := mode) hs hname hpair
    ⟨table.entries, table.maxTableSize⟩ (Or.inl (List.prefix_refl _))
  exact ⟨bytes, items, _, h1, h2, hs, fields_of_sentAs hs, fun _ _ h => BlockDecodes.unique h h2⟩

/-- A table with one entry, and a block that meets the hypotheses of the theorem: the dynamic
reference comes before the insertion. -/
def oneTable : DynamicTable := ⟨[(bstr "a", bstr "1")], 34, 4096⟩
def goodBlock : HeaderBlock :=
  [⟨.indexed, .header (bstr "a", bstr "1")⟩, ⟨.incrementalIndexing, .header (bstr "b", bstr "2")⟩]

example : (∀ e ∈ goodBlock, WellTyped e) ∧
    (∀ e ∈ goodBlock, e.pfx = .indexed → ∀ h, e.entry = .header h → InTables h oneTable) ∧
    (∀ e ∈ goodBlock, ∀ h, e.entry = .header h → ¬ InTables h oneTable →
      h.1 ≠ bstr "accept-control-allow-origin") ∧
    (goodBlock.Pairwise fun a b => ChangesTable oneTable a → ¬ HitsDynamic oneTable b) := by
  refine ⟨?_, ?_, ?_, ?_⟩
  · intro e he
    simp only [goodBlock, List.mem_cons, List.not_mem_nil, or_false] at he
    rcases he with rfl | rfl <;> exact Or.inr ⟨by decide, _, rfl⟩
  · intro e he hp h hh
    simp only [goodBlock, List.mem_cons, List.not_mem_nil, or_false] at he
    rcases he with rfl | rfl
    · injection hh with hh; subst hh; exact Or.inr (by decide)
    · cases hp
  · intro e he h hh _
    simp only [goodBlock, List.mem_cons, List.not_mem_nil, or_false] at he
    rcases he with rfl | rfl <;> (injection hh with hh; subst hh; decide)
  · simp only [goodBlock, List.pairwise_cons, List.mem_cons, List.not_mem_nil, or_false,
      forall_eq, false_imp_iff, implies_true, List.Pairwise.nil, and_true]
    rintro _ ⟨h, hh, hm, -⟩
    injection hh with hh
    subst hh
    revert hm
    decide

/-- C31 is false of the code when a dynamic reference follows an insertion in the same block: the
index is computed in the old table. The peer decodes `b: 2` twice instead of `b: 2`, `a: 1`. -/
theorem C31_reference_after_insertion_violated :
    ∃ (table : DynamicTable) (block : HeaderBlock) (bytes : Bytes) (items : List Item) (t' : Table),
      headersOf block = [(bstr "b", bstr "2"), (bstr "a", bstr "1")] ∧
      encodeHeaderBlock block .none table = .ok bytes ∧
      BlockDecodes ⟨table.entries, table.maxTableSize⟩ bytes items t' ∧
      fields items = [(bstr "b", bstr "2"), (bstr "b", bstr "2")] := by
  refine ⟨oneTable, goodBlock.reverse, [0x40, 1, 98, 1, 50, 0xbe],
    [.incremental (bstr "b", bstr "2"), .indexed (bstr "b", bstr "2")],
    ⟨[(bstr "b", bstr "2"), (bstr "a", bstr "1")], 4096⟩, by decide,
    by decide +kernel, ?_, rfl⟩
  refine .cons _ _ _ [0xbe] _ _ (.incremental _ _ _ _ (by decide) ?_) ?_
  · exact .newName _ [1, 98, 1, 50, 0xbe] [1, 50, 0xbe] [0xbe] _ _ (by decide)
      (.plain 1 _ [98] _ (by decide) (by decide)) (.plain 1 _ [50] _ (by decide) (by decide))
  · exact .cons _ _ _ [] _ _ (.indexed 0xbe _ _ 62 _ (by decide) (by decide) (by decide)) (.nil _)

/-- C31 is false of the code when INDEXED is asked for a header that is in no table: what is sent
has no decoding. -/
theorem C31_indexed_without_entry_violated :
    ∃ (block : HeaderBlock) (bytes : Bytes),
      (∀ e ∈ block, WellTyped e) ∧
      encodeHeaderBlock block .none .default = .ok bytes ∧
      ∀ t : Table, ¬ ∃ items t', BlockDecodes t bytes items t' := by
  refine ⟨[⟨.indexed, .header (bstr "b", bstr "2")⟩], [0x80, 1, 98, 1, 50], ?_, by decide +kernel, ?_⟩
  · intro e he
    rw [List.mem_singleton] at he
    subst he
    exact Or.inr ⟨by decide, _, rfl⟩
  · rintro t ⟨items, t', h⟩
    cases h with
    | cons _ _ _ rest item is hi hr =>
        cases hi with
        | indexed _ _ _ i f hb hi hf =>
            have h0 : intDecode 7 [0x80, 1, 98, 1, 50] = some (0, [1, 98, 1, 50]) := by decide
            rw [h0] at hi
            injection hi with hi
            injection hi with hi _
            rw [← hi, get?_zero] at hf
            cases hf
        | incremental _ _ _ f hb hl => exact absurd hb (by decide)
        | sizeUpdate _ _ _ n hb hi => exact absurd hb (by decide)
        | neverIndexed _ _ _ f hb hl => exact absurd hb (by decide)
        | withoutIndexing _ _ _ f hb hl => exact absurd hb (by decide)

/-- C31 is false of the code for the mistyped static entry: a header sent under the name
`accept-control-allow-origin` arrives as `access-control-allow-origin`. -/
theorem C31_mistyped_name_violated (t : Table) :
    ∃ (block : HeaderBlock) (bytes : Bytes) (items : List Item),
      headersOf block = [(bstr "accept-control-allow-origin", bstr "*")] ∧
      encodeHeaderBlock block .none .default = .ok bytes ∧
      BlockDecodes t bytes items t ∧
      fields items = [(ascii "access-control-allow-origin", bstr "*")] := by
  refine ⟨[⟨.withoutIndexing, .header (bstr "accept-control-allow-origin", bstr "*")⟩],
    [0x0f, 5, 1, 42],
    [.withoutIndexing (ascii "access-control-allow-origin", bstr "*")], by decide,
    by decide +kernel, ?_, rfl⟩
  refine .cons _ _ _ [] _ _ (.withoutIndexing _ _ _ _ (by decide) ?_) (.nil _)
  have hget : t.get? 20 = some (ascii "access-control-allow-origin", []) := by
    unfold Table.get?
    rw [if_neg (by decide), if_pos (by decide)]
    decide +kernel
  exact .indexedName _ [1, 42] [] 20 _ _ (by decide) hget (.plain 1 _ [42] _ (by decide) (by decide))

/-! ## C32 -/

theorem agreed_some {t0 t : Table} {i : Nat} {f : Field} (h : agreed t0 t i = some f) :
    i ≠ 20 ∧ t0.get? i = some f ∧ t.get? i = some f := by
  unfold agreed at h
  split at h
  · rename_i hc; exact ⟨hc.1, by rw [hc.2]; exact h, h⟩
  · cases h

theorem agreedName_some {t0 t : Table} {i : Nat} {f : Field} (h : agreedName t0 t i = some f) :
    agreed t0 t i = some f ∧ f.1 ≠ [] := by
  unfold agreedName at h
  cases ha : agreed t0 t i with
  | none => rw [ha] at h; cases h
  | some g =>
      rw [ha] at h
      simp only at h
      split at h
      · cases h
      · obtain rfl := Option.some.inj h
        exact ⟨rfl, by assumption⟩

/-- Restrained peers are conforming peers. -/
theorem PlainBlock.conforming {t0 t t' : Table} {bs : Bytes} {items : List Item}
    (h : PlainBlock t0 t bs items t') : BlockDecodes t bs items t' := by
  induction h with
  | nil t => exact .nil t
  | cons t t' bs rest item items hi _ ih =>
      refine .cons t t' bs rest item items ?_ ih
      exact ItemAt.mono (fun n _ bs r h => intDecodeMinimal_sub h) (fun i f h => (agreed_some h).2.2)
        (fun i f h => (agreed_some (agreedName_some h).1).2.2) hi

theorem rfc_get?_client {table : DynamicTable} {max i : Nat} {f : Field} (h20 : i ≠ 20)
    (h : Table.get? ⟨table.entries, max⟩ i = some f) :
    0 < i ∧ makeIndexedHeader i table = .ok f := by
  unfold Table.get? at h
  split at h
  · cases h
  · rename_i h0
    refine ⟨by omega, ?_⟩
    split at h
    · rename_i h61
      rw [← staticTable_eq_rfc (by omega) h61 h20] at h
      exact makeIndexedHeader_static h
    · exact makeIndexedHeader_dynamic (by omega) h

/-- C32, the part that holds. Missing (false, see below): integers not in their shortest form,
references to entries inserted or moved within the block, static index 20, indexed empty names; and
integers of 2^31 and more.

Every block of a restrained peer is decoded by the client to exactly the header list that RFC 7541
assigns to it, with the representations. (`ItemTolerant` only matters on platforms where an empty
string cannot be formed.) -/
theorem C32_client_decodes_partial [Platform] (table : DynamicTable) (max : Nat) (bs : Bytes)
    (items : List Item) (t' : Table)
    (h : PlainBlock ⟨table.entries, max⟩ ⟨table.entries, max⟩ bs items t')
    (ht : ∀ item ∈ items, ItemTolerant item) :
    BlockDecodes ⟨table.entries, max⟩ bs items t' ∧
    decodeHeaderBlock bs table = .ok (items.map entryOf) ∧
    headersOf (items.map entryOf) = fields items := by
  refine ⟨h.conforming, ?_, ?_⟩
  · suffices key : ∀ t, PlainBlock ⟨table.entries, max⟩ t bs items t' →
        decodeHeaderBlock bs table = .ok (items.map entryOf) from key _ h
    clear h
    intro t h
    induction h with
    | nil t => exact decodeHeaderBlock_nil table
    | cons t t' bs rest item items hi _ ih =>
        have hi' : ItemAt clientInt (codeGet table) (codeGetName table) bs item rest := by
          refine ItemAt.mono (fun n hn bs r h => clientInt_of_minimal hn h)
            (fun i f h => ?_) (fun i f h => ?_) hi
          · obtain ⟨h20, h0, -⟩ := agreed_some h
            exact codeGet_some.2 (rfc_get?_client h20 h0)
          · obtain ⟨ha, hne⟩ := agreedName_some h
            obtain ⟨h20, h0, -⟩ := agreed_some ha
            obtain ⟨g1, g2⟩ := rfc_get?_client h20 h0
            exact codeGetName_some.2 ⟨g1, g2, hne⟩
        obtain ⟨g1, g2, g3⟩ := decodeHeader_item hi' (ht item List.mem_cons_self)
        refine decodeHeaderBlock_step g1 (by omega) (by omega) ?_
        rw [← g3]
        exact ih (fun i hi => ht i (List.mem_cons_of_mem _ hi))
  · clear h ht
    induction items with
    | nil => rfl
    | cons item items ih =>
        unfold headersOf fields at ih ⊢
        cases item with
        | sizeUpdate n =>
            rw [List.map_cons, List.filterMap_cons_none (by rfl), List.filterMap_cons_none (by rfl), ih]
        | indexed f =>
            rw [List.map_cons, List.filterMap_cons_some (by rfl), List.filterMap_cons_some (by rfl), ih]
        | incremental f =>
            rw [List.map_cons, List.filterMap_cons_some (by rfl), List.filterMap_cons_some (by rfl), ih]
        | withoutIndexing f =>
            rw [List.map_cons, List.filterMap_cons_some (by rfl), List.filterMap_cons_some (by rfl), ih]
        | neverIndexed f =>
            rw [List.map_cons, List.filterMap_cons_some (by rfl), List.filterMap_cons_some (by rfl), ih]

/-- A restrained block: a dynamic reference, an insertion, a static reference. -/
example : PlainBlock ⟨oneTable.entries, 4096⟩ ⟨oneTable.entries, 4096⟩
    [0xbe, 0x40, 1, 98, 1, 50, 0x82]
    [.indexed (bstr "a", bstr "1"), .incremental (bstr "b", bstr "2"),
      .indexed (bstr ":method", bstr "GET")]
    ⟨[(bstr "b", bstr "2"), (bstr "a", bstr "1")], 4096⟩ := by
  refine .cons _ _ _ [0x40, 1, 98, 1, 50, 0x82] _ _
    (.indexed _ _ _ 62 _ (by decide) (by decide) (by decide)) ?_
  refine .cons _ _ _ [0x82] _ _ (.incremental _ _ _ _ (by decide) ?_) ?_
  · exact .newName _ [1, 98, 1, 50, 0x82] [1, 50, 0x82] [0x82] _ _ (by decide)
      (.plain 1 _ [98] _ (by decide) (by decide)) (.plain 1 _ [50] _ (by decide) (by decide))
  · exact .cons _ _ _ [] _ _ (.indexed _ _ _ 2 _ (by decide) (by decide) (by decide +kernel)) (.nil _)

/-- C32 is false of the code for an integer that is not in its shortest form: the client miscounts
its octets. -/
theorem C32_long_integer_violated [P : Platform] (t : Table) :
    ∃ (bs : Bytes) (items : List Item) (t' : Table), BlockDecodes t bs items t' ∧
      fields items = [(bstr ":method", bstr "GET")] ∧
      decodeHeaderBlock bs .default = .ub .outOfBounds := by
  refine ⟨[0x3f, 0x80, 0x00, 0x82], [.sizeUpdate 31, .indexed (bstr ":method", bstr "GET")],
    t.setMax 31, ?_, rfl, ?_⟩
  · refine .cons _ _ _ [0x82] _ _ (.sizeUpdate _ _ _ _ (by decide) (by decide)) ?_
    refine .cons _ _ _ [] _ _ (.indexed _ _ _ 2 _ (by decide) (by decide) ?_) (.nil _)
    unfold Table.get?
    rw [if_neg (by decide), if_pos (by decide)]
    decide +kernel
  · have h1 : decodeHeader [0x3f, 0x80, 0x00, 0x82] .default =
        .ok (⟨.sizeUpdate, .maxSize 31⟩, 2) := by
      rcases P with ⟨_ | _, _ | _⟩ <;> decide +kernel
    have h2 : decodeHeader [0x00, 0x82] .default = .ub .outOfBounds := by
      rcases P with ⟨_ | _, _ | _⟩ <;> decide +kernel
    rw [decodeHeaderBlock_eq (by decide), h1]
    simp only [Res.ok_bind, List.drop_succ_cons, List.drop_zero]
    rw [decodeHeaderBlock_eq (by decide), h2]
    rfl

/-- C32 is false of the code for a reference to an entry inserted earlier in the same block: the
client looks it up in the old table and delivers another header. -/
theorem C32_reference_after_insertion_violated [P : Platform] :
    ∃ (table : DynamicTable) (bs : Bytes) (items : List Item) (t' : Table) (es : HeaderBlock),
      BlockDecodes ⟨table.entries, table.maxTableSize⟩ bs items t' ∧
      fields items = [(bstr "b", bstr "2"), (bstr "b", bstr "2")] ∧
      decodeHeaderBlock bs table = .ok es ∧
      headersOf es = [(bstr "b", bstr "2"), (bstr "a", bstr "1")] := by
  refine ⟨oneTable, [0x40, 1, 98, 1, 50, 0xbe],
    [.incremental (bstr "b", bstr "2"), .indexed (bstr "b", bstr "2")],
    ⟨[(bstr "b", bstr "2"), (bstr "a", bstr "1")], 4096⟩, goodBlock.reverse,
    ?_, rfl, ?_, by decide⟩
  · refine .cons _ _ _ [0xbe] _ _ (.incremental _ _ _ _ (by decide) ?_) ?_
    · exact .newName _ [1, 98, 1, 50, 0xbe] [1, 50, 0xbe] [0xbe] _ _ (by decide)
        (.plain 1 _ [98] _ (by decide) (by decide)) (.plain 1 _ [50] _ (by decide) (by decide))
    · exact .cons _ _ _ [] _ _ (.indexed 0xbe _ _ 62 _ (by decide) (by decide) (by decide)) (.nil _)
  · have h1 : decodeHeader [0x40, 1, 98, 1, 50, 0xbe] oneTable =
        .ok (⟨.incrementalIndexing, .header (bstr "b", bstr "2")⟩, 5) := by
      rcases P with ⟨_ | _, _ | _⟩ <;> decide +kernel
    have h2 : decodeHeader [0xbe] oneTable =
        .ok (⟨.indexed, .header (bstr "a", bstr "1")⟩, 1) := by
      rcases P with ⟨_ | _, _ | _⟩ <;> decide +kernel
    rw [decodeHeaderBlock_eq (by decide), h1]
    simp only [Res.ok_bind, List.drop_succ_cons, List.drop_zero]
    rw [decodeHeaderBlock_eq (by decide), h2]
    simp only [Res.ok_bind, List.drop_succ_cons, List.drop_zero, decodeHeaderBlock_nil]
    rfl

/-- C32 is false of the code for static index 20. -/
theorem C32_static_20_violated [P : Platform] (t : Table) (table : DynamicTable) :
    BlockDecodes t [0x94] [.indexed (ascii "access-control-allow-origin", [])] t ∧
    decodeHeaderBlock [0x94] table =
      .ok [⟨.indexed, .header (bstr "accept-control-allow-origin", [])⟩] := by
  constructor
  · refine .cons _ _ _ [] _ _ (.indexed _ _ _ 20 _ (by decide) (by decide) ?_) (.nil _)
    unfold Table.get?
    rw [if_neg (by decide), if_pos (by decide)]
    decide +kernel
  · have hs : staticTableEntries.lookup 20 = some (bstr "accept-control-allow-origin", []) := by
      decide +kernel
    have h1 : decodeHeader [0x94] table =
        .ok (⟨.indexed, .header (bstr "accept-control-allow-origin", [])⟩, 1) := by
      unfold decodeHeader
      simp only [front, Res.ok_bind, checkPrefix_eq]
      rw [if_neg (by decide)]
      have : decodeIndex [0x94] (prefixClass (UInt8.toNat 0x94)) = .ok (20, 1) := by decide +kernel
      rw [this]
      simp only [Res.ok_bind]
      rw [if_pos (by decide), makeIndexedHeader_static hs]
      rfl
    rw [decodeHeaderBlock_eq (by decide), h1]
    simp only [Res.ok_bind, List.drop_succ_cons, List.drop_zero, decodeHeaderBlock_nil]
    rfl

/-- C32 is false of the code for a literal that takes an empty name from the table: the client
takes the value for the name and reads on. -/
theorem C32_empty_name_violated [P : Platform] :
    ∃ (table : DynamicTable) (bs : Bytes) (items : List Item) (t' : Table),
      BlockDecodes ⟨table.entries, table.maxTableSize⟩ bs items t' ∧
      fields items = [([], bstr "x")] ∧
      decodeHeaderBlock bs table = .ub .outOfBounds := by
  refine ⟨⟨[([], bstr "1")], 33, 4096⟩, [0x7e, 1, 120], [.incremental ([], bstr "x")],
    ⟨[([], bstr "x"), ([], bstr "1")], 4096⟩, ?_, rfl, ?_⟩
  · refine .cons _ _ _ [] _ _ (.incremental _ _ _ _ (by decide) ?_) (.nil _)
    exact .indexedName _ [1, 120] [] 62 ([], bstr "1") _ (by decide) (by decide)
      (.plain 1 _ [120] _ (by decide) (by decide))
  · have h1 : decodeHeader [0x7e, 1, 120] ⟨[([], bstr "1")], 33, 4096⟩ = .ub .outOfBounds := by
      rcases P with ⟨_ | _, _ | _⟩ <;> decide +kernel
    rw [decodeHeaderBlock_eq (by decide), h1]
    rfl

/-! ## C33 -/

/-- One round. -/
theorem round {table : DynamicTable} (ht : table.Inv) {block : HeaderBlock}
    (good : GoodBlock table block) (mode : EncodeMode) :
    ∃ bytes items peer' table', encodeHeaderBlock block mode table = .ok bytes ∧
      BlockDecodes table.toRfc bytes items peer' ∧
      updateDynamicTable block table = (.ok (), table') ∧ table'.Inv ∧ table'.toRfc = peer' ∧
      fields items = headersOf block := by
  obtain ⟨bytes, items, t', h1, h2, h3, h4, h5⟩ := C31_peer_decodes_partial table mode block
    good.typed good.indexed good.name good.order
  obtain ⟨bytes', g1, g2⟩ := block_rfc (mode := mode) h3 good.name good.order table.toRfc (Or.inl (List.prefix_refl _))
  rw [h1] at g1
  obtain rfl := Res.ok.inj g1
  obtain ⟨table', u1, u2, u3⟩ := update_refines ht (good.fits items h3)
  refine ⟨bytes, items, _, table', h1, g2, ?_, u2, u3, h4⟩
  rw [update_sentAs h3 good.incremental]
  exact u1

theorem Session.inv {table : DynamicTable} {peer : Table} (h : Session table peer) :
    table.Inv ∧ table.toRfc = peer := by
  induction h with
  | start => exact ⟨DynamicTable.inv_default, rfl⟩
  | send table table' peer peer' block mode bytes items prev good hsent hpeer hupd ih =>
      obtain ⟨ht, rfl⟩ := ih
      obtain ⟨bytes', items', p', t', h1, h2, h3, h4, h5, -⟩ := round ht good mode
      rw [hsent] at h1
      obtain rfl := Res.ok.inj h1
      rw [hupd] at h3
      injection h3 with _ h3
      subst h3
      exact ⟨h4, by rw [h5]; exact (BlockDecodes.unique hpeer h2).2.symm⟩

/-- C33, the part that holds: after every history of good blocks the client's request table and the
peer's table have the same entries and the same maximum. Missing: blocks with an INCREMENTAL_INDEXING
entry that is already in a table (false, see below), and the exceptions of C20 and C31. -/
theorem C33_tables_in_sync_partial (table : DynamicTable) (peer : Table)
    (h : Session table peer) :
    table.entries = peer.entries ∧ table.maxTableSize = peer.max := by
  obtain ⟨-, rfl⟩ := h.inv
  exact ⟨rfl, rfl⟩

/-- C33. Every good block can be sent next: it is encoded, the peer decodes exactly its headers and
the client's update succeeds. Missing: other blocks, as in `C33_tables_in_sync_partial`. -/
theorem C33_session_continues_partial (table : DynamicTable) (peer : Table)
    (h : Session table peer) (block : HeaderBlock) (mode : EncodeMode)
    (good : GoodBlock table block) :
    ∃ bytes items peer' table', encodeHeaderBlock block mode table = .ok bytes ∧
      BlockDecodes peer bytes items peer' ∧ fields items = headersOf block ∧
      updateDynamicTable block table = (.ok (), table') ∧ Session table' peer' := by
  obtain ⟨ht, rfl⟩ := h.inv
  obtain ⟨bytes, items, p', t', h1, h2, h3, h4, h5, h6⟩ := round ht good mode
  exact ⟨bytes, items, p', t', h1, h2, h6, h3, .send _ _ _ _ block mode bytes items h good h1 h2 h3⟩

/-- The first block of the repository's sample, with an insertion, is good. -/
theorem goodBlock_sample : GoodBlock .default
    [⟨.indexed, .header (bstr ":method", bstr "GET")⟩,
     ⟨.incrementalIndexing, .header (bstr "b", bstr "2")⟩] := by
  have hb : ¬ InTables (bstr "b", bstr "2") .default := hitIndex_none.1 (by decide +kernel)
  have hg : InTables (bstr ":method", bstr "GET") .default :=
    Or.inl ⟨by decide, 2, by decide +kernel⟩
  constructor
  · intro e he
    simp only [List.mem_cons, List.not_mem_nil, or_false] at he
    rcases he with rfl | rfl <;> exact Or.inr ⟨by decide, _, rfl⟩
  · intro e he hp h hh
    simp only [List.mem_cons, List.not_mem_nil, or_false] at he
    rcases he with rfl | rfl
    · injection hh with hh; subst hh; exact hg
    · cases hp
  · intro e he hp h hh
    simp only [List.mem_cons, List.not_mem_nil, or_false] at he
    rcases he with rfl | rfl
    · cases hp
    · injection hh with hh; subst hh; exact hb
  · intro e he h hh _
    simp only [List.mem_cons, List.not_mem_nil, or_false] at he
    rcases he with rfl | rfl <;> (injection hh with hh; subst hh; decide)
  · simp only [List.pairwise_cons, List.mem_cons, List.not_mem_nil, or_false,
      forall_eq, false_imp_iff, implies_true, List.Pairwise.nil, and_true]
    rintro _ ⟨h, hh, hm, -⟩
    exact absurd hm (by simp [DynamicTable.default, DynamicTable.new])
  · intro items hi
    cases hi with
    | cons h1 h2 =>
        cases h2 with
        | cons h3 h4 =>
            cases h4
            cases h1 with
            | hit _ _ _ _ =>
                cases h3 with
                | hit _ _ _ hh => exact absurd hh hb
                | incremental _ _ => exact ⟨by decide, trivial⟩

/-- C33 is false of the code: an INCREMENTAL_INDEXING entry that is in a table is sent as an index,
so the peer inserts nothing, but `update_request_dynamic_table` inserts it again. -/
theorem C33_incremental_hit_violated :
    ∃ (block : HeaderBlock) (bytes : Bytes) (items : List Item) (peer' : Table)
      (table' : DynamicTable),
      encodeHeaderBlock block .none .default = .ok bytes ∧
      BlockDecodes ⟨[], 4096⟩ bytes items peer' ∧ fields items = headersOf block ∧
      updateDynamicTable block .default = (.ok (), table') ∧ table'.entries ≠ peer'.entries := by
  refine ⟨[⟨.incrementalIndexing, .header (bstr ":method", bstr "GET")⟩], [0x82],
    [.indexed (bstr ":method", bstr "GET")], ⟨[], 4096⟩,
    ⟨[(bstr ":method", bstr "GET")], 42, 4096⟩, by decide +kernel, ?_, rfl, by decide +kernel,
    by decide⟩
  exact .cons _ _ _ [] _ _ (.indexed _ _ _ 2 _ (by decide) (by decide) (by decide +kernel)) (.nil _)

/-! ## C34 -/

/-- C34. A NEVER_INDEXED header that is in neither table is sent as a literal with the 0001 pattern;
a conforming peer with any table decodes a never-indexed literal with that value (and that name,
unless it is the mistyped one) and its table does not change; neither does the client's. -/
theorem C34_never_indexed (h : Header) (mode : EncodeMode) (table : DynamicTable)
    (hh : ¬ InTables h table) :
    ∃ bytes, encodeHeader ⟨.neverIndexed, .header h⟩ mode table = .ok bytes ∧
      (∃ b bs, bytes = b :: bs ∧ b.toNat / 2 ^ 4 = 1) ∧
      (∀ t : Table, ∃ f, f.2 = h.2 ∧ (h.1 ≠ bstr "accept-control-allow-origin" → f = h) ∧
        BlockDecodes t bytes [.neverIndexed f] t) ∧
      ∀ t : DynamicTable, updateDynamicTable [⟨.neverIndexed, .header h⟩] t = (.ok (), t) := by
  rw [encodeHeader_header (by decide), hitIndex_none.2 hh]
  obtain ⟨bytes, i, tail, g1, g2, g3, g4⟩ := encodeLiteral_at understands_rfc
    (getName := fun i => staticTableEntries.lookup i) (p := .neverIndexed) (by decide) (h := h)
    (mode := mode) (fun _ _ => trivial) trivial trivial (fun _ hi => hi)
  obtain ⟨b, bs, hc, hb⟩ := intEnc_cons (n := 4) (by omega) i (value_mod .neverIndexed)
  have hbytes : bytes = b :: (bs ++ tail) := by
    rw [g3]; show intEnc 4 i _ ++ tail = _; rw [hc]; rfl
  have hb' : b.toNat = 16 + min i 15 := by rw [hb]; rfl
  refine ⟨bytes, g1, ⟨b, _, hbytes, by omega⟩, ?_, fun t => rfl⟩
  intro t
  have hlit := g4 []
  rw [List.append_nil] at hlit
  obtain ⟨f, hf1, hf2⟩ := LiteralAt.mono_name (g' := t.get?) (by
    intro j f hj
    have hjb := (staticTable_isSome j).1 (by rw [hj]; rfl)
    unfold Table.get?
    rw [if_neg (by omega), if_pos hjb.2]
    have hl : staticTable.length = 61 := by decide +kernel
    exact ⟨_, List.getElem?_eq_getElem (by rw [hl]; omega)⟩) hlit
  refine ⟨f, hf1, ?_, ?_⟩
  · intro hne
    obtain ⟨bytes', k1, -, k3⟩ := encodeHeader_rfc (t := t) (mode := mode)
      (SentAs.neverIndexed (table := table) h hh)
      (by
        intro h' he _
        injection he with he
        subst he
        exact hne)
      (Or.inr (by
        rintro ⟨h', he, hm, -⟩
        injection he with he
        subst he
        exact hh (Or.inr hm)))
    rw [encodeHeader_header (by decide), hitIndex_none.2 hh] at k1
    simp only at k1
    rw [g1] at k1
    obtain rfl := Res.ok.inj k1
    have hit := k3 []
    rw [List.append_nil, hbytes] at hit
    rw [hbytes] at hf2
    cases hit with
    | neverIndexed _ _ _ f' hb2 hl => exact (LiteralAt.unique (get?_zero t) hf2 hl).1
  · rw [hbytes] at hf2 ⊢
    exact .cons _ _ _ [] _ _ (.neverIndexed b _ _ f (by omega) hf2) (.nil _)

example : encodeHeader ⟨.neverIndexed, .header (bstr "cookie", bstr "a=b")⟩ .none .default =
    .ok [0x1f, 17, 3, 97, 61, 98] := by decide +kernel

end Mh2c
