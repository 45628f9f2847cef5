/-
C90: reporting a header block through `update_request_dynamic_table`.
-/
import Verif.Spec.Update
import Verif.Props.Client

namespace Mh2c

open Rfc DynamicTable

theorem entry_cases {t : DynamicTable} (ht : t.Inv) (e : HeaderEntry) (hs : EntrySmall e) :
    (∃ t1, updateDynamicTableEntry e t = .ok t1 ∧ t1.Inv ∧ e.effect t.toRfc = some t1.toRfc) ∨
    (updateDynamicTableEntry e t = .throw .runtimeError ∧ e.effect t.toRfc = none) ∨
    (updateDynamicTableEntry e t = .ub .emptyBack ∧
      ∃ h, e = ⟨.incrementalIndexing, .header h⟩ ∧ t.maxTableSize < entrySize h) := by
  obtain ⟨p, v⟩ := e
  cases p <;> cases v
  case incrementalIndexing.header h =>
    by_cases hf : headerSize h ≤ t.maxTableSize
    · obtain ⟨t1, h1, h2, h3⟩ := push_refines ht hf
      exact Or.inl ⟨t1, h1, h2, by rw [h3]; rfl⟩
    · refine Or.inr (Or.inr ⟨?_, h, rfl, ?_⟩)
      · have h1 := ht.le
        have h2 := ht.max
        have h3 := hs.1 h rfl
        exact push_oversized ht.size (by unfold headerSize; omega) (by omega)
      · unfold headerSize at hf
        unfold entrySize
        omega
  case incrementalIndexing.maxSize n => exact Or.inr (Or.inl ⟨rfl, rfl⟩)
  case sizeUpdate.header h => exact Or.inr (Or.inl ⟨rfl, rfl⟩)
  case sizeUpdate.maxSize n =>
    obtain ⟨t1, h1, h2, h3⟩ := updateTableSize_refines ht (hs.2 n rfl)
    exact Or.inl ⟨t1, h1, h2, by rw [h3]; rfl⟩
  all_goals exact Or.inl ⟨t, rfl, ht, rfl⟩

/-! ## C90 -/

/-- C90. Reporting a block applies its entries in order, up to the first that cannot be applied, and
touches nothing but the request table: it returns if all were applied, throws if it met an entry
whose prefix and contents contradict each other, and is undefined if it met an INCREMENTAL_INDEXING
header larger than the table.
Missing: all or nothing, false of the code (see below); a larger header must empty the table. -/
theorem C90_update_partial (c : Client) (ha : Accounted c.requestTable)
    (hm : c.requestTable.maxTableSize < 2 ^ 63) (block : HeaderBlock)
    (hs : ∀ e ∈ block, EntrySmall e) :
    ∃ (applied rest : HeaderBlock) (t : DynamicTable),
      (c.updateRequestDynamicTable block).2 = { c with requestTable := t } ∧
      block = applied ++ rest ∧
      Effects applied ⟨c.requestTable.entries, c.requestTable.maxTableSize⟩
        ⟨t.entries, t.maxTableSize⟩ ∧
      Accounted t ∧
      match rest with
      | [] => (c.updateRequestDynamicTable block).1 = .ok ()
      | e :: _ =>
          ((c.updateRequestDynamicTable block).1 = .throw .runtimeError ∧ ¬ WellTyped e) ∨
          ((c.updateRequestDynamicTable block).1.IsUb ∧
            ∃ h, e = ⟨.incrementalIndexing, .header h⟩ ∧ t.maxTableSize < entrySize h) := by
  have key : ∀ (block : HeaderBlock) (table : DynamicTable), table.Inv → (∀ e ∈ block, EntrySmall e) →
      ∃ applied rest t, (updateDynamicTable block table).2 = t ∧ block = applied ++ rest ∧
        Effects applied table.toRfc t.toRfc ∧ t.Inv ∧
        match (generalizing := false) rest with
        | [] => (updateDynamicTable block table).1 = .ok ()
        | e :: _ =>
            ((updateDynamicTable block table).1 = .throw .runtimeError ∧ e.effect t.toRfc = none) ∨
            ((updateDynamicTable block table).1.IsUb ∧
              ∃ h, e = ⟨.incrementalIndexing, .header h⟩ ∧ t.maxTableSize < entrySize h) := by
    intro block
    induction block with
    | nil => intro table ht _; exact ⟨[], [], table, rfl, rfl, .nil _, ht, rfl⟩
    | cons e es ih =>
        intro table ht hs
        rcases entry_cases ht e (hs e (by simp)) with ⟨t1, h1, h2, h3⟩ | ⟨h1, h2⟩ | ⟨h1, h2⟩
        · obtain ⟨applied, rest, t, e1, e2, e3, e4, e5⟩ := ih t1 h2 fun x hx => hs x (by simp [hx])
          refine ⟨e :: applied, rest, t, ?_, by rw [e2]; rfl, .cons _ _ _ _ _ h3 e3, e4, ?_⟩
          · rw [updateDynamicTable, h1]; exact e1
          · rw [updateDynamicTable, h1]; exact e5
        · refine ⟨[], e :: es, table, ?_, rfl, .nil _, ht, Or.inl ⟨?_, h2⟩⟩
          · rw [updateDynamicTable, h1]
          · rw [updateDynamicTable, h1]
        · refine ⟨[], e :: es, table, ?_, rfl, .nil _, ht, Or.inr ⟨?_, h2⟩⟩
          · rw [updateDynamicTable, h1]
          · rw [updateDynamicTable, h1]; exact ⟨_, rfl⟩
  obtain ⟨applied, rest, t, e1, e2, e3, e4, e5⟩ := key block c.requestTable ⟨ha.1, ha.2, hm⟩ hs
  refine ⟨applied, rest, t, ?_, e2, e3, ⟨e4.size, e4.le⟩, ?_⟩
  · unfold Client.updateRequestDynamicTable
    rw [← e1]
  · have h1 : (c.updateRequestDynamicTable block).1 = (updateDynamicTable block c.requestTable).1 := rfl
    rw [h1]
    cases rest with
    | nil => exact e5
    | cons e es =>
        refine e5.imp (fun ⟨a, b⟩ => ⟨a, fun hw => ?_⟩) id
        obtain ⟨p, v⟩ := e
        rcases hw with ⟨rfl, n, rfl⟩ | ⟨hp, h, rfl⟩
        · cases b
        · cases p <;> first | exact hp rfl | cases b

/-- C90. In particular, a block of entries whose contents match their prefixes never throws, and any
block that returns was applied as a whole. Missing: blocks with a mistyped entry, for which it is
false. -/
theorem C90_whole_block_partial (c : Client) (ha : Accounted c.requestTable)
    (hm : c.requestTable.maxTableSize < 2 ^ 63) (block : HeaderBlock)
    (hs : ∀ e ∈ block, EntrySmall e) :
    ((∀ e ∈ block, WellTyped e) → ∀ x, (c.updateRequestDynamicTable block).1 ≠ .throw x) ∧
    ((c.updateRequestDynamicTable block).1 = .ok () →
      ∃ t, (c.updateRequestDynamicTable block).2 = { c with requestTable := t } ∧
        Effects block ⟨c.requestTable.entries, c.requestTable.maxTableSize⟩
          ⟨t.entries, t.maxTableSize⟩) := by
  refine ⟨fun hw x => updateDynamicTable_ne_throw hw _ x, fun hok => ?_⟩
  obtain ⟨applied, rest, t, e1, e2, e3, -, e5⟩ := C90_update_partial c ha hm block hs
  cases rest with
  | nil => rw [List.append_nil] at e2; subst e2; exact ⟨t, e1, e3⟩
  | cons e es =>
      simp only at e5
      rw [hok] at e5
      rcases e5 with ⟨h, -⟩ | ⟨⟨_, h⟩, -⟩ <;> cases h

/-- C90 is false of the code: a call that throws has applied part of the block. -/
theorem C90_all_or_nothing_violated :
    ∃ (c : Client) (block : HeaderBlock), c = Client.new c.conn ∧
      (∀ e ∈ block, EntrySmall e) ∧
      (c.updateRequestDynamicTable block).1 = .throw .runtimeError ∧
      (c.updateRequestDynamicTable block).2.requestTable.entries ≠ c.requestTable.entries := by
  refine ⟨Client.new ⟨[], [], [], []⟩, [⟨.incrementalIndexing, .header (bstr "b", bstr "2")⟩,
    ⟨.sizeUpdate, .header (bstr "c", bstr "3")⟩], rfl, ?_, by decide +kernel, by decide +kernel⟩
  intro e he
  simp only [List.mem_cons, List.not_mem_nil, or_false] at he
  rcases he with rfl | rfl <;>
    exact ⟨by rintro h ⟨⟩; decide, by rintro n ⟨⟩⟩

/-- A fresh client meets the hypotheses, with each of the three outcomes. -/
example (conn : Conn) : Accounted (Client.new conn).requestTable ∧
    (Client.new conn).requestTable.maxTableSize < 2 ^ 63 ∧
    (updateDynamicTable [⟨.sizeUpdate, .maxSize 40⟩, ⟨.incrementalIndexing, .header (bstr "b", bstr "2")⟩]
      .default) = (.ok (), ⟨[(bstr "b", bstr "2")], 34, 40⟩) ∧
    (updateDynamicTable [⟨.sizeUpdate, .maxSize 40⟩, ⟨.incrementalIndexing, .maxSize 1⟩] .default) =
      (.throw .runtimeError, ⟨[], 0, 40⟩) ∧
    (updateDynamicTable [⟨.sizeUpdate, .maxSize 33⟩,
      ⟨.incrementalIndexing, .header (bstr "b", bstr "2")⟩] .default) = (.ub .emptyBack, ⟨[], 0, 33⟩) :=
  ⟨⟨rfl, (by decide : 0 ≤ 4096)⟩, (by decide : 4096 < 2 ^ 63), by decide +kernel, by decide +kernel, by decide +kernel⟩

end Mh2c
