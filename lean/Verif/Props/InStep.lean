/-
C33: the two tables after blocks with size updates, and over histories that are read as meant.
-/
import Verif.Spec.InStep
import Verif.Props.Indexing
import Verif.Props.Update

namespace Mh2c

open Rfc DynamicTable

/-- A block that was reported has had its effect, entry by entry. -/
theorem effects_of_update {block : HeaderBlock} {table table' : DynamicTable} (ht : table.Inv)
    (hs : ∀ e ∈ block, EntrySmall e) (hup : updateDynamicTable block table = (.ok (), table')) :
    Effects block table.toRfc table'.toRfc ∧ table'.Inv := by
  induction block generalizing table with
  | nil => cases hup; exact ⟨.nil _, ht⟩
  | cons e es ih =>
      rw [updateDynamicTable] at hup
      rcases entry_cases ht e (hs e (by simp)) with ⟨t1, h1, h2, h3⟩ | ⟨h1, h2⟩ | ⟨h1, h2⟩
      · rw [h1] at hup
        obtain ⟨h4, h5⟩ := ih h2 (fun x hx => hs x (by simp [hx])) hup
        exact ⟨.cons _ _ _ _ _ h3 h4, h5⟩
      · rw [h1] at hup; cases hup
      · rw [h1] at hup; cases hup

/-- If nothing to be indexed is in a table, what is sent does what the entries mean. -/
theorem effects_sent {table : DynamicTable} {block : HeaderBlock} {items : List Item}
    (hs : List.Forall₂ (SentAs table) block items) (hnew : ∀ h ∈ block.toIndex, ¬ InTables h table)
    {t t' : Table} (he : Effects block t t') : t' = items.foldl Item.apply t := by
  induction hs generalizing t with
  | nil => cases he; rfl
  | cons h hes ih =>
      cases he with | cons _ _ _ t1 _ h1 hr =>
      have hnew' := hnew
      cases h with
      | size n => cases h1; exact ih hnew hr
      | hit p h hp hh =>
          cases p with
          | incrementalIndexing => exact absurd hh (hnew h (by simp [HeaderBlock.toIndex]))
          | sizeUpdate => exact absurd rfl hp
          | _ => cases h1; exact ih hnew hr
      | incremental h hh =>
          cases h1
          exact ih (fun g hg => hnew g (List.mem_cons_of_mem _ hg)) hr
      | withoutIndexing h hh => cases h1; exact ih hnew hr
      | neverIndexed h hh => cases h1; exact ih hnew hr

/-- C33, exactly, for every block that is sent, decoded as the given headers and reported, size
updates among its entries or not, and from any two tables. In the client's table every entry has had
its effect, in order; in the peer's table every representation has that was sent, in order: `SentAs`
makes them differ in the headers to be indexed that were in a table. Missing: that the two tables are
the same, which is false of the code (`C33_repeated_violated`). -/
theorem C33_any_block_partial (table table' : DynamicTable) (ha : Accounted table)
    (hm : table.maxTableSize < 2 ^ 63) (block : HeaderBlock) (mode : EncodeMode)
    (hsmall : ∀ e ∈ block, EntrySmall e) (bytes : Bytes)
    (hclear : SentBlock.Clear ⟨table, mode, block, bytes⟩)
    (henc : encodeHeaderBlock block mode table = .ok bytes)
    (hup : updateDynamicTable block table = (.ok (), table')) (peer peer' : Table)
    (items : List Item) (hdec : BlockDecodes peer bytes items peer')
    (hf : fields items = headersOf block) :
    Effects block ⟨table.entries, table.maxTableSize⟩ ⟨table'.entries, table'.maxTableSize⟩ ∧
    List.Forall₂ (SentAs table) block items ∧ peer' = items.foldl Item.apply peer ∧
    Accounted table' ∧ table'.maxTableSize < 2 ^ 63 := by
  obtain ⟨⟨items', hs⟩, hn⟩ := no_bad_entry hclear henc hdec hf
  have hst := (block_exact hs hn peer bytes henc).1 ⟨items, peer', hdec, hf⟩
  obtain ⟨rfl, rfl⟩ := BlockDecodes.unique hdec (still_decodes hs hn peer bytes henc hst)
  obtain ⟨h1, h2⟩ := effects_of_update ⟨ha.1, ha.2, hm⟩ hsmall hup
  exact ⟨h1, hs, rfl, ⟨h2.size, h2.le⟩, h2.max⟩

/-- C33. Two tables that are in step stay in step over every history of blocks that the peer reads as
they were meant and that ask to index nothing that is in a table already. Nothing is asked about size
updates, room or the order of references and insertions. Missing: the blocks that are read otherwise
(C31), and those that ask to index a header that is in a table, for which it is false
(`C33_every_hit_violated`). -/
theorem C33_in_step_partial (table table' : DynamicTable) (peer peer' : Table) (ha : Accounted table)
    (hm : table.maxTableSize < 2 ^ 63) (h : ReadAsMeant table peer table' peer')
    (he : table.entries = peer.entries) (hmax : table.maxTableSize = peer.max) :
    table'.entries = peer'.entries ∧ table'.maxTableSize = peer'.max := by
  induction h with
  | nil => exact ⟨he, hmax⟩
  | block table table1 table' peer peer1 peer' mode block octets items hclear hsmall henc hd hf hup
      hnew hr ih =>
      obtain ⟨h1, h2, h3, h4, h5⟩ := C33_any_block_partial table table1 ha hm block mode hsmall octets
        hclear henc hup peer peer1 items hd hf
      have h6 := effects_sent h2 hnew h1
      rw [show (⟨table.entries, table.maxTableSize⟩ : Table) = peer by rw [he, hmax], ← h3] at h6
      exact ih h4 h5 (congrArg Table.entries h6) (congrArg Table.max h6)

/-- A smaller table, a reference and an insertion, for which `a: 1` has to go. -/
def shrinkBlock : HeaderBlock := [⟨.sizeUpdate, .maxSize 100⟩,
  ⟨.indexed, .header (bstr "b", bstr "2")⟩, ⟨.incrementalIndexing, .header (bstr "c", bstr "3")⟩]

theorem c3_nowhere : ¬ InTables (bstr "c", bstr "3") baTable := by
  rintro (⟨-, i, hi⟩ | h)
  · have hm := lookup_mem hi
    have : ∀ x ∈ staticTableEntries, x.2 ≠ (bstr "c", bstr "3") := by decide +kernel
    exact this _ hm rfl
  · revert h; decide +kernel

theorem shrink_read : ReadAsMeant baTable ⟨baTable.entries, 4096⟩
    ⟨[(bstr "c", bstr "3"), (bstr "b", bstr "2")], 68, 100⟩
    ⟨[(bstr "c", bstr "3"), (bstr "b", bstr "2")], 100⟩ := by
  have hs : List.Forall₂ (SentAs baTable) shrinkBlock [.sizeUpdate 100,
      .indexed (bstr "b", bstr "2"), .incremental (bstr "c", bstr "3")] :=
    .cons (.size _) (.cons (.hit _ _ (by decide) (Or.inr (by decide +kernel)))
      (.cons (.incremental _ c3_nowhere) .nil))
  have he : encodeHeaderBlock shrinkBlock .none baTable =
      .ok [0x3f, 0x45, 0xbe, 0x40, 1, 0x63, 1, 0x33] := by decide +kernel
  have hd := still_decodes hs (fun e he h hh _ => by
      simp only [shrinkBlock, List.mem_cons, List.not_mem_nil, or_false] at he
      rcases he with rfl | rfl | rfl <;> first | (cases hh; decide +kernel) | cases hh)
    ⟨baTable.entries, 4096⟩ _ he ((stillThere_iff hs.length_eq _).2 (by
      intro k e h hk hh hd
      match k with
      | 0 => cases hk; cases hh
      | 1 => cases hk; cases hh; decide +kernel
      | 2 =>
          cases hk
          obtain ⟨h, hh, hm, -⟩ := hd
          cases hh
          exact absurd (Or.inr hm) c3_nowhere
      | k + 3 => cases hk))
  rw [show List.foldl Item.apply ⟨baTable.entries, 4096⟩ [.sizeUpdate 100,
      .indexed (bstr "b", bstr "2"), .incremental (bstr "c", bstr "3")] =
    (⟨[(bstr "c", bstr "3"), (bstr "b", bstr "2")], 100⟩ : Table) from
      congrArg (Table.mk · 100) (by decide +kernel)] at hd
  refine .block _ ⟨[(bstr "c", bstr "3"), (bstr "b", bstr "2")], 68, 100⟩ _ _ _ _ .none shrinkBlock
    _ _ ?_ ?_ he hd (by decide +kernel)
    (by decide +kernel) ?_ ?_
  · intro h hh hn
    refine absurd (Or.inr ?_) hn
    simp only [shrinkBlock, List.mem_cons, List.not_mem_nil, or_false] at hh
    rcases hh with hh | hh | hh
    · cases hh
    · injection hh with _ h2
      injection h2 with h2
      rw [h2]
      decide +kernel
    · cases hh
  · intro e he
    simp only [shrinkBlock, List.mem_cons, List.not_mem_nil, or_false] at he
    rcases he with rfl | rfl | rfl <;>
      exact ⟨fun h hh => by cases hh <;> decide +kernel, fun n hn => by cases hn <;> decide +kernel⟩
  · intro h hh
    have : shrinkBlock.toIndex = [(bstr "c", bstr "3")] := by decide +kernel
    rw [this, List.mem_singleton] at hh
    rw [hh]
    exact c3_nowhere
  · exact .nil _ _

example : Accounted baTable ∧ baTable.maxTableSize < 2 ^ 63 := by
  unfold Accounted; decide +kernel

end Mh2c
