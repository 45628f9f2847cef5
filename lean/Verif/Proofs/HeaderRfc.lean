/-
Helper lemmas: what an RFC 7541 peer makes of the client's blocks, and the other way round.
-/
import Verif.Proofs.HeaderProgress
import Verif.Model.Client
import Mathlib.Data.List.Forall2

namespace Mh2c

open Rfc

theorem static_get? {i : Nat} {h : Header} (hs : staticTableEntries.lookup i = some h)
    (h20 : i ≠ 20) (t : Table) : t.get? i = some h := by
  have hb := (staticTable_isSome i).1 (by rw [hs]; rfl)
  unfold Table.get?
  rw [if_neg (by omega), if_pos hb.2, ← staticTable_eq_rfc hb.1 hb.2 h20]
  exact hs

theorem static_20 {h : Header} (hs : staticTableEntries.lookup 20 = some h) :
    h = (mistypedName, []) := by
  have : staticTableEntries.lookup 20 = some (mistypedName, []) := by decide +kernel
  rw [this] at hs
  exact (Option.some.inj hs).symm

/-- One entry, seen by an RFC peer with table `t`. -/
theorem encodeHeader_rfc {table : DynamicTable} {t : Table} {e : HeaderEntry} {item : Item}
    {mode : EncodeMode} (hs : SentAs table e item)
    (hn : ∀ h, e.entry = .header h → ¬ InTables h table → h.1 ≠ mistypedName)
    (ht : table.entries <+: t.entries ∨ ¬ HitsDynamic table e) :
    ∃ bytes, encodeHeader e mode table = .ok bytes ∧ bytes ≠ [] ∧
      ∀ rest, ItemAt intDecode t.get? t.get? (bytes ++ rest) item rest := by
  refine encodeHeader_item (get := t.get?) (getName := t.get?) understands_rfc hs ?_ ?_ ?_ ?_
  · cases item <;> trivial
  · intros; trivial
  · intro h i he hi
    refine ⟨trivial, ?_⟩
    rcases hitIndex_some hi with ⟨h1, h2, h3, h4⟩ | ⟨h1, h2, h3⟩
    · refine static_get? h4 ?_ t
      rintro rfl
      rw [static_20 h4] at h3
      exact h3 rfl
    · unfold Table.get?
      rw [if_neg (by omega), if_neg (by omega)]
      rcases ht with ht | ht
      · obtain ⟨more, hm⟩ := ht
        have hlt := (List.getElem?_eq_some_iff.1 h2).1
        rw [← hm, List.getElem?_append_left hlt]
        exact h2
      · exact absurd ⟨h, he, List.mem_of_getElem? h2, h3⟩ ht
  · intro h i he hh hi
    refine static_get? hi ?_ t
    rintro rfl
    have := static_20 hi
    injection this with h1 _
    exact hn h he hh h1

theorem takeFit_id {n : Nat} {es : List Header} (h : tableSize es ≤ n) : takeFit n es = es :=
  DynamicTable.takeFit_all h

theorem apply_entries {table : DynamicTable} {t : Table} {e : HeaderEntry} {item : Item}
    (hs : SentAs table e item) (hc : ¬ ChangesTable table e) (ht : table.entries <+: t.entries) :
    table.entries <+: (item.apply t).entries := by
  cases hs with
  | size n =>
      show _ <+: takeFit n t.entries
      refine DynamicTable.takeFit_longest ht ?_
      show tableSize table.entries ≤ n
      by_contra hn
      exact hc (Or.inl ⟨n, rfl, by omega⟩)
  | hit p h hp hh => exact ht
  | incremental h hh => exact absurd (Or.inr ⟨h, rfl, hh⟩) hc
  | withoutIndexing h hh => exact ht
  | neverIndexed h hh => exact ht

theorem block_rfc {table : DynamicTable} {mode : EncodeMode} {block : HeaderBlock}
    {items : List Item} (hs : List.Forall₂ (SentAs table) block items)
    (hn : ∀ e ∈ block, ∀ h, e.entry = .header h → ¬ InTables h table → h.1 ≠ mistypedName)
    (hp : block.Pairwise fun a b => ChangesTable table a → ¬ HitsDynamic table b)
    (t : Table) (ht : table.entries <+: t.entries ∨ ∀ e ∈ block, ¬ HitsDynamic table e) :
    ∃ bytes, encodeHeaderBlock block mode table = .ok bytes ∧
      BlockDecodes t bytes items (items.foldl Item.apply t) := by
  induction hs generalizing t with
  | nil => exact ⟨[], rfl, .nil t⟩
  | @cons e item es is he hes ih =>
      obtain ⟨hp1, hp2⟩ := List.pairwise_cons.1 hp
      obtain ⟨a, g1, g2, g3⟩ := encodeHeader_rfc (t := t) (mode := mode) he
        (hn e List.mem_cons_self) (ht.imp id (fun h => h e List.mem_cons_self))
      have ht' : table.entries <+: (item.apply t).entries ∨ ∀ e ∈ es, ¬ HitsDynamic table e := by
        rcases ht with ht | ht
        · by_cases hc : ChangesTable table e
          · exact Or.inr (fun e' he' => hp1 e' he' hc)
          · exact Or.inl (apply_entries he hc ht)
        · exact Or.inr (fun e' he' => ht e' (List.mem_cons_of_mem _ he'))
      obtain ⟨b, h1, h2⟩ := ih (fun e' he' => hn e' (List.mem_cons_of_mem _ he')) hp2 _ ht'
      exact ⟨a ++ b, encodeHeaderBlock_cons g1 h1, .cons t _ _ b item is (g3 b) h2⟩

theorem fields_of_sentAs {table : DynamicTable} {block : HeaderBlock} {items : List Item}
    (hs : List.Forall₂ (SentAs table) block items) : fields items = headersOf block := by
  induction hs with
  | nil => rfl
  | @cons e item es is he _ ih =>
      unfold fields headersOf at ih ⊢
      cases he with
      | size n =>
          rw [List.filterMap_cons_none (by rfl), List.filterMap_cons_none (by rfl), ih]
      | hit p h hp hh =>
          rw [List.filterMap_cons_some (by rfl), List.filterMap_cons_some (by rfl), ih]
      | incremental h hh =>
          rw [List.filterMap_cons_some (by rfl), List.filterMap_cons_some (by rfl), ih]
      | withoutIndexing h hh =>
          rw [List.filterMap_cons_some (by rfl), List.filterMap_cons_some (by rfl), ih]
      | neverIndexed h hh =>
          rw [List.filterMap_cons_some (by rfl), List.filterMap_cons_some (by rfl), ih]

/-! ### Changing the names of a getter -/

theorem LiteralAt.mono_name {int : IntReader} {g g' : Nat → Option Field}
    (hg : ∀ i f, g i = some f → ∃ f', g' i = some f') {n : Nat} {bs rest : Bytes} {f : Field}
    (h : LiteralAt int g n bs f rest) :
    ∃ f', f'.2 = f.2 ∧ LiteralAt int g' n bs f' rest := by
  cases h with
  | indexedName rest1 _ i f0 value hi hf hv =>
      obtain ⟨f', hf'⟩ := hg i f0 hf
      exact ⟨(f'.1, value), rfl, .indexedName _ _ _ i f' value hi hf' hv⟩
  | newName rest1 rest2 _ name value hi hn hv =>
      exact ⟨(name, value), rfl, .newName _ _ _ _ name value hi hn hv⟩

theorem LiteralAt.mono {int int' : IntReader} {g g' : Nat → Option Field}
    (hint : ∀ n, n ≤ 8 → ∀ bs r, int n bs = some r → int' n bs = some r)
    (hg : ∀ i f, g i = some f → g' i = some f) {n : Nat} (hn8 : n ≤ 8) {bs rest : Bytes} {f : Field}
    (h : LiteralAt int g n bs f rest) : LiteralAt int' g' n bs f rest := by
  have hst : ∀ {bs s rest}, StringAt int bs s rest → StringAt int' bs s rest := by
    intro bs s rest h
    cases h with
    | plain b bs data _ hb hi => exact .plain b bs _ _ hb (hint 7 (by omega) _ _ hi)
    | huffman b bs data _ _ hb hi hs => exact .huffman b bs data _ _ hb (hint 7 (by omega) _ _ hi) hs
  cases h with
  | indexedName rest1 _ i f0 value hi hf hv =>
      exact .indexedName _ _ _ i f0 value (hint n hn8 _ _ hi) (hg i f0 hf) (hst hv)
  | newName rest1 rest2 _ name value hi hn hv =>
      exact .newName _ _ _ _ name value (hint n hn8 _ _ hi) (hst hn) (hst hv)

theorem ItemAt.mono {int int' : IntReader} {g g' gn gn' : Nat → Option Field}
    (hint : ∀ n, n ≤ 8 → ∀ bs r, int n bs = some r → int' n bs = some r)
    (hg : ∀ i f, g i = some f → g' i = some f) (hgn : ∀ i f, gn i = some f → gn' i = some f)
    {bs rest : Bytes} {item : Item} (h : ItemAt int g gn bs item rest) :
    ItemAt int' g' gn' bs item rest := by
  cases h with
  | indexed b bs _ i f hb hi hf => exact .indexed b bs _ i f hb (hint 7 (by omega) _ _ hi) (hg i f hf)
  | incremental b bs _ f hb hl => exact .incremental b bs _ f hb (LiteralAt.mono hint hgn (by omega) hl)
  | sizeUpdate b bs _ n hb hi => exact .sizeUpdate b bs _ n hb (hint 5 (by omega) _ _ hi)
  | neverIndexed b bs _ f hb hl => exact .neverIndexed b bs _ f hb (LiteralAt.mono hint hgn (by omega) hl)
  | withoutIndexing b bs _ f hb hl =>
      exact .withoutIndexing b bs _ f hb (LiteralAt.mono hint hgn (by omega) hl)

theorem intDecodeMinimal_sub {n : Nat} {bs : Bytes} {r : Nat × Bytes}
    (h : intDecodeMinimal n bs = some r) : intDecode n bs = some r := by
  unfold intDecodeMinimal at h
  cases hd : intDecode n bs with
  | none => rw [hd] at h; cases h
  | some p =>
      rw [hd] at h
      simp only at h
      split at h
      · exact h
      · cases h

/-! ### Table updates -/

theorem update_refines {items : List Item} {table : DynamicTable} (ht : table.Inv)
    (hf : Fits table.maxTableSize items) :
    ∃ table', updateDynamicTable (items.map entryOf) table = (.ok (), table') ∧ table'.Inv ∧
      table'.toRfc = items.foldl Item.apply table.toRfc := by
  induction items generalizing table with
  | nil => exact ⟨table, rfl, ht, rfl⟩
  | cons item items ih =>
      cases item with
      | indexed f => exact ih ht hf
      | withoutIndexing f => exact ih ht hf
      | neverIndexed f => exact ih ht hf
      | incremental f =>
          obtain ⟨t1, h1, h2, h3⟩ := DynamicTable.push_refines ht hf.1
          have hm : t1.maxTableSize = table.maxTableSize := congrArg Table.max h3
          obtain ⟨t', g1, g2, g3⟩ := ih h2 (by rw [hm]; exact hf.2)
          refine ⟨t', ?_, g2, ?_⟩
          · rw [List.map_cons, updateDynamicTable]
            have : updateDynamicTableEntry (entryOf (.incremental f)) table = .ok t1 := by
              exact h1
            rw [this]
            exact g1
          · rw [g3, h3]; rfl
      | sizeUpdate n =>
          obtain ⟨t1, h1, h2, h3⟩ := DynamicTable.updateTableSize_refines ht hf.1
          have hm : t1.maxTableSize = n := congrArg Table.max h3
          obtain ⟨t', g1, g2, g3⟩ := ih h2 (by rw [hm]; exact hf.2)
          refine ⟨t', ?_, g2, ?_⟩
          · rw [List.map_cons, updateDynamicTable]
            have : updateDynamicTableEntry (entryOf (.sizeUpdate n)) table = .ok t1 := by
              exact h1
            rw [this]
            exact g1
          · rw [g3, h3]; rfl

/-- Two entries with the same effect. -/
theorem updateDynamicTable_congr {b1 b2 : HeaderBlock}
    (h : List.Forall₂ (fun e1 e2 => ∀ t, updateDynamicTableEntry e1 t = updateDynamicTableEntry e2 t)
      b1 b2) (t : DynamicTable) : updateDynamicTable b1 t = updateDynamicTable b2 t := by
  induction h generalizing t with
  | nil => rfl
  | @cons e1 e2 l1 l2 he _ ih =>
      rw [updateDynamicTable, updateDynamicTable, he t]
      cases updateDynamicTableEntry e2 t with
      | ok t' => exact ih t'
      | throw x => rfl
      | ub k => rfl
      | diverge => rfl

theorem update_sentAs {table : DynamicTable} {block : HeaderBlock} {items : List Item}
    (hs : List.Forall₂ (SentAs table) block items)
    (hinc : ∀ e ∈ block, e.pfx = .incrementalIndexing → ∀ h, e.entry = .header h →
      ¬ InTables h table) (t : DynamicTable) :
    updateDynamicTable block t = updateDynamicTable (items.map entryOf) t := by
  refine updateDynamicTable_congr ?_ t
  induction hs with
  | nil => exact .nil
  | @cons e item es is he _ ih =>
      refine .cons ?_ (ih fun e' he' => hinc e' (List.mem_cons_of_mem _ he'))
      intro t
      cases he with
      | size n => rfl
      | hit p h hp hh =>
          have hni : p ≠ .incrementalIndexing := fun hc =>
            hinc ⟨p, .header h⟩ List.mem_cons_self hc h rfl hh
          unfold updateDynamicTableEntry
          rw [if_neg hni, if_neg hp]
          rfl
      | incremental h hh => rfl
      | withoutIndexing h hh => rfl
      | neverIndexed h hh => rfl

end Mh2c
