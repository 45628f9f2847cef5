/-
C113: header blocks encoded now and sent later.
-/
import Verif.Props.OneEntry
import Verif.Props.OneStep

namespace Mh2c

open Rfc DynamicTable

/-- C113, exactly, for every block that is encoded. `table` is the request table when the frame was
made, `peer` the table of a conforming decoder when it arrives, whatever was sent in between. The
decoder decodes exactly the given headers if and only if every entry has a representation (`SentAs`:
INDEXED only for headers in a table), no literal has the mistyped name, and the decoder has each
header that was encoded as a position in the dynamic table at that position. Missing (false of the
code): the blocks where this is not so; `hempty` is explained at `C31_exact_partial`. -/
theorem C113_prepared_partial (table : DynamicTable) (peer : Table) (mode : EncodeMode)
    (block : HeaderBlock)
    (hempty : ∀ h, ⟨.indexed, .header h⟩ ∈ block → ¬ InTables h table → h.2 ≠ [] ∨ mode = .huffman)
    (bytes : Bytes) (henc : encodeHeaderBlock block mode table = .ok bytes) :
    (∃ items' t', BlockDecodes peer bytes items' t' ∧ fields items' = headersOf block) ↔
    ∃ items, List.Forall₂ (SentAs table) block items ∧
      (∀ e ∈ block, ∀ h, e.entry = .header h → ¬ InTables h table →
        h.1 ≠ bstr "accept-control-allow-origin") ∧
      ∀ k e h, block[k]? = some e → e.entry = .header h → HitsDynamic table e →
        ((items.take k).foldl Item.apply peer).entries[table.entries.idxOf h]? = some h := by
  constructor
  · rintro ⟨items', t', hd, hf⟩
    obtain ⟨⟨items, hs⟩, hn⟩ := no_bad_entry hempty henc hd hf
    refine ⟨items, hs, hn, ?_⟩
    rw [← stillThere_iff hs.length_eq, ← block_exact hs hn _ bytes henc]
    exact ⟨items', t', hd, hf⟩
  · rintro ⟨items, hs, hn, hk⟩
    rw [block_exact hs hn _ bytes henc, stillThere_iff hs.length_eq]
    exact hk

/-- C113. A block none of whose headers is only in the dynamic table can be sent at any time: every
conforming decoder decodes it as the given headers, whatever its table holds by then. Missing: as in
`C113_prepared_partial`. -/
theorem C113_no_reference_partial (table : DynamicTable) (peer : Table) (mode : EncodeMode)
    (block : HeaderBlock) (items : List Item) (hs : List.Forall₂ (SentAs table) block items)
    (hname : ∀ e ∈ block, ∀ h, e.entry = .header h → ¬ InTables h table →
      h.1 ≠ bstr "accept-control-allow-origin")
    (hd : ∀ e ∈ block, ¬ HitsDynamic table e)
    (bytes : Bytes) (henc : encodeHeaderBlock block mode table = .ok bytes) :
    ∃ items' t', BlockDecodes peer bytes items' t' ∧ fields items' = headersOf block :=
  (block_exact hs hname peer bytes henc).2 ((stillThere_iff hs.length_eq peer).2
    fun _ e _ hk _ hh => absurd hh (hd e (List.mem_of_getElem? hk)))

theorem idxOf_le {h : Header} {es : List Header} {i : Nat} (hi : es[i]? = some h) :
    es.idxOf h ≤ i := by
  induction es generalizing i with
  | nil => simp at hi
  | cons e es ih =>
      by_cases he : e = h
      · subst he
        rw [List.idxOf_cons_self]
        omega
      · rw [List.idxOf_cons_ne _ he]
        cases i with
        | zero => exact absurd (Option.some.inj hi) he
        | succ i =>
            have := ih hi
            omega

/-- After another header has been inserted, the first place of a header is another one. -/
theorem moved {n : Nat} {h k : Header} {es : List Header} (hne : k ≠ h) :
    (takeFit n (k :: es))[es.idxOf h]? ≠ some h := by
  intro hc
  have hp := takeFit_prefix n (k :: es)
  have hl : es.idxOf h < (takeFit n (k :: es)).length := by
    by_contra hl
    rw [List.getElem?_eq_none (by omega)] at hc
    cases hc
  rw [List.prefix_iff_getElem?] at hp
  have h1 := hp _ hl
  rw [List.getElem?_eq_getElem hl] at hc
  rw [Option.some.inj hc] at h1
  cases hi : es.idxOf h with
  | zero =>
      rw [hi] at h1
      exact hne (Option.some.inj h1)
  | succ i =>
      rw [hi, List.getElem?_cons_succ] at h1
      have := idxOf_le h1
      omega

theorem goodBlock_insert {table : DynamicTable} {k : Header} (hk : ¬ InTables k table)
    (hn : k.1 ≠ bstr "accept-control-allow-origin")
    (hfit : k.1.length + k.2.length + 32 ≤ table.maxTableSize) :
    GoodBlock table [⟨.incrementalIndexing, .header k⟩] where
  typed := by
    intro e he
    obtain rfl := List.mem_singleton.1 he
    exact Or.inr ⟨fun h => (by cases h), _, rfl⟩
  indexed := by
    intro e he hp
    obtain rfl := List.mem_singleton.1 he
    cases hp
  incremental := by
    intro e he _ h hh
    obtain rfl := List.mem_singleton.1 he
    injection hh with hh
    rwa [← hh]
  name := by
    intro e he h hh _
    obtain rfl := List.mem_singleton.1 he
    injection hh with hh
    rwa [← hh]
  order := List.pairwise_singleton _ _
  fits := by
    intro items hs
    cases hs with
    | cons h1 h2 =>
        cases h2
        cases h1 with
        | hit p h hp hh => exact absurd hh hk
        | incremental h hh => exact ⟨hfit, trivial⟩

/-- C113, where it fails: in every state that the tables reach together, a frame made with a header
that is only in the dynamic table no longer means that header once any other header has been
inserted, sent and reported in order. -/
theorem C113_insertion_violated (table : DynamicTable) (peer : Table) (hs : Session table peer)
    (p : HeaderPrefix) (hp : p ≠ .sizeUpdate) (h k : Header) (mode mode' : EncodeMode)
    (hh : HitsDynamic table ⟨p, .header h⟩) (hk : ¬ InTables k table)
    (hn : k.1 ≠ bstr "accept-control-allow-origin")
    (hfit : k.1.length + k.2.length + 32 ≤ peer.max) :
    ∃ prepared between items peer' table',
      encodeHeaderBlock [⟨p, .header h⟩] mode table = .ok prepared ∧
      (∃ items' t', BlockDecodes peer prepared items' t' ∧ fields items' = [h]) ∧
      encodeHeaderBlock [⟨.incrementalIndexing, .header k⟩] mode' table = .ok between ∧
      BlockDecodes peer between items peer' ∧ fields items = [k] ∧
      updateDynamicTable [⟨.incrementalIndexing, .header k⟩] table = (.ok (), table') ∧
      Session table' peer' ∧
      ¬ ∃ items' t', BlockDecodes peer' prepared items' t' ∧ fields items' = [h] := by
  obtain ⟨hinv, rfl⟩ := hs.inv
  obtain ⟨h', e1, hm, hst⟩ := id hh
  injection e1 with e1
  subst e1
  have hin : InTables h table := Or.inr hm
  have hsent : List.Forall₂ (SentAs table) [⟨p, .header h⟩] [.indexed h] :=
    .cons (.hit p h hp hin) .nil
  have hname : ∀ e ∈ [(⟨p, .header h⟩ : HeaderEntry)], ∀ h', e.entry = .header h' →
      ¬ InTables h' table → h'.1 ≠ bstr "accept-control-allow-origin" := by
    intro e he h' he' hn'
    obtain rfl := List.mem_singleton.1 he
    injection he' with he'
    subst he'
    exact absurd hin hn'
  obtain ⟨prepared, q1, -⟩ := block_rfc (mode := mode) hsent hname (List.pairwise_singleton _ _)
    table.toRfc (Or.inl (List.prefix_refl _))
  have hex := fun peer => (block_exact hsent hname peer prepared q1).trans
    (stillThere_iff hsent.length_eq peer)
  have hgood := goodBlock_insert hk hn hfit
  obtain ⟨between, items, peer', table', r1, r2, r3, r4, r5⟩ :=
    C33_session_continues_partial table table.toRfc hs _ mode' hgood
  refine ⟨prepared, between, items, peer', table', q1, ?_, r1, r2, r3, r4, r5, ?_⟩
  · refine (hex table.toRfc).2 ?_
    intro i e h' hi he' _
    cases i with
    | zero =>
        obtain rfl := Option.some.inj hi
        injection he' with he'
        subst he'
        exact List.getElem?_idxOf hm
    | succ i => simp at hi
  · intro hc
    have h0 := (hex peer').1 hc 0 _ h rfl rfl hh
    obtain ⟨-, hpeer⟩ := r5.inv
    have hpush := push_fits hinv (h := k) (by unfold headerSize; exact hfit)
    have htab : table'.entries = takeFit table.maxTableSize (k :: table.entries) := by
      simp only [updateDynamicTable, updateDynamicTableEntry, if_pos, HeaderEntry.getHeader,
        Res.ok_bind, hpush] at r4
      injection r4 with _ r4
      rw [← r4]
    have hpe : peer'.entries = takeFit table.maxTableSize (k :: table.entries) := by
      rw [← hpeer]
      exact htab
    rw [List.take_zero, List.foldl_nil, hpe] at h0
    exact moved (by rintro rfl; exact hk hin) h0

/-- A session whose table holds `b: 2`, with another header to insert. -/
example : ∃ table peer, Session table peer ∧
    HitsDynamic table ⟨.indexed, .header (bstr "b", bstr "2")⟩ ∧
    ¬ InTables (bstr "c", bstr "3") table ∧
    (bstr "c").length + (bstr "3").length + 32 ≤ peer.max := by
  obtain ⟨bytes, items, peer, table, -, -, -, h, hs⟩ :=
    C33_session_continues_partial .default ⟨[], 4096⟩ .start _ .none goodBlock_sample
  have ht : table = ⟨[(bstr "b", bstr "2")], 34, 4096⟩ := by
    have h2 : updateDynamicTable [⟨.indexed, .header (bstr ":method", bstr "GET")⟩,
     ⟨.incrementalIndexing, .header (bstr "b", bstr "2")⟩] .default =
      (.ok (), ⟨[(bstr "b", bstr "2")], 34, 4096⟩) := by decide +kernel
    rw [h2] at h
    injection h with _ h
    exact h.symm
  subst ht
  refine ⟨_, peer, hs, ⟨_, rfl, by decide, ?_⟩, hitIndex_none.1 (by decide +kernel), ?_⟩
  · rintro ⟨-, i, hi⟩
    have h0 : reverseStaticTableEntries.lookup (bstr "b", bstr "2") = none := by decide +kernel
    rw [← staticTable_inverse, h0] at hi
    cases hi
  · rw [← (C33_tables_in_sync_partial _ _ hs).2]
    decide

end Mh2c
