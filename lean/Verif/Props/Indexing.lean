import Verif.Props.Client
import Verif.Props.Update
import Verif.Props.Sizes
import Verif.Props.Requests
import Verif.Spec.Indexing

/-! C33: what the two tables hold after a block. C114: headers that have been indexed are cheap to
send again. -/

namespace Mh2c
open Rfc DynamicTable

theorem takeFit_takeFit (b b' : Nat) (es : List Header) (h : b ≤ b') :
    takeFit b (takeFit b' es) = takeFit b es := by
  induction es generalizing b b' with
  | nil => rfl
  | cons e es ih =>
      by_cases h1 : entrySize e ≤ b'
      · rw [takeFit, if_pos h1, takeFit, takeFit]
        split
        · rw [ih _ _ (by omega)]
        · rfl
      · rw [takeFit, if_neg h1, takeFit, takeFit, if_neg (by omega)]

theorem takeFit_append_takeFit (b b' : Nat) (a es : List Header) (h : b ≤ b') :
    takeFit b (a ++ takeFit b' es) = takeFit b (a ++ es) := by
  induction a generalizing b with
  | nil => exact takeFit_takeFit b b' es h
  | cons e a ih =>
      rw [List.cons_append, List.cons_append, takeFit, takeFit]
      split
      · rw [ih _ (by omega)]
      · rfl

/-- The table after reporting a block without size updates. -/
theorem toIndex_applied {t t' : DynamicTable} (ht : t.Inv) (block : HeaderBlock)
    (hb : ∀ e ∈ block, e.pfx ≠ .sizeUpdate ∧ WellTyped e) (hs : ∀ e ∈ block, EntrySmall e)
    (hsafe : (updateDynamicTable block t).1.Safe) (ht' : (updateDynamicTable block t).2 = t') :
    t'.Inv ∧ t'.maxTableSize = t.maxTableSize ∧
      t'.entries = takeFit t.maxTableSize (block.toIndex.reverse ++ t.entries) := by
  induction block generalizing t with
  | nil =>
      obtain rfl : t = t' := ht'
      refine ⟨ht, rfl, ?_⟩
      exact (takeFit_all (by rw [← ht.size]; exact ht.le)).symm
  | cons e es ih =>
      have he := hb e (by simp)
      rcases entry_cases ht e (hs e (by simp)) with ⟨t1, h1, h2, h3⟩ | ⟨h1, h3⟩ | ⟨h1, -⟩
      · rw [updateDynamicTable, h1] at hsafe ht'
        obtain ⟨i1, i2, i3⟩ := ih h2 (fun x hx => hb x (by simp [hx]))
          (fun x hx => hs x (by simp [hx])) hsafe ht'
        obtain ⟨p, v⟩ := e
        rcases he.2 with ⟨hp, -⟩ | ⟨-, g, hg⟩
        · exact absurd hp he.1
        · simp only at hg he
          subst hg
          by_cases hp : p = .incrementalIndexing
          · subst hp
            have e1 : t1.entries = takeFit t.maxTableSize (g :: t.entries) := by
              have := Option.some.inj h3
              exact (congrArg Table.entries this).symm
            have e2 : t1.maxTableSize = t.maxTableSize :=
              (congrArg Table.max (Option.some.inj h3)).symm
            refine ⟨i1, i2.trans e2, ?_⟩
            rw [i3, e1, e2, takeFit_append_takeFit _ _ _ _ (le_refl _)]
            simp [HeaderBlock.toIndex]
          · have e1 : t1 = t := by
              cases p <;> first | exact absurd rfl hp | exact absurd rfl he.1 | exact (Res.ok.inj h1).symm
            subst e1
            refine ⟨i1, i2, ?_⟩
            rw [i3]
            cases p <;> first | exact absurd rfl hp | rfl
      · exfalso
        rcases he.2 with ⟨hp, -⟩ | ⟨-, g, hg⟩
        · exact absurd hp he.1
        · obtain ⟨p, v⟩ := e
          simp only at hg
          subst hg
          cases p <;> first | exact absurd rfl he.1 | cases h3
      · exfalso
        rw [updateDynamicTable, h1] at hsafe
        exact hsafe

/-- The request table after a history that leaves its maximum alone. -/
theorem reported_applied [Platform] {c c' : Client} {ops : List Op} (hall : ∀ op ∈ ops, op.Small)
    (hkeep : ∀ op ∈ ops, op.KeepsMaximum) (h : History c ops c') (ht : c.requestTable.Inv) :
    c'.requestTable.maxTableSize = c.requestTable.maxTableSize ∧
    c'.requestTable.entries =
      takeFit c.requestTable.maxTableSize ((reported ops).reverse ++ c.requestTable.entries) := by
  induction h with
  | nil c => exact ⟨rfl, (takeFit_all (by rw [← ht.size]; exact ht.le)).symm⟩
  | cons c op ops c' hs _ ih =>
      have hsm := hall op (by simp)
      have hkm := hkeep op (by simp)
      have step : (op.run c).2.requestTable.Inv ∧
          (op.run c).2.requestTable.maxTableSize = c.requestTable.maxTableSize ∧
          (op.run c).2.requestTable.entries =
            takeFit c.requestTable.maxTableSize
              ((reported [op]).reverse ++ c.requestTable.entries) := by
        have same : ∀ d : Client, d.requestTable = c.requestTable → reported [op] = [] →
            d.requestTable.Inv ∧ d.requestTable.maxTableSize = c.requestTable.maxTableSize ∧
            d.requestTable.entries = takeFit c.requestTable.maxTableSize
              ((reported [op]).reverse ++ c.requestTable.entries) := by
          intro d hd hr
          rw [hd, hr]
          exact ⟨ht, rfl, (takeFit_all (by rw [← ht.size]; exact ht.le)).symm⟩
        cases op with
        | sendPreface => exact same _ rfl rfl
        | sendRaw data => exact same _ rfl rfl
        | receiveRaw n => exact same _ rfl rfl
        | sendFrame f => exact same _ (C59_send c f).1 rfl
        | receiveFrame => exact same _ (C59_receive c).1 rfl
        | updateRequestBlock b =>
            have := toIndex_applied ht b hkm hsm hs rfl
            rw [show reported [Op.updateRequestBlock b] = b.toIndex by simp [reported]]
            exact this
        | updateRequestSize n => exact absurd hkm id
      obtain ⟨s1, s2, s3⟩ := step
      obtain ⟨i1, i2⟩ := ih (fun o ho => hall o (by simp [ho])) (fun o ho => hkeep o (by simp [ho])) s1
      refine ⟨i1.trans s2, ?_⟩
      rw [i2, s2, s3,
        takeFit_append_takeFit _ _ _ _ (le_refl _)]
      simp [reported]

/-! ## C33 -/

theorem inserted_applied {items : List Item} (hns : ∀ i ∈ items, ∀ n, i ≠ .sizeUpdate n) (t : Table)
    (ht : takeFit t.max t.entries = t.entries) :
    items.foldl Item.apply t =
      ⟨takeFit t.max ((inserted items).reverse ++ t.entries), t.max⟩ := by
  induction items generalizing t with
  | nil =>
      show t = _
      rw [show (inserted []).reverse ++ t.entries = t.entries from rfl, ht]
  | cons i is ih =>
      rw [List.foldl_cons]
      have ih' := fun t => ih (fun j hj => hns j (by simp [hj])) t
      cases i with
      | incremental f =>
          rw [ih' _ (takeFit_takeFit _ _ _ (le_refl _))]
          show (⟨takeFit t.max (_ ++ takeFit t.max (f :: t.entries)), t.max⟩ : Table) = _
          rw [takeFit_append_takeFit _ _ _ _ (le_refl _)]
          simp [inserted]
      | sizeUpdate n => exact absurd rfl (hns _ (by simp) n)
      | _ => exact ih' t ht

theorem sentAs_typed {table : DynamicTable} {block : HeaderBlock} {items : List Item}
    (hs : List.Forall₂ (SentAs table) block items) (hns : ∀ e ∈ block, e.pfx ≠ .sizeUpdate) :
    (∀ e ∈ block, e.pfx ≠ .sizeUpdate ∧ WellTyped e) ∧ ∀ i ∈ items, ∀ n, i ≠ .sizeUpdate n := by
  induction hs with
  | nil => simp
  | cons he hes ih =>
      obtain ⟨h1, h2⟩ := ih fun e he => hns e (by simp [he])
      have h0 := hns _ List.mem_cons_self
      simp only [List.forall_mem_cons]
      refine ⟨⟨⟨h0, ?_⟩, h1⟩, ?_, h2⟩
      · cases he with
        | size n => exact absurd rfl h0
        | hit p h hp hh => exact Or.inr ⟨hp, h, rfl⟩
        | incremental h hh => exact Or.inr ⟨nofun, h, rfl⟩
        | withoutIndexing h hh => exact Or.inr ⟨nofun, h, rfl⟩
        | neverIndexed h hh => exact Or.inr ⟨nofun, h, rfl⟩
      · rintro n rfl
        cases he
        exact h0 rfl

/-- C33, exactly, for a block without size updates that is sent, decoded as the given headers and
reported. The client's table then holds the last headers that were to be indexed, as many as fit, and
the peer's table those of them that were sent to be indexed, that is, were in no table. The tables
need not have been in step before. Missing: that these are the same, which is false of the code
(`C33_repeated_violated`); size updates, see `C33_any_block_partial`. -/
theorem C33_exact_partial (table table' : DynamicTable) (ha : Accounted table)
    (hm : table.maxTableSize < 2 ^ 63) (block : HeaderBlock) (mode : EncodeMode) (items : List Item)
    (hs : List.Forall₂ (SentAs table) block items) (hns : ∀ e ∈ block, e.pfx ≠ .sizeUpdate)
    (hsmall : ∀ e ∈ block, EntrySmall e)
    (hname : ∀ e ∈ block, ∀ h, e.entry = .header h → ¬ InTables h table →
      h.1 ≠ bstr "accept-control-allow-origin")
    (bytes : Bytes) (henc : encodeHeaderBlock block mode table = .ok bytes)
    (hup : updateDynamicTable block table = (.ok (), table')) (peer peer' : Table)
    (hpeer : (peer.entries.map fun h => h.1.length + h.2.length + 32).sum ≤ peer.max)
    (items' : List Item) (hdec : BlockDecodes peer bytes items' peer')
    (hf : fields items' = headersOf block) :
    table'.entries = takeFit table.maxTableSize (block.toIndex.reverse ++ table.entries) ∧
    table'.maxTableSize = table.maxTableSize ∧
    peer'.entries = takeFit peer.max ((inserted items).reverse ++ peer.entries) ∧
    peer'.max = peer.max ∧
    ∀ h, h ∈ inserted items ↔ h ∈ block.toIndex ∧ ¬ InTables h table := by
  have hst := (block_exact hs hname peer bytes henc).1 ⟨items', peer', hdec, hf⟩
  obtain ⟨rfl, rfl⟩ := BlockDecodes.unique hdec (still_decodes hs hname peer bytes henc hst)
  obtain ⟨hw, hni⟩ := sentAs_typed hs hns
  obtain ⟨-, h2, h1⟩ := toIndex_applied ⟨ha.1, ha.2, hm⟩ block hw hsmall
    (by rw [hup]; trivial) (by rw [hup])
  rw [inserted_applied hni peer (takeFit_all hpeer)]
  refine ⟨h1, h2, rfl, rfl, ?_⟩
  clear hdec hf hst hni h1 h2 hup henc hname hsmall hns hw
  intro g
  induction hs with
  | nil => simp [inserted, HeaderBlock.toIndex]
  | cons he hes ih =>
      cases he with
      | size n => exact ih
      | hit p h hp hh =>
          refine Iff.trans (b := g ∈ inserted _) Iff.rfl (ih.trans ?_)
          cases p with
          | incrementalIndexing =>
              simp only [HeaderBlock.toIndex, List.filterMap_cons, List.mem_cons]
              constructor
              · exact fun h => ⟨Or.inr h.1, h.2⟩
              · rintro ⟨rfl | h1, h2⟩
                · exact absurd hh h2
                · exact ⟨h1, h2⟩
          | _ => rfl
      | incremental h hh =>
          simp only [inserted, HeaderBlock.toIndex, List.filterMap_cons, List.mem_cons] at ih ⊢
          constructor
          · rintro (rfl | h1)
            · exact ⟨Or.inl rfl, hh⟩
            · exact ⟨Or.inr (ih.1 h1).1, (ih.1 h1).2⟩
          · rintro ⟨rfl | h1, h2⟩
            · exact Or.inl rfl
            · exact Or.inr (ih.2 ⟨h1, h2⟩)
      | withoutIndexing h hh => exact ih
      | neverIndexed h hh => exact ih

/-- C33 is false of the code: whenever the client's table has room for all of it, a block in which
some header to be indexed is already in a table leaves the two tables different, even in the number
of their entries. -/
theorem C33_repeated_violated (table table' : DynamicTable) (ha : Accounted table)
    (hm : table.maxTableSize < 2 ^ 63) (block : HeaderBlock) (mode : EncodeMode) (items : List Item)
    (hs : List.Forall₂ (SentAs table) block items) (hns : ∀ e ∈ block, e.pfx ≠ .sizeUpdate)
    (hsmall : ∀ e ∈ block, EntrySmall e)
    (hname : ∀ e ∈ block, ∀ h, e.entry = .header h → ¬ InTables h table →
      h.1 ≠ bstr "accept-control-allow-origin")
    (bytes : Bytes) (henc : encodeHeaderBlock block mode table = .ok bytes)
    (hup : updateDynamicTable block table = (.ok (), table')) (peer' : Table) (items' : List Item)
    (hdec : BlockDecodes ⟨table.entries, table.maxTableSize⟩ bytes items' peer')
    (hf : fields items' = headersOf block)
    (hroom : ((block.toIndex ++ table.entries).map fun h => h.1.length + h.2.length + 32).sum ≤
      table.maxTableSize)
    (hhit : ∃ h ∈ block.toIndex, InTables h table) :
    peer'.entries.length < table'.entries.length := by
  have hle : (table.entries.map fun h => h.1.length + h.2.length + 32).sum ≤ table.maxTableSize := by
    rw [List.map_append, List.sum_append] at hroom
    omega
  obtain ⟨h1, -, h3, -, -⟩ := C33_exact_partial table table' ha hm block mode items hs hns hsmall hname
    bytes henc hup ⟨table.entries, table.maxTableSize⟩ peer' hle items' hdec hf
  have e1 : takeFit table.maxTableSize (block.toIndex.reverse ++ table.entries) =
      block.toIndex.reverse ++ table.entries := by
    refine takeFit_all ?_
    show ((block.toIndex.reverse ++ table.entries).map fun h => h.1.length + h.2.length + 32).sum ≤ _
    rw [List.map_append, List.sum_append, List.map_reverse, List.sum_reverse, ← List.sum_append,
      ← List.map_append]
    exact hroom
  have e3 : peer'.entries.length ≤ (inserted items).length + table.entries.length := by
    rw [h3, ← List.length_reverse (as := inserted items), ← List.length_append]
    exact (takeFit_prefix _ _).length_le
  have e4 : (inserted items).length < block.toIndex.length := by
    clear hdec hf h3 e3 e1 h1 hup henc hname hsmall hns hroom hle
    have le : ∀ {b : HeaderBlock} {is : List Item}, List.Forall₂ (SentAs table) b is →
        (inserted is).length ≤ b.toIndex.length := by
      intro b is h
      induction h with
      | nil => exact le_refl _
      | cons he hes ih =>
          cases he with
          | size n => exact ih
          | hit p h hp hh =>
              cases p with
              | incrementalIndexing => exact Nat.le_succ_of_le ih
              | _ => exact ih
          | incremental h hh => exact Nat.succ_le_succ ih
          | withoutIndexing h hh => exact ih
          | neverIndexed h hh => exact ih
    obtain ⟨g, hg, hin⟩ := hhit
    induction hs with
    | nil => simp [HeaderBlock.toIndex] at hg
    | cons he hes ih =>
        cases he with
        | size n => exact ih hg
        | hit p h hp hh =>
            cases p with
            | incrementalIndexing =>
                have := le hes
                exact Nat.lt_succ_of_le this
            | _ => exact ih hg
        | incremental h hh =>
            rcases List.mem_cons.1 (show g ∈ h :: HeaderBlock.toIndex _ from hg) with rfl | hg
            · exact absurd hin hh
            · exact Nat.succ_lt_succ (ih hg)
        | withoutIndexing h hh => exact ih hg
        | neverIndexed h hh => exact ih hg
  rw [h1, e1, List.length_append, List.length_reverse]
  omega

/-- `a: 1`, which is in the table, and `c: 3`, which is not, both to be indexed. -/
example : let block : HeaderBlock := [⟨.incrementalIndexing, .header (bstr "a", bstr "1")⟩,
      ⟨.incrementalIndexing, .header (bstr "c", bstr "3")⟩]
    let items : List Item := [.indexed (bstr "a", bstr "1"), .incremental (bstr "c", bstr "3")]
    let bytes : Bytes := [0xbf, 0x40, 1, 0x63, 1, 0x33]
    Accounted baTable ∧ List.Forall₂ (SentAs baTable) block items ∧
    encodeHeaderBlock block .none baTable = .ok bytes ∧
    (updateDynamicTable block baTable).1 = .ok () ∧
    (∃ peer', BlockDecodes ⟨baTable.entries, baTable.maxTableSize⟩ bytes items peer') ∧
    fields items = headersOf block ∧
    block.toIndex = [(bstr "a", bstr "1"), (bstr "c", bstr "3")] ∧
    ((block.toIndex ++ baTable.entries).map fun h => h.1.length + h.2.length + 32).sum = 136 ∧
    ∃ h ∈ block.toIndex, InTables h baTable := by
  have hs : List.Forall₂ (SentAs baTable) [⟨.incrementalIndexing, .header (bstr "a", bstr "1")⟩,
      ⟨.incrementalIndexing, .header (bstr "c", bstr "3")⟩]
      [.indexed (bstr "a", bstr "1"), .incremental (bstr "c", bstr "3")] := by
    refine .cons (.hit _ _ (by decide) (Or.inr (by decide +kernel))) (.cons (.incremental _ ?_) .nil)
    rintro (⟨-, i, hi⟩ | h)
    · have := lookup_mem hi
      revert this
      generalize i = j
      intro hm
      have : ∀ x ∈ staticTableEntries, x.2 ≠ (bstr "c", bstr "3") := by decide +kernel
      exact this _ hm rfl
    · revert h; decide +kernel
  have he : encodeHeaderBlock [⟨.incrementalIndexing, .header (bstr "a", bstr "1")⟩,
      ⟨.incrementalIndexing, .header (bstr "c", bstr "3")⟩] .none baTable =
        .ok [0xbf, 0x40, 1, 0x63, 1, 0x33] := by decide +kernel
  refine ⟨by unfold Accounted; decide +kernel, hs, he, by decide +kernel, ⟨_, still_decodes hs ?_ _ _ he ?_⟩,
    by decide +kernel, by decide +kernel, by decide +kernel, (bstr "a", bstr "1"), by decide +kernel,
    Or.inr (by decide +kernel)⟩
  · intro e he h hh _
    simp only [List.mem_cons, List.not_mem_nil, or_false] at he
    rcases he with rfl | rfl <;> (cases hh; decide +kernel)
  · refine (stillThere_iff hs.length_eq _).2 ?_
    intro k e h hk hh hd
    match k with
    | 0 => cases hk; cases hh; decide +kernel
    | 1 =>
        cases hk; cases hh
        obtain ⟨h, hh, hm, -⟩ := hd
        cases hh
        revert hm; decide +kernel
    | k + 2 => cases hk

/-! ## C114 -/

/-- C114. After every history of a client that leaves the table's maximum alone, the request table
holds the headers reported last, as many as 4096 octets hold (32 octets more for each than its
text). -/
theorem C114_remembered [Platform] (conn : Conn) (ops : List Op) (c : Client)
    (hsmall : ∀ op ∈ ops, op.Small) (hk : ∀ op ∈ ops, op.KeepsMaximum)
    (h : History (Client.new conn) ops c) :
    c.requestTable.entries <+: (reported ops).reverse ∧
    ∀ newest older, (reported ops) = older ++ newest →
      (newest.map fun g => g.1.length + g.2.length + 32).sum ≤ 4096 →
      ∀ g ∈ newest, g ∈ c.requestTable.entries := by
  have e := (reported_applied hsmall hk h inv_default).2
  rw [show (Client.new conn).requestTable.entries = [] from rfl, List.append_nil,
    show (Client.new conn).requestTable.maxTableSize = 4096 from rfl] at e
  rw [e]
  refine ⟨takeFit_prefix _ _, ?_⟩
  intro newest older hr hsum g hg
  rw [hr, List.reverse_append]
  refine (takeFit_longest (List.prefix_append _ _) ?_).subset (List.mem_reverse.2 hg)
  show ((newest.reverse.map entrySize)).sum ≤ 4096
  rw [List.map_reverse, List.sum_reverse]
  exact hsum

/-- C114. A header that is in a table of up to 4096 octets, or in the static table with a value,
takes one octet or two, in every mode. -/
theorem C114_two_octets (table : DynamicTable) (ha : Accounted table)
    (hm : table.maxTableSize ≤ 4096) (block : HeaderBlock) (mode : EncodeMode)
    (hb : ∀ e ∈ block, e.pfx ≠ .sizeUpdate ∧ ∃ h, e.entry = .header h ∧
      ((h.2 ≠ [] ∧ ∃ i, staticTableEntries.lookup i = some h) ∨ h ∈ table.entries)) :
    ∃ bytes, encodeHeaderBlock block mode table = .ok bytes ∧ block.length ≤ bytes.length ∧
      bytes.length ≤ 2 * block.length := by
  have hlen : 32 * table.entries.length ≤ 4096 := by
    have h1 : 32 * table.entries.length ≤ Rfc.tableSize table.entries := by
      generalize table.entries = es
      induction es with
      | nil => simp
      | cons e es ih =>
          rw [show Rfc.tableSize (e :: es) = headerSize e + Rfc.tableSize es from total_cons e es,
            List.length_cons]
          unfold headerSize
          omega
    have h2 := ha.1
    have h3 := ha.2
    omega
  induction block with
  | nil => exact ⟨[], rfl, by simp, by simp⟩
  | cons e es ih =>
      obtain ⟨bytes, i1, i0, i2⟩ := ih (fun x hx => hb x (by simp [hx]))
      obtain ⟨hp, h, hh, hin⟩ := hb e (by simp)
      obtain ⟨p, v⟩ := e
      simp only at hp hh
      subst hh
      obtain ⟨i, hi⟩ : ∃ i, hitIndex h table = some i := by
        cases hc : hitIndex h table with
        | some i => exact ⟨i, rfl⟩
        | none => exact absurd hin (hitIndex_none.1 hc)
      have hle : i ≤ 190 := by
        rcases hitIndex_some hi with ⟨_, h2, _⟩ | ⟨h1, h2, _⟩
        · omega
        · have := (List.getElem?_eq_some_iff.1 h2).1
          omega
      have hl : 1 ≤ (intEnc 7 i HeaderPrefix.indexed.value).length ∧
          (intEnc 7 i HeaderPrefix.indexed.value).length ≤ 2 := by
        rw [intEnc_length]
        obtain ⟨b, bs, h1, -, h3⟩ := encodeIntegerValue_cons 7 i (by omega)
        rw [h1, h3, List.length_cons]
        split
        · simp
        · have := (encodeIntTail_length (i - (2 ^ 7 - 1)) 1 (by omega)).2 (by norm_num; omega)
          omega
      refine ⟨intEnc 7 i HeaderPrefix.indexed.value ++ bytes, ?_, ?_, ?_⟩
      · rw [encodeHeaderBlock, encodeHeader_header hp, hi, i1]
        rfl
      · simp only [List.length_append, List.length_cons]
        omega
      · simp only [List.length_append, List.length_cons]
        omega

/-- C114. A request of which every header is in the static table with a value, or was reported for
indexing with less than 4096 octets of headers since, takes at most two octets for each header and
nine for the frame, whatever prefixes and mode are asked for. -/
theorem C114_repeated_request [Platform] (conn : Conn) (ops : List Op) (c : Client)
    (hsmall : ∀ op ∈ ops, op.Small) (hk : ∀ op ∈ ops, op.KeepsMaximum)
    (h : History (Client.new conn) ops c) (block : HeaderBlock) (mode : EncodeMode) (flags : UInt8)
    (sid : UInt32) (hflags : ¬ hasPadded flags ∧ ¬ hasPriority flags)
    (hb : ∀ e ∈ block, e.pfx ≠ .sizeUpdate ∧ ∃ g, e.entry = .header g ∧
      ((g.2 ≠ [] ∧ ∃ i, staticTableEntries.lookup i = some g) ∨
        ∃ older newer, reported ops = older ++ g :: newer ∧
          ((g :: newer).map fun x => x.1.length + x.2.length + 32).sum ≤ 4096)) :
    ∃ f wire, HeadersFrame.new flags sid block mode c.requestTable = .ok f ∧
      f.serialize = .ok wire ∧ wire.length ≤ 9 + 2 * block.length := by
  have ha := (C63_accounting conn ops c hsmall h).1
  have hmax : c.requestTable.maxTableSize = 4096 := (reported_applied hsmall hk h inv_default).1
  obtain ⟨bytes, e1, -, e2⟩ := C114_two_octets c.requestTable ha (by omega) block mode (by
    intro e he
    obtain ⟨hp, g, hg, hin⟩ := hb e he
    refine ⟨hp, g, hg, hin.imp_right ?_⟩
    rintro ⟨older, newer, hr, hs⟩
    exact (C114_remembered conn ops c hsmall hk h).2 _ _ hr hs g (by simp))
  have e3 := headers_encoded (flags := flags) (padding := []) (p := .zero)
    (fun h => absurd h hflags.2) (fun h => absurd h hflags.2) e1
  have e4 : withPadding flags (withPriority flags .zero bytes) [] = bytes := by
    unfold withPadding withPriority
    rw [if_neg hflags.1, if_neg hflags.2]
  rw [e4] at e3
  refine ⟨⟨bytes, ⟨castToFhLength bytes.length, 1, flags, 0, sid⟩, [], .zero, block⟩, _, ?_, rfl, ?_⟩
  · unfold HeadersFrame.new
    rw [e3]; rfl
  · rw [List.length_append, FrameHeader.serialize_length]
    show 9 + bytes.length ≤ _
    omega

/-- A request with a cookie is reported, then made again: 9 and 3 octets, also if the cookie is to be
sent without indexing. -/
example (p : Platform) :
    let block : HeaderBlock := [⟨.indexed, .header (bstr ":method", bstr "GET")⟩,
      ⟨.incrementalIndexing, .header (bstr "cookie", bstr "session=0123456789abcdef")⟩]
    let again : HeaderBlock := [⟨.indexed, .header (bstr ":method", bstr "GET")⟩,
      ⟨.withoutIndexing, .header (bstr "cookie", bstr "session=0123456789abcdef")⟩]
    let c := ((Client.new ⟨[], [], [], []⟩).updateRequestDynamicTable block).2
    History (Client.new ⟨[], [], [], []⟩) [.updateRequestBlock block] c ∧
    Op.Small (.updateRequestBlock block) ∧ Op.KeepsMaximum (.updateRequestBlock block) ∧
    reported [.updateRequestBlock block] = [(bstr "cookie", bstr "session=0123456789abcdef")] ∧
    (do let f ← HeadersFrame.new 5 3 again .huffman c.requestTable
        f.serialize) = .ok [0, 0, 2, 1, 5, 0, 0, 0, 3, 0x82, 0xbe] := by
  refine ⟨.cons _ _ _ _ ?_ (.nil _), ?_, ?_, ?_, ?_⟩
  · have e : ((Client.new ⟨[], [], [], []⟩).updateRequestDynamicTable
        [⟨.indexed, .header (bstr ":method", bstr "GET")⟩,
          ⟨.incrementalIndexing, .header (bstr "cookie", bstr "session=0123456789abcdef")⟩]).1 =
        .ok () := by decide +kernel
    show Res.Safe (Client.updateRequestDynamicTable _ _).1
    rw [e]
    trivial
  · intro e he
    simp only [List.mem_cons, List.not_mem_nil, or_false] at he
    rcases he with rfl | rfl <;> exact ⟨fun h hh => by cases hh; decide, fun n hn => by cases hn⟩
  · intro e he
    simp only [List.mem_cons, List.not_mem_nil, or_false] at he
    rcases he with rfl | rfl <;> exact ⟨by decide, Or.inr ⟨by decide, _, rfl⟩⟩
  · decide +kernel
  · rcases p with ⟨a, b⟩; cases a <;> cases b <;> decide +kernel

end Mh2c
