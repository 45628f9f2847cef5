/-
C32: of blocks whose integers are in their shortest form, exactly those are understood as meant
whose references mean the same in the table at the start of the block.
-/
import Verif.Spec.Kept
import Verif.Proofs.Delimit
import Verif.Props.HeaderRfc
import Verif.Props.HeaderCodec

namespace Mh2c

open Rfc

theorem misprinted_eq (table : DynamicTable) (max i : Nat) :
    misprinted ⟨table.entries, max⟩ i = codeGet table i := by
  unfold misprinted
  split
  · rename_i h; subst h
    symm
    exact codeGet_some.2 ⟨by decide, makeIndexedHeader_static (by decide +kernel)⟩
  · rename_i h20
    unfold codeGet Table.get?
    split
    · rfl
    · rename_i h0
      unfold makeIndexedHeader
      rw [staticTable_length]
      split
      · rename_i h61
        rw [if_neg (by omega), ← staticTable_eq_rfc (by omega) h61 h20]
        unfold staticTableAt
        cases staticTableEntries.lookup i <;> rfl
      · rename_i h61
        rw [if_pos (by omega)]
        unfold DynamicTable.atPos
        rw [show i - 61 - 1 = i - 62 by omega]
        simp only
        cases table.entries[i - 62]? <;> rfl

/-- Nothing is delivered for an index the client's tables do not have. -/
theorem decodeHeader_absent [Platform] {b : UInt8} {bs rest : Bytes} {n i : Nat}
    {table : DynamicTable} (hb : indexBits b = some n)
    (hi : intDecodeMinimal n (b :: bs) = some (i, rest)) (h0 : i ≠ 0)
    (hg : codeGet table i = none) (r : HeaderEntry × Nat) :
    decodeHeader (b :: bs) table ≠ .ok r := by
  obtain ⟨p, -, -, -, hn, hd⟩ := decodeHeader_index (bs := bs) hb table
  rw [hd, (decodeIntWithLength_clientInt hn (clientInt_of_minimal hn hi)).1, Res.ok_bind]
  simp only
  rw [if_pos (by omega)]
  intro h
  obtain ⟨f, h1, -⟩ := Res.bind_eq_ok.1 h
  rw [codeGet_some.2 ⟨by omega, h1⟩] at hg
  cases hg

/-- What the client makes of a representation: it takes the same octets for a representation of its
own, the same one exactly when the reference is kept; or it has no entry to refer to. -/
def Taken [Platform] (table : DynamicTable) (bs rest : Bytes) (item : Item) (kept : Prop) : Prop :=
  (∃ item', ItemAt clientInt (codeGet table) (codeGetName table) bs item' rest ∧
    ItemTolerant item' ∧ (item'.field?.isSome ↔ item.field?.isSome) ∧
    (item'.field? = item.field? ↔ kept) ∧ (item'.field? = item.field? → item' = item)) ∨
  ((∀ r, decodeHeader bs table ≠ .ok r) ∧ ¬ kept)

theorem literal_taken [Platform] {table : DynamicTable} (hn : NamedTable table) {max : Nat}
    {t : Table} {n : Nat} (hn8 : n ≤ 8) {b : UInt8} {bs rest : Bytes} (hb : indexBits b = some n)
    {f : Field}
    (hl : LiteralAt intDecodeMinimal t.get? n (b :: bs) f rest) (ht : Tolerant f.1 ∧ Tolerant f.2) :
    (∃ f', LiteralAt clientInt (codeGetName table) n (b :: bs) f' rest ∧
      (Tolerant f'.1 ∧ Tolerant f'.2) ∧
      (f' = f ↔ ∀ i, (intDecode n (b :: bs)).map (·.1) = some i → i ≠ 0 →
        (misprinted ⟨table.entries, max⟩ i).map (·.1) = (t.get? i).map (·.1))) ∨
    ((∀ r, decodeHeader (b :: bs) table ≠ .ok r) ∧
      ¬ ∀ i, (intDecode n (b :: bs)).map (·.1) = some i → i ≠ 0 →
        (misprinted ⟨table.entries, max⟩ i).map (·.1) = (t.get? i).map (·.1)) := by
  have hst : ∀ {bs s rest}, StringAt intDecodeMinimal bs s rest → StringAt clientInt bs s rest := by
    intro bs s rest h
    cases h with
    | plain b bs _ _ hb hi => exact .plain b bs _ _ hb (clientInt_of_minimal (by omega) hi)
    | huffman b bs _ _ _ hb hi hs =>
        exact .huffman b bs _ _ _ hb (clientInt_of_minimal (by omega) hi) hs
  cases hl with
  | indexedName rest1 _ i g value hi hf hv =>
      have h0 : i ≠ 0 := by rintro rfl; rw [get?_zero] at hf; cases hf
      simp only [intDecodeMinimal_sub hi, Option.map_some, Option.some.injEq, forall_eq', hf,
        misprinted_eq]
      cases hg : codeGet table i with
      | none =>
          refine .inr ⟨decodeHeader_absent hb hi h0 hg, fun h => ?_⟩
          have := h h0
          cases this
      | some g' =>
          have hm := codeGet_some.1 hg
          have hne := makeIndexedHeader_named hn hm.2
          refine .inl ⟨(g'.1, value), .indexedName _ rest1 _ i g' value
            (clientInt_of_minimal hn8 hi) (codeGetName_some.2 ⟨hm.1, hm.2, hne⟩) (hst hv),
            ⟨.inr hne, ht.2⟩, ?_⟩
          simp [h0]
  | newName rest1 rest2 _ name value hi h1 h2 =>
      refine .inl ⟨(name, value), .newName _ rest1 rest2 _ name value
        (clientInt_of_minimal hn8 hi) (hst h1) (hst h2), ht, ?_⟩
      simp [intDecodeMinimal_sub hi]

theorem item_taken [Platform] {table : DynamicTable} (hn : NamedTable table) {max : Nat}
    {t : Table} {bs rest : Bytes} {item : Item}
    (hi : ItemAt intDecodeMinimal t.get? t.get? bs item rest) (ht : ItemTolerant item) :
    Taken table bs rest item (Kept ⟨table.entries, max⟩ ⟨t, bs, item⟩) := by
  unfold Taken Kept
  cases hi with
  | indexed b bs _ i f hb hi hf =>
      have h0 : i ≠ 0 := by rintro rfl; rw [get?_zero] at hf; cases hf
      simp only [fieldIndex, nameIndex, if_pos hb, intDecodeMinimal_sub hi, Option.map_some,
        Option.some.injEq, forall_eq', reduceCtorEq, false_implies, implies_true, and_true, hf,
        misprinted_eq]
      cases hg : codeGet table i with
      | none =>
          refine .inr ⟨decodeHeader_absent (n := 7) (by unfold indexBits; rw [if_pos hb]) hi h0 hg,
            by simp⟩
      | some g =>
          refine .inl ⟨.indexed g, .indexed b bs _ i g hb (clientInt_of_minimal (by omega) hi) hg,
            trivial, by simp [Item.field?], by simp [Item.field?], by simp [Item.field?]⟩
  | sizeUpdate b bs _ m hb hi =>
      refine .inl ⟨.sizeUpdate m, .sizeUpdate b bs _ m hb (clientInt_of_minimal (by omega) hi),
        trivial, by simp [Item.field?], ?_, fun _ => rfl⟩
      simp only [fieldIndex, nameIndex, if_neg (show ¬ 128 ≤ b.toNat by omega),
        if_neg (show ¬ 64 ≤ b.toNat by omega), if_pos hb.1]
      simp
  | incremental b bs _ f hb hl =>
      have hb' : indexBits b = some 6 := by
        unfold indexBits; rw [if_neg (by omega), if_pos hb.1]
      simp only [fieldIndex, nameIndex, if_neg (show ¬ 128 ≤ b.toNat by omega), if_pos hb.1,
        reduceCtorEq, false_implies, implies_true, true_and]
      rcases literal_taken (max := max) hn (by omega) hb' hl ht with ⟨f', h1, h2, h3⟩ | h
      · exact .inl ⟨.incremental f', .incremental b bs _ f' hb h1, h2, by simp [Item.field?],
          by rw [← h3]; simp [Item.field?], by simp [Item.field?]⟩
      · exact .inr h
  | withoutIndexing b bs _ f hb hl =>
      have hb' : indexBits b = some 4 := by
        unfold indexBits; rw [if_neg (by omega), if_neg (by omega), if_neg (by omega)]
      simp only [fieldIndex, nameIndex, if_neg (show ¬ 128 ≤ b.toNat by omega),
        if_neg (show ¬ 64 ≤ b.toNat by omega), if_neg (show ¬ 32 ≤ b.toNat by omega),
        reduceCtorEq, false_implies, implies_true, true_and]
      rcases literal_taken (max := max) hn (by omega) hb' hl ht with ⟨f', h1, h2, h3⟩ | h
      · exact .inl ⟨.withoutIndexing f', .withoutIndexing b bs _ f' hb h1, h2, by simp [Item.field?],
          by rw [← h3]; simp [Item.field?], by simp [Item.field?]⟩
      · exact .inr h
  | neverIndexed b bs _ f hb hl =>
      have hb' : indexBits b = some 4 := by
        unfold indexBits; rw [if_neg (by omega), if_neg (by omega), if_neg (by omega)]
      simp only [fieldIndex, nameIndex, if_neg (show ¬ 128 ≤ b.toNat by omega),
        if_neg (show ¬ 64 ≤ b.toNat by omega), if_neg (show ¬ 32 ≤ b.toNat by omega),
        reduceCtorEq, false_implies, implies_true, true_and]
      rcases literal_taken (max := max) hn (by omega) hb' hl ht with ⟨f', h1, h2, h3⟩ | h
      · exact .inl ⟨.neverIndexed f', .neverIndexed b bs _ f' hb h1, h2, by simp [Item.field?],
          by rw [← h3]; simp [Item.field?], by simp [Item.field?]⟩
      · exact .inr h

theorem option_length {α : Type} {a b : Option α} (h : a.isSome ↔ b.isSome) :
    a.toList.length = b.toList.length := by
  cases a <;> cases b <;> simp at h ⊢

theorem option_toList {α : Type} {a b : Option α} (h : a.toList = b.toList) : a = b := by
  cases a <;> cases b <;> simp at h ⊢
  exact h

theorem headersOf_entryOf_cons (item : Item) (es : HeaderBlock) :
    headersOf (entryOf item :: es) = item.field?.toList ++ headersOf es := by
  cases item <;> rfl

theorem fields_cons_field (item : Item) (items : List Item) :
    fields (item :: items) = item.field?.toList ++ fields items := by
  cases item <;> rfl

/-- C32, exactly. For every block that RFC 7541 gives a meaning and whose integers are in their
shortest form (and below 2^31), the client returns the header list it means if and only if every
reference in it denotes, in the client's table at the start of the block and with the misprint at
index 20, what it denotes in the table the peer means. The peer's table need not be the client's. Missing (false of the code): the references
that are not kept; integers in a longer form; and, as a hypothesis, tables with an entry whose name
is empty. (`ItemTolerant` only matters on platforms where an empty string cannot be formed.) -/
theorem C32_exact_partial [Platform] (table : DynamicTable) (hn : NamedTable table) (max : Nat)
    (peer : Table) (bs : Bytes) (steps : List BlockStep) (t' : Table)
    (h : ShortBlock peer bs steps t') (ht : ∀ s ∈ steps, ItemTolerant s.item) :
    (∃ block, decodeHeaderBlock bs table = .ok block ∧
      headersOf block = fields (steps.map (·.item))) ↔
    ∀ s ∈ steps, Kept ⟨table.entries, max⟩ s := by
  induction h with
  | nil t =>
      simp only [List.map_nil, List.not_mem_nil, false_implies, implies_true, iff_true]
      exact ⟨[], decodeHeaderBlock_nil table, rfl⟩
  | cons t t' bs rest item steps hi _ ih =>
      have hne : bs ≠ [] := by cases hi <;> simp
      have ih := ih (fun s hs => ht s (List.mem_cons_of_mem _ hs))
      rw [List.forall_mem_cons, ← ih, decodeHeaderBlock_eq hne, List.map_cons, fields_cons_field]
      rcases item_taken (max := max) hn hi (ht _ List.mem_cons_self) with
        ⟨item', h1, h2, h3, h4, -⟩ | ⟨h1, h2⟩
      · obtain ⟨g1, -, g3⟩ := decodeHeader_item h1 h2
        rw [g1, Res.ok_bind]
        simp only
        rw [← g3, ← h4]
        constructor
        · rintro ⟨block, hb, hh⟩
          obtain ⟨es, e1, e2⟩ := Res.bind_eq_ok.1 hb
          injection e2 with e2
          subst e2
          rw [headersOf_entryOf_cons] at hh
          obtain ⟨k1, k2⟩ := List.append_inj hh (option_length h3)
          exact ⟨option_toList k1, es, e1, k2⟩
        · rintro ⟨k1, es, e1, k2⟩
          refine ⟨entryOf item' :: es, by rw [e1]; rfl, ?_⟩
          rw [headersOf_entryOf_cons, k1, k2]
      · constructor
        · rintro ⟨block, hb, -⟩
          obtain ⟨r, e1, -⟩ := Res.bind_eq_ok.1 hb
          exact absurd e1 (h1 r)
        · rintro ⟨k1, -⟩
          exact absurd k1 h2

/-- Where every reference is kept, the representations are those of the peer too. -/
theorem kept_decodes [Platform] {table : DynamicTable} (hn : NamedTable table) {max : Nat}
    {bs : Bytes} {steps : List BlockStep} {t t' : Table} (h : ShortBlock t bs steps t')
    (ht : ∀ s ∈ steps, ItemTolerant s.item) (hk : ∀ s ∈ steps, Kept ⟨table.entries, max⟩ s) :
    decodeHeaderBlock bs table = .ok ((steps.map (·.item)).map entryOf) := by
  induction h with
  | nil t => exact decodeHeaderBlock_nil table
  | cons t t' bs rest item steps hi _ ih =>
      have ih := ih (fun s hs => ht s (List.mem_cons_of_mem _ hs))
        (fun s hs => hk s (List.mem_cons_of_mem _ hs))
      have hk0 := hk _ List.mem_cons_self
      rcases item_taken (max := max) hn hi (ht _ List.mem_cons_self) with
        ⟨item', h1, h2, -, h4, h5⟩ | ⟨-, h2⟩
      · obtain rfl := h5 (h4.2 hk0)
        obtain ⟨g1, g2, g3⟩ := decodeHeader_item h1 h2
        refine decodeHeaderBlock_step g1 (by omega) (by omega) ?_
        rw [← g3]
        exact ih
      · exact absurd hk0 h2

/-- A block that is understood: after an insertion, a literal that takes its name from the position
of the new entry, where the old table has another entry of the same name; index 62 is not kept as an
indexed representation there. -/
example : ∃ steps t',
    ShortBlock ⟨oneTable.entries, 4096⟩ [0x40, 1, 97, 1, 50, 0x0f, 47, 1, 51] steps t' ∧
    steps.map (·.item) = [.incremental (bstr "a", bstr "2"), .withoutIndexing (bstr "a", bstr "3")] ∧
    (∀ s ∈ steps, Kept ⟨oneTable.entries, 4096⟩ s) ∧
    ∀ s ∈ steps, s.octets.length = 4 → ¬ Kept ⟨oneTable.entries, 4096⟩ ⟨s.table, [0xbe], s.item⟩ := by
  refine ⟨[⟨⟨oneTable.entries, 4096⟩, [0x40, 1, 97, 1, 50, 0x0f, 47, 1, 51],
      .incremental (bstr "a", bstr "2")⟩,
    ⟨⟨[(bstr "a", bstr "2"), (bstr "a", bstr "1")], 4096⟩, [0x0f, 47, 1, 51],
      .withoutIndexing (bstr "a", bstr "3")⟩],
    ⟨[(bstr "a", bstr "2"), (bstr "a", bstr "1")], 4096⟩, ?_, rfl, ?_, ?_⟩
  · refine .cons _ _ _ [0x0f, 47, 1, 51] _ _ (.incremental _ _ _ _ (by decide) ?_) ?_
    · exact .newName _ [1, 97, 1, 50, 0x0f, 47, 1, 51] [1, 50, 0x0f, 47, 1, 51] [0x0f, 47, 1, 51] _ _
        (by decide) (.plain 1 _ [97] _ (by decide) (by decide))
        (.plain 1 _ [50] _ (by decide) (by decide))
    · refine .cons _ _ _ [] _ _ (.withoutIndexing _ _ _ _ (by decide) ?_) (.nil _)
      exact .indexedName _ [1, 51] [] 62 (bstr "a", bstr "2") _ (by decide) (by decide)
        (.plain 1 _ [51] _ (by decide) (by decide))
  · intro s hs
    rcases List.mem_cons.1 hs with rfl | hs
    · refine ⟨fun i hi => (by cases hi), fun i hi h0 => ?_⟩
      exact absurd (Option.some.inj hi).symm h0
    · obtain rfl := List.mem_singleton.1 hs
      refine ⟨fun i hi => (by cases hi), fun i hi h0 => ?_⟩
      obtain rfl := Option.some.inj hi
      decide
  · intro s hs hl
    rcases List.mem_cons.1 hs with rfl | hs
    · cases hl
    · obtain rfl := List.mem_singleton.1 hs
      intro hk
      exact absurd (hk.1 62 (by decide)) (by decide)

end Mh2c
