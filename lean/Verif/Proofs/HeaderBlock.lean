/-
Helper lemmas: header blocks.
-/
import Verif.Proofs.HeaderEncode

namespace Mh2c

open Rfc

/-! ### The specification is deterministic -/

theorem huffDecodes_unique {enc s1 s2 : Bytes} (h1 : HuffDecodes enc s1) (h2 : HuffDecodes enc s2) :
    s1 = s2 := by
  have g1 := decode_of_rfc h1
  rw [decode_of_rfc h2] at g1
  exact (Res.ok.inj g1).symm

theorem append_length_inj {a b c d : Bytes} (h : a ++ b = c ++ d) (hl : a.length = c.length) :
    a = c ∧ b = d := List.append_inj h hl

theorem StringAt.unique {int : IntReader} {bs s1 s2 r1 r2 : Bytes} (h1 : StringAt int bs s1 r1)
    (h2 : StringAt int bs s2 r2) : s1 = s2 ∧ r1 = r2 := by
  cases h1 with
  | plain b bs d1 _ hb hi =>
      cases h2 with
      | plain _ _ d2 _ hb' hi' =>
          rw [hi] at hi'
          injection hi' with h
          injection h with h3 h4
          exact append_length_inj h4 h3
      | huffman _ _ d2 _ _ hb' hi' hs' => omega
  | huffman b bs d1 _ _ hb hi hs =>
      cases h2 with
      | plain _ _ d2 _ hb' hi' => omega
      | huffman _ _ d2 _ _ hb' hi' hs' =>
          rw [hi] at hi'
          injection hi' with h
          injection h with h3 h4
          obtain ⟨rfl, rfl⟩ := append_length_inj h4 h3
          exact ⟨huffDecodes_unique hs hs', rfl⟩

theorem LiteralAt.unique {int : IntReader} {get : Nat → Option Field} (h0 : get 0 = none) {n : Nat}
    {bs r1 r2 : Bytes} {f1 f2 : Field} (h1 : LiteralAt int get n bs f1 r1)
    (h2 : LiteralAt int get n bs f2 r2) : f1 = f2 ∧ r1 = r2 := by
  cases h1 with
  | indexedName a1 _ i g value hi hf hv =>
      cases h2 with
      | indexedName a2 _ i' g' value' hi' hf' hv' =>
          rw [hi] at hi'
          injection hi' with h
          injection h with h3 h4
          subst h3 h4
          rw [hf] at hf'
          injection hf' with h5
          subst h5
          obtain ⟨rfl, rfl⟩ := StringAt.unique hv hv'
          exact ⟨rfl, rfl⟩
      | newName a2 b2 _ name' value' hi' hn' hv' =>
          rw [hi] at hi'
          injection hi' with h
          injection h with h3 h4
          rw [h3, h0] at hf
          cases hf
  | newName a1 b1 _ name value hi hn hv =>
      cases h2 with
      | indexedName a2 _ i' g' value' hi' hf' hv' =>
          rw [hi] at hi'
          injection hi' with h
          injection h with h3 h4
          rw [← h3, h0] at hf'
          cases hf'
      | newName a2 b2 _ name' value' hi' hn' hv' =>
          rw [hi] at hi'
          injection hi' with h
          injection h with h3 h4
          subst h4
          obtain ⟨rfl, rfl⟩ := StringAt.unique hn hn'
          obtain ⟨rfl, rfl⟩ := StringAt.unique hv hv'
          exact ⟨rfl, rfl⟩

theorem ItemAt.unique {int : IntReader} {get getName : Nat → Option Field} (h0 : getName 0 = none)
    {bs r1 r2 : Bytes} {i1 i2 : Item} (h1 : ItemAt int get getName bs i1 r1)
    (h2 : ItemAt int get getName bs i2 r2) : i1 = i2 ∧ r1 = r2 := by
  cases h1 with
  | indexed b bs _ i f hb hi hf =>
      cases h2 with
      | indexed _ _ _ i' f' hb' hi' hf' =>
          rw [hi] at hi'
          injection hi' with h
          injection h with h3 h4
          subst h3 h4
          rw [hf] at hf'
          injection hf' with h5
          subst h5
          exact ⟨rfl, rfl⟩
      | incremental _ _ _ f' hb' hl' => omega
      | sizeUpdate _ _ _ n' hb' hi' => omega
      | neverIndexed _ _ _ f' hb' hl' => omega
      | withoutIndexing _ _ _ f' hb' hl' => omega
  | incremental b bs _ f hb hl =>
      cases h2 with
      | indexed _ _ _ i' f' hb' hi' hf' => omega
      | incremental _ _ _ f' hb' hl' =>
          obtain ⟨rfl, rfl⟩ := LiteralAt.unique h0 hl hl'; exact ⟨rfl, rfl⟩
      | sizeUpdate _ _ _ n' hb' hi' => omega
      | neverIndexed _ _ _ f' hb' hl' => omega
      | withoutIndexing _ _ _ f' hb' hl' => omega
  | sizeUpdate b bs _ n hb hi =>
      cases h2 with
      | indexed _ _ _ i' f' hb' hi' hf' => omega
      | incremental _ _ _ f' hb' hl' => omega
      | sizeUpdate _ _ _ n' hb' hi' =>
          rw [hi] at hi'
          injection hi' with h
          injection h with h3 h4
          subst h3 h4
          exact ⟨rfl, rfl⟩
      | neverIndexed _ _ _ f' hb' hl' => omega
      | withoutIndexing _ _ _ f' hb' hl' => omega
  | neverIndexed b bs _ f hb hl =>
      cases h2 with
      | indexed _ _ _ i' f' hb' hi' hf' => omega
      | incremental _ _ _ f' hb' hl' => omega
      | sizeUpdate _ _ _ n' hb' hi' => omega
      | neverIndexed _ _ _ f' hb' hl' =>
          obtain ⟨rfl, rfl⟩ := LiteralAt.unique h0 hl hl'; exact ⟨rfl, rfl⟩
      | withoutIndexing _ _ _ f' hb' hl' => omega
  | withoutIndexing b bs _ f hb hl =>
      cases h2 with
      | indexed _ _ _ i' f' hb' hi' hf' => omega
      | incremental _ _ _ f' hb' hl' => omega
      | sizeUpdate _ _ _ n' hb' hi' => omega
      | neverIndexed _ _ _ f' hb' hl' => omega
      | withoutIndexing _ _ _ f' hb' hl' =>
          obtain ⟨rfl, rfl⟩ := LiteralAt.unique h0 hl hl'; exact ⟨rfl, rfl⟩

theorem itemAt_ne_nil {int : IntReader} {get getName : Nat → Option Field} {item : Item} {r : Bytes} :
    ¬ ItemAt int get getName [] item r := by
  intro h; cases h

theorem get?_zero (t : Table) : t.get? 0 = none := by simp [Table.get?]

/-- A conforming decoder has at most one way to read a block. -/
theorem BlockDecodes.unique {t t1 t2 : Table} {bs : Bytes} {i1 i2 : List Item}
    (h1 : BlockDecodes t bs i1 t1) (h2 : BlockDecodes t bs i2 t2) : i1 = i2 ∧ t1 = t2 := by
  induction h1 generalizing i2 t2 with
  | nil t =>
      cases h2 with
      | nil => exact ⟨rfl, rfl⟩
      | cons _ _ _ rest item items hi hr => exact absurd hi itemAt_ne_nil
  | cons t t' bs rest item items hi hr ih =>
      cases h2 with
      | nil => exact absurd hi itemAt_ne_nil
      | cons _ _ _ rest' item' items' hi' hr' =>
          obtain ⟨rfl, rfl⟩ := ItemAt.unique (get?_zero t) hi hi'
          obtain ⟨rfl, rfl⟩ := ih hr'
          exact ⟨rfl, rfl⟩

/-! ### Encoding one entry -/

theorem sentAs_wellTyped {table : DynamicTable} {e : HeaderEntry} {item : Item}
    (h : SentAs table e item) : WellTyped e := by
  cases h with
  | size n => exact Or.inl ⟨rfl, n, rfl⟩
  | hit p h hp hh => exact Or.inr ⟨hp, h, rfl⟩
  | incremental h hh => exact Or.inr ⟨by simp, h, rfl⟩
  | withoutIndexing h hh => exact Or.inr ⟨by simp, h, rfl⟩
  | neverIndexed h hh => exact Or.inr ⟨by simp, h, rfl⟩

/-- Bounds under which a reader understands an item written by the encoder. -/
def ItemBound (B : Nat → Nat → Prop) (mode : EncodeMode) : Item → Prop
  | .sizeUpdate n => B 5 n
  | .indexed _ => True
  | .incremental f | .withoutIndexing f | .neverIndexed f =>
      B 7 (wireLength f.1 mode) ∧ B 7 (wireLength f.2 mode)

/-- Writing one entry gives a representation of it for any reader that agrees on the tables. -/
theorem encodeHeader_item {int : IntReader} {B : Nat → Nat → Prop} (hint : Understands int B)
    {get getName : Nat → Option Field} {table : DynamicTable} {e : HeaderEntry} {item : Item}
    {mode : EncodeMode} (hs : SentAs table e item) (hB : ItemBound B mode item)
    (hB0 : ∀ n i, 4 ≤ n → i ≤ 61 → B n i)
    (hhit : ∀ h i, e.entry = .header h → hitIndex h table = some i → B 7 i ∧ get i = some h)
    (hname : ∀ h i, e.entry = .header h → ¬ InTables h table →
      staticTableEntries.lookup i = some (h.1, []) → getName i = some (h.1, [])) :
    ∃ bytes, encodeHeader e mode table = .ok bytes ∧ bytes ≠ [] ∧
      ∀ rest, ItemAt int get getName (bytes ++ rest) item rest := by
  have lit : ∀ p h, IsLiteral p → ¬ InTables h table → e = ⟨p, .header h⟩ →
      B 7 (wireLength h.1 mode) ∧ B 7 (wireLength h.2 mode) →
      ∃ bytes, encodeHeader e mode table = .ok bytes ∧ bytes ≠ [] ∧
        ∀ rest, ItemAt int get getName (bytes ++ rest) (literalItem p h) rest := by
    rintro p h hp hh rfl ⟨b1, b2⟩
    rw [encodeHeader_header (by rcases hp with rfl | rfl | rfl <;> decide), hitIndex_none.2 hh]
    exact item_literal hint get hp
      (fun i hi => hB0 _ i (by rcases hp with rfl | rfl | rfl <;> decide) hi) b1 b2
      (fun i hi => hname h i rfl hh hi)
  cases hs with
  | size n =>
      refine ⟨_, encodeHeader_size n mode table, ?_, item_size hint get getName hB⟩
      intro hc
      have := intEnc_length 5 n HeaderPrefix.sizeUpdate.value
      rw [hc] at this
      exact encodeIntegerValue_ne_nil 5 n (List.length_eq_zero_iff.1 this.symm)
  | hit p h hp hh =>
      cases hi : hitIndex h table with
      | none => exact absurd hh (hitIndex_none.1 hi)
      | some i =>
          obtain ⟨b1, b2⟩ := hhit h i rfl hi
          refine ⟨intEnc 7 i HeaderPrefix.indexed.value, ?_, ?_, item_indexed hint getName b1 b2⟩
          · rw [encodeHeader_header hp, hi]
          · intro hc
            have := intEnc_length 7 i HeaderPrefix.indexed.value
            rw [hc] at this
            exact encodeIntegerValue_ne_nil 7 i (List.length_eq_zero_iff.1 this.symm)
  | incremental h hh => exact lit _ h (Or.inl rfl) hh rfl hB
  | withoutIndexing h hh => exact lit _ h (Or.inr (Or.inl rfl)) hh rfl hB
  | neverIndexed h hh => exact lit _ h (Or.inr (Or.inr rfl)) hh rfl hB

/-- Own dialect. -/
theorem encodeHeader_client [P : Platform] {table : DynamicTable} {e : HeaderEntry} {item : Item}
    {mode : EncodeMode} (hs : SentAs table e item) (hr : ItemReadable mode item)
    (hl : table.entries.length ≤ 2 ^ 31 + 65) :
    ∃ bytes, encodeHeader e mode table = .ok bytes ∧ bytes ≠ [] ∧
      ∀ rest, decodeHeader (bytes ++ rest) table = .ok (entryOf item, bytes.length) := by
  have ht : ItemTolerant item := by
    cases item <;> first | trivial | exact ⟨hr.2.2.1, hr.2.2.2⟩
  obtain ⟨bytes, h1, h2, h3⟩ := encodeHeader_item (get := codeGet table)
    (getName := codeGetName table) understands_client hs (mode := mode)
    (by
      cases item with
      | sizeUpdate n => show n < 2 ^ 5 - 1 + 2 ^ 31; have : n < 2 ^ 31 + 31 := hr; omega
      | indexed f => trivial
      | incremental f | withoutIndexing f | neverIndexed f =>
          have g1 : wireLength f.1 mode < 2 ^ 31 + 127 := hr.1
          have g2 : wireLength f.2 mode < 2 ^ 31 + 127 := hr.2.1
          exact ⟨by show _ < 2 ^ 7 - 1 + 2 ^ 31; omega, by show _ < 2 ^ 7 - 1 + 2 ^ 31; omega⟩)
    (by
      intro n i hn hi
      have := Nat.two_pow_pos n
      show i < 2 ^ n - 1 + 2 ^ 31
      omega)
    (by
      intro h i _ hi
      refine ⟨?_, codeGet_some.2 (makeIndexedHeader_hit hi)⟩
      show i < 2 ^ 7 - 1 + 2 ^ 31
      rcases hitIndex_some hi with ⟨-, h2, -⟩ | ⟨h1, h2, -⟩
      · omega
      · have := (List.getElem?_eq_some_iff.1 h2).1
        omega)
    (fun h i _ _ hi => codeGetName_static table i _ hi)
  refine ⟨bytes, h1, h2, fun rest => ?_⟩
  obtain ⟨g1, -⟩ := decodeHeader_item (h3 rest) ht
  rw [g1, List.length_append]
  congr 2
  omega

/-! ### Blocks -/

theorem encodeHeaderBlock_nil (mode : EncodeMode) (table : DynamicTable) :
    encodeHeaderBlock [] mode table = .ok [] := rfl

theorem encodeHeaderBlock_cons {e : HeaderEntry} {es : HeaderBlock} {mode : EncodeMode}
    {table : DynamicTable} {a b : Bytes} (h1 : encodeHeader e mode table = .ok a)
    (h2 : encodeHeaderBlock es mode table = .ok b) :
    encodeHeaderBlock (e :: es) mode table = .ok (a ++ b) := by
  rw [encodeHeaderBlock, h1, Res.ok_bind, h2, Res.ok_bind]; rfl

theorem decodeHeaderBlock_nil [Platform] (table : DynamicTable) :
    decodeHeaderBlock [] table = .ok [] := by
  rw [decodeHeaderBlock]; rfl

theorem decodeHeaderBlock_step [Platform] {data : Bytes} {table : DynamicTable} {e : HeaderEntry}
    {n : Nat} {es : HeaderBlock} (h : decodeHeader data table = .ok (e, n)) (h1 : 1 ≤ n)
    (h2 : n ≤ data.length) (h3 : decodeHeaderBlock (data.drop n) table = .ok es) :
    decodeHeaderBlock data table = .ok (e :: es) := by
  rw [decodeHeaderBlock, if_pos (by omega), h]
  simp only
  rw [if_neg (by omega), if_pos (by omega), h3]
  rfl

theorem block_round_trip [P : Platform] {table : DynamicTable} {mode : EncodeMode}
    (hl : table.entries.length ≤ 2 ^ 31 + 65) {block : HeaderBlock} {items : List Item}
    (hs : List.Forall₂ (SentAs table) block items) (hr : ∀ item ∈ items, ItemReadable mode item) :
    ∃ bytes, encodeHeaderBlock block mode table = .ok bytes ∧
      decodeHeaderBlock bytes table = .ok (items.map entryOf) := by
  induction hs with
  | nil => exact ⟨[], rfl, decodeHeaderBlock_nil table⟩
  | @cons e item es is he _ ih =>
      obtain ⟨b, h1, h2⟩ := ih (fun i hi => hr i (List.mem_cons_of_mem _ hi))
      obtain ⟨a, g1, g2, g3⟩ := encodeHeader_client he (hr item List.mem_cons_self) hl
      refine ⟨a ++ b, encodeHeaderBlock_cons g1 h1, ?_⟩
      refine decodeHeaderBlock_step (g3 b) (List.length_pos_iff.2 g2) (by simp) ?_
      rw [List.drop_left]
      exact h2

end Mh2c
