/-
C31: exactly which single headers, and which blocks, reach an RFC 7541 peer.
-/
import Verif.Props.HeaderCodec
import Verif.Props.HeaderRfc

namespace Mh2c

open Rfc

/-- What a peer makes of something that starts like an indexed representation. -/
theorem indexed_start {t : Table} {i : Nat} {tail rest : Bytes} {item : Item}
    (h : ItemAt intDecode t.get? t.get? (intEnc 7 i HeaderPrefix.indexed.value ++ tail) item rest) :
    ∃ f, t.get? i = some f ∧ item = .indexed f ∧ rest = tail := by
  have hm := value_mod .indexed
  have hi := understands_rfc 7 i HeaderPrefix.indexed.value tail (by omega) hm trivial
  obtain ⟨b, bs, hc, hb⟩ := intEnc_cons (n := 7) (by omega) i hm
  have hb' : b.toNat = 128 + min i 127 := by rw [hb]; rfl
  rw [hc, List.cons_append] at hi h
  cases h with
  | indexed _ _ _ j f hb2 hj hf =>
      rw [hi] at hj
      injection hj with hj
      injection hj with h1 h2
      subst h1 h2
      exact ⟨f, hf, rfl, rfl⟩
  | incremental _ _ _ f hb2 hl => omega
  | sizeUpdate _ _ _ n hb2 hj => omega
  | neverIndexed _ _ _ f hb2 hl => omega
  | withoutIndexing _ _ _ f hb2 hl => omega

theorem get?_20 (t : Table) : t.get? 20 = some (ascii "access-control-allow-origin", []) := by
  unfold Table.get?
  rw [if_neg (by decide), if_pos (by decide)]
  decide +kernel

theorem literal_20 {t : Table} {n : Nat} (hn : n ≤ 8) {hi : UInt8} (hm : hi.toNat % 2 ^ n = 0)
    {tail rest : Bytes} {f : Field} (h : LiteralAt intDecode t.get? n (intEnc n 20 hi ++ tail) f rest) :
    f.1 = ascii "access-control-allow-origin" := by
  have hd := understands_rfc n 20 hi tail hn hm trivial
  cases h with
  | indexedName r1 _ j g value hj hg hv =>
      rw [hd] at hj
      injection hj with hj
      injection hj with h1 _
      subst h1
      rw [get?_20] at hg
      rw [← Option.some.inj hg]
  | newName r1 r2 _ name value hj hn' hv =>
      rw [hd] at hj
      injection hj with hj
      injection hj with h1 _
      omega

/-- What a peer makes of something that starts like a literal that names entry 20. -/
theorem literal_start {t : Table} {p : HeaderPrefix} (hp : IsLiteral p)
    {tail rest : Bytes} {item : Item}
    (h : ItemAt intDecode t.get? t.get? (intEnc (nbits p) 20 p.value ++ tail) item rest) :
    ∃ f, item.field? = some f ∧ f.1 = ascii "access-control-allow-origin" := by
  have hm := value_mod p
  have hl20 : ∀ f, LiteralAt intDecode t.get? (nbits p) (intEnc (nbits p) 20 p.value ++ tail) f rest →
      f.1 = ascii "access-control-allow-origin" := fun f h => literal_20 (nbits_le p) hm h
  obtain ⟨b, bs, hc, hb⟩ := intEnc_cons (n := nbits p) (nbits_le p) 20 hm
  rw [hc, List.cons_append] at h hl20
  rcases hp with rfl | rfl | rfl
  · have hb' : b.toNat = 64 + 20 := by rw [hb]; rfl
    cases h with
    | indexed _ _ _ j f hb2 hj hf => omega
    | incremental _ _ _ f hb2 hl => exact ⟨f, rfl, hl20 f hl⟩
    | sizeUpdate _ _ _ n hb2 hj => omega
    | neverIndexed _ _ _ f hb2 hl => omega
    | withoutIndexing _ _ _ f hb2 hl => omega
  · have hb' : b.toNat = 15 := by rw [hb]; rfl
    cases h with
    | indexed _ _ _ j f hb2 hj hf => omega
    | incremental _ _ _ f hb2 hl => omega
    | sizeUpdate _ _ _ n hb2 hj => omega
    | neverIndexed _ _ _ f hb2 hl => omega
    | withoutIndexing _ _ _ f hb2 hl => exact ⟨f, rfl, hl20 f hl⟩
  · have hb' : b.toNat = 31 := by rw [hb]; rfl
    cases h with
    | indexed _ _ _ j f hb2 hj hf => omega
    | incremental _ _ _ f hb2 hl => omega
    | sizeUpdate _ _ _ n hb2 hj => omega
    | neverIndexed _ _ _ f hb2 hl => exact ⟨f, rfl, hl20 f hl⟩
    | withoutIndexing _ _ _ f hb2 hl => omega

theorem encodeHeaderValue_nil (mode : EncodeMode) :
    ∃ b, encodeHeaderValue [] mode = .ok [b] ∧ (b = 0 ∨ b = 0x80) := by
  cases mode
  · exact ⟨0, by decide +kernel, Or.inl rfl⟩
  · exact ⟨0x80, by decide +kernel, Or.inr rfl⟩

/-- Neither of these octets is a header block. -/
theorem one_octet {t t' : Table} {b : UInt8} {items : List Item} (hb : b = 0 ∨ b = 0x80)
    (h : BlockDecodes t [b] items t') : False := by
  have nostr : ∀ s rest, ¬ StringAt intDecode [] s rest := by
    intro s rest h
    cases h
  have nolit : ∀ f rest, ¬ LiteralAt intDecode t.get? 4 [0] f rest := by
    intro f rest h
    have h0 : intDecode 4 [0] = some (0, []) := by decide
    cases h with
    | indexedName r1 _ j g value hj hg hv =>
        rw [h0] at hj
        injection hj with hj
        injection hj with _ h2
        subst h2
        exact nostr _ _ hv
    | newName r1 r2 _ name value hj hn hv =>
        rw [h0] at hj
        injection hj with hj
        injection hj with _ h2
        subst h2
        exact nostr _ _ hn
  cases h with
  | cons _ _ _ rest item is hi hr =>
      rcases hb with rfl | rfl
      · cases hi with
        | indexed _ _ _ j f hb2 hj hf => exact absurd hb2 (by decide)
        | incremental _ _ _ f hb2 hl => exact absurd hb2 (by decide)
        | sizeUpdate _ _ _ n hb2 hj => exact absurd hb2 (by decide)
        | neverIndexed _ _ _ f hb2 hl => exact absurd hb2 (by decide)
        | withoutIndexing _ _ _ f hb2 hl => exact nolit _ _ hl
      · cases hi with
        | indexed _ _ _ j f hb2 hj hf =>
            have h0 : intDecode 7 [0x80] = some (0, []) := by decide
            rw [h0] at hj
            injection hj with hj
            injection hj with h1 _
            rw [← h1, get?_zero] at hf
            cases hf
        | incremental _ _ _ f hb2 hl => exact absurd hb2 (by decide)
        | sizeUpdate _ _ _ n hb2 hj => exact absurd hb2 (by decide)
        | neverIndexed _ _ _ f hb2 hl => exact absurd hb2 (by decide)
        | withoutIndexing _ _ _ f hb2 hl => exact absurd hb2 (by decide)

/-- INDEXED for a header that is in no table does not arrive. -/
theorem indexed_miss {t : Table} {h : Header} {mode : EncodeMode} {bytes : Bytes}
    {items : List Item} {t' : Table} (henc : encodeLiteral .indexed h mode = .ok bytes)
    (hd : BlockDecodes t bytes items t') : fields items ≠ [h] := by
  obtain ⟨d2, v1, -, v3, v4⟩ := encodeHeaderValue_spec h.2 mode
  obtain ⟨d1, -, n2, n3, n4⟩ := encodeHeaderValue_spec h.1 mode
  unfold encodeLiteral at henc
  cases hr : reverseStaticTableEntries.lookup (h.1, []) with
  | none =>
      rw [hr] at henc
      simp only at henc
      rw [encodeIndex_eq (by decide), Res.ok_bind, n2, Res.ok_bind, v1, Res.ok_bind, Res.pure_eq,
        List.append_assoc] at henc
      obtain rfl := Res.ok.inj henc
      generalize hb : intEnc (nbits .indexed) 0 HeaderPrefix.indexed.value ++ _ = bytes at hd
      cases hd with
      | nil => simp [fields]
      | cons _ _ _ rest item is hi hr' =>
          rw [← hb] at hi
          obtain ⟨f, hf, -⟩ := indexed_start hi
          rw [get?_zero] at hf
          cases hf
  | some idx =>
      rw [hr] at henc
      simp only at henc
      rw [encodeIndex_eq (by decide), Res.ok_bind, v1, Res.ok_bind, Res.pure_eq] at henc
      obtain rfl := Res.ok.inj henc
      have hs := (staticTable_inverse _ _).1 hr
      generalize hb : intEnc (nbits .indexed) idx HeaderPrefix.indexed.value ++ _ = bytes at hd
      cases hd with
      | nil => simp [fields]
      | cons _ _ _ rest item is hi hr' =>
          rw [← hb] at hi
          obtain ⟨f, hf, rfl, rfl⟩ := indexed_start hi
          intro hfs
          have hfs' : f :: fields is = [h] := hfs
          injection hfs' with hfh hnone
          have hval : h.2 = [] := by
            by_cases h20 : idx = 20
            · subst h20
              rw [get?_20] at hf
              rw [← hfh, ← Option.some.inj hf]
            · rw [static_get? hs h20] at hf
              rw [← hfh, ← Option.some.inj hf]
          rw [hval] at v1
          obtain ⟨b, hb1, hb2⟩ := encodeHeaderValue_nil mode
          rw [hb1] at v1
          rw [← Res.ok.inj v1] at hr'
          exact one_octet hb2 hr'

/-- C31, exactly, for a single header or size update. Missing: blocks of several entries, for which
`C31_peer_decodes_partial` gives a sufficient condition.

A conforming decoder that holds the same table decodes what is sent for the entry as exactly the
given header (or as no header, for a size update) if and only if the header is in a table, or the
prefix is not INDEXED and the name is not the mistyped one. -/
theorem C31_one_entry_partial (table : DynamicTable) (mode : EncodeMode) (e : HeaderEntry)
    (htyped : WellTyped e) (bytes : Bytes) (henc : encodeHeaderBlock [e] mode table = .ok bytes) :
    (∃ items t', BlockDecodes ⟨table.entries, table.maxTableSize⟩ bytes items t' ∧
      fields items = headersOf [e]) ↔
    ∀ h, e.entry = .header h →
      InTables h table ∨ (e.pfx ≠ .indexed ∧ h.1 ≠ bstr "accept-control-allow-origin") := by
  constructor
  · rintro ⟨items, t', hd, hf⟩ h he
    by_contra hc
    rw [not_or] at hc
    obtain ⟨hmiss, hc⟩ := hc
    obtain ⟨p, x⟩ := e
    simp only at he hc
    subst he
    have hp : p ≠ .sizeUpdate := by
      rcases htyped with ⟨-, n, hn⟩ | ⟨hp, -⟩
      · cases hn
      · exact hp
    have henc' : encodeLiteral p h mode = .ok bytes := by
      rw [encodeHeaderBlock, encodeHeader_header hp, hitIndex_none.2 hmiss] at henc
      simp only at henc
      obtain ⟨b, h1, h2⟩ := Res.bind_eq_ok.1 henc
      simp only [encodeHeaderBlock, Res.ok_bind, Res.pure_eq, List.append_nil] at h2
      rw [h1, h2]
    have hf' : fields items = [h] := hf
    by_cases hpi : p = .indexed
    · subst hpi
      exact indexed_miss henc' hd hf'
    · have hname : h.1 = mistypedName := by
        by_contra hn
        exact hc ⟨hpi, hn⟩
      have hlit : IsLiteral p := by
        cases p with
        | indexed => exact absurd rfl hpi
        | sizeUpdate => exact absurd rfl hp
        | incrementalIndexing => exact Or.inl rfl
        | withoutIndexing => exact Or.inr (Or.inl rfl)
        | neverIndexed => exact Or.inr (Or.inr rfl)
      obtain ⟨d2, v1, -, v3, v4⟩ := encodeHeaderValue_spec h.2 mode
      have h20 : reverseStaticTableEntries.lookup (h.1, []) = some 20 := by
        rw [hname]
        decide +kernel
      unfold encodeLiteral at henc'
      rw [h20] at henc'
      simp only at henc'
      rw [encodeIndex_eq hp, Res.ok_bind, v1, Res.ok_bind, Res.pure_eq] at henc'
      obtain rfl := Res.ok.inj henc'
      generalize hb : intEnc (nbits p) 20 p.value ++ _ = bytes at hd
      cases hd with
      | nil => simp [fields] at hf'
      | cons _ _ _ rest item is hi hr' =>
          rw [← hb] at hi
          obtain ⟨f, hf1, hf2⟩ := literal_start hlit hi
          have : f :: fields is = [h] := by
            rw [← hf']
            unfold fields
            rw [List.filterMap_cons_some hf1]
          injection this with hfh _
          rw [hfh, hname] at hf2
          revert hf2
          decide +kernel
  · intro hall
    obtain ⟨bytes', items, t', h1, h2, -, h4, -⟩ := C31_peer_decodes_partial table mode [e]
      (fun e' he' => by rw [List.mem_singleton.1 he']; exact htyped)
      (fun e' he' hp h hh => by
        rw [List.mem_singleton.1 he'] at hp hh
        exact (hall h hh).resolve_right fun hc => hc.1 hp)
      (fun e' he' h hh hm => by
        rw [List.mem_singleton.1 he'] at hh
        exact ((hall h hh).resolve_left hm).2)
      (List.pairwise_singleton _ _)
    rw [henc] at h1
    obtain rfl := Res.ok.inj h1
    exact ⟨items, t', h2, h4⟩

/-- An entry on each side. -/
example : WellTyped ⟨.neverIndexed, .header (bstr "cookie", bstr "a=b")⟩ ∧
    encodeHeaderBlock [⟨.neverIndexed, .header (bstr "cookie", bstr "a=b")⟩] .none .default =
      .ok [0x1f, 17, 3, 97, 61, 98] ∧
    WellTyped ⟨.indexed, .header (bstr "cookie", [])⟩ ∧
    encodeHeaderBlock [⟨.indexed, .header (bstr "cookie", [])⟩] .none .default = .ok [0xa0, 0] :=
  ⟨Or.inr ⟨by decide, _, rfl⟩, by decide +kernel, Or.inr ⟨by decide, _, rfl⟩, by decide +kernel⟩

/-! ### Blocks of several entries -/

theorem findIndex_idxOf {h : Header} {es : List Header} {j : Nat} (hf : findIndex h es = some j) :
    es.idxOf h = j := by
  induction es generalizing j with
  | nil => cases hf
  | cons e es ih =>
      unfold findIndex at hf
      split at hf
      · rename_i he
        subst he
        rw [List.idxOf_cons_self]
        exact Option.some.inj hf
      · rename_i he
        obtain ⟨j', hj, rfl⟩ := Option.map_eq_some_iff.1 hf
        rw [List.idxOf_cons_ne _ he, ih hj]

/-- An entry that is only in the dynamic table is sent as its position there. -/
theorem encodeHeader_dynamic {table : DynamicTable} {p : HeaderPrefix} (hp : p ≠ .sizeUpdate)
    {h : Header} (hd : HitsDynamic table ⟨p, .header h⟩) (mode : EncodeMode) :
    encodeHeader ⟨p, .header h⟩ mode table =
      .ok (intEnc 7 (62 + table.entries.idxOf h) HeaderPrefix.indexed.value) := by
  obtain ⟨h', he, hm, hs⟩ := hd
  injection he with he
  subst he
  have hhit : hitIndex h table = some (62 + table.entries.idxOf h) := by
    have hf : (findIndex h table.entries).map (62 + ·) = some (62 + table.entries.idxOf h) := by
      cases hf : findIndex h table.entries with
      | none => exact absurd hm (findIndex_none.1 hf)
      | some j => rw [findIndex_idxOf hf]; rfl
    unfold hitIndex
    cases hr : reverseStaticTableEntries.lookup h with
    | none => exact hf
    | some idx =>
        simp only
        rw [if_neg]
        · exact hf
        · intro hv
          exact hs ⟨List.length_pos_iff.1 hv, idx, (staticTable_inverse h idx).1 hr⟩
  rw [encodeHeader_header hp, hhit]

/-- Wherever the client sends a position in its dynamic table, the peer has the header there. -/
def StillThere (table : DynamicTable) : Table → HeaderBlock → List Item → Prop
  | t, e :: es, i :: is =>
      (∀ h, e.entry = .header h → HitsDynamic table e →
        t.entries[table.entries.idxOf h]? = some h) ∧ StillThere table (i.apply t) es is
  | _, _, _ => True

theorem stillThere_iff {table : DynamicTable} {block : HeaderBlock} {items : List Item}
    (hl : block.length = items.length) (t : Table) :
    StillThere table t block items ↔
      ∀ k e h, block[k]? = some e → e.entry = .header h → HitsDynamic table e →
        ((items.take k).foldl Item.apply t).entries[table.entries.idxOf h]? = some h := by
  induction block generalizing items t with
  | nil =>
      cases items with
      | nil => exact ⟨fun _ k e h hk => by simp at hk, fun _ => trivial⟩
      | cons i is => cases hl
  | cons e es ih =>
      cases items with
      | nil => cases hl
      | cons i is =>
          rw [StillThere, ih (Nat.succ.inj hl)]
          constructor
          · rintro ⟨h1, h2⟩ k e' h hk
            cases k with
            | zero =>
                obtain rfl := Option.some.inj hk
                exact h1 h
            | succ k => exact h2 k e' h hk
          · intro hall
            exact ⟨fun h => hall 0 e h rfl, fun k e' h hk => hall (k + 1) e' h hk⟩

theorem block_exact {table : DynamicTable} {mode : EncodeMode} {block : HeaderBlock}
    {items : List Item} (hs : List.Forall₂ (SentAs table) block items)
    (hn : ∀ e ∈ block, ∀ h, e.entry = .header h → ¬ InTables h table → h.1 ≠ mistypedName)
    (t : Table) (bytes : Bytes) (henc : encodeHeaderBlock block mode table = .ok bytes) :
    (∃ items' t', BlockDecodes t bytes items' t' ∧ fields items' = headersOf block) ↔
      StillThere table t block items := by
  induction hs generalizing t bytes with
  | nil =>
      obtain rfl := Res.ok.inj henc
      exact ⟨fun _ => trivial, fun _ => ⟨[], t, .nil t, rfl⟩⟩
  | @cons e item es is he hes ih =>
      rw [encodeHeaderBlock] at henc
      obtain ⟨a, ha, henc⟩ := Res.bind_eq_ok.1 henc
      obtain ⟨b, hb, henc⟩ := Res.bind_eq_ok.1 henc
      obtain rfl := Res.ok.inj henc
      have ih' := fun t => ih (fun e' he' => hn e' (List.mem_cons_of_mem _ he')) t b hb
      rw [StillThere]
      by_cases hd : HitsDynamic table e
      · obtain ⟨h, hh, hm, hns⟩ := id hd
        have : ∃ p, p ≠ .sizeUpdate ∧ e = ⟨p, .header h⟩ ∧ item = .indexed h := by
          cases he with
          | size n => cases hh
          | hit p h' hp hh' =>
              injection hh with hh
              subst hh
              exact ⟨p, hp, rfl, rfl⟩
          | incremental h' hh' =>
              injection hh with hh
              subst hh
              exact absurd (Or.inr hm) hh'
          | withoutIndexing h' hh' =>
              injection hh with hh
              subst hh
              exact absurd (Or.inr hm) hh'
          | neverIndexed h' hh' =>
              injection hh with hh
              subst hh
              exact absurd (Or.inr hm) hh'
        obtain ⟨p, hp, rfl, rfl⟩ := this
        rw [encodeHeader_dynamic hp hd] at ha
        obtain rfl := Res.ok.inj ha
        have hget : t.get? (62 + table.entries.idxOf h) = t.entries[table.entries.idxOf h]? := by
          unfold Table.get?
          rw [if_neg (by omega), if_neg (by omega), Nat.add_sub_cancel_left]
        constructor
        · rintro ⟨items', t', hdec, hf⟩
          generalize hbs : intEnc 7 _ _ ++ b = bytes at hdec
          cases hdec with
          | nil => simp [fields, headersOf] at hf
          | cons _ _ _ rest item is' hi hr =>
              rw [← hbs] at hi
              obtain ⟨f, hf1, rfl, rfl⟩ := indexed_start hi
              have hf' : f :: fields is' = h :: headersOf es := hf
              injection hf' with h1 h2
              subst h1
              rw [hget] at hf1
              refine ⟨?_, (ih' _).1 ⟨is', t', hr, h2⟩⟩
              intro h' hh' _
              injection hh' with hh'
              subst hh'
              exact hf1
        · rintro ⟨h1, h2⟩
          obtain ⟨is', t', hr, hf⟩ := (ih' _).2 h2
          refine ⟨.indexed h :: is', t', .cons t t' _ b _ is' ?_ hr, ?_⟩
          · exact item_indexed understands_rfc _ trivial (by rw [hget]; exact h1 h rfl hd) b
          · show h :: fields is' = h :: headersOf es
            rw [hf]
      · obtain ⟨a', g1, g2, g3⟩ := encodeHeader_rfc (t := t) (mode := mode) he
          (hn e List.mem_cons_self) (Or.inr hd)
        rw [ha] at g1
        obtain rfl := Res.ok.inj g1
        have hcons : ∀ is', fields is' = headersOf es ↔
            fields (item :: is') = headersOf (e :: es) := by
          intro is'
          have h1 : fields (item :: is') = fields [item] ++ fields is' := by
            unfold fields
            rw [← List.filterMap_append]
            rfl
          have h2 : headersOf (e :: es) = headersOf [e] ++ headersOf es := by
            unfold headersOf
            rw [← List.filterMap_append]
            rfl
          have h3 : fields [item] = headersOf [e] := fields_of_sentAs (.cons he .nil)
          rw [h1, h2, h3, List.append_cancel_left_eq]
        constructor
        · rintro ⟨items', t', hdec, hf⟩
          generalize hbs : a ++ b = bytes at hdec
          cases hdec with
          | nil => exact absurd (List.append_eq_nil_iff.1 hbs).1 g2
          | cons _ _ _ rest item' is' hi hr =>
              rw [← hbs] at hi
              obtain ⟨rfl, rfl⟩ := ItemAt.unique (get?_zero t) hi (g3 b)
              exact ⟨fun h _ hc => absurd hc hd, (ih' _).1 ⟨is', t', hr, (hcons is').2 hf⟩⟩
        · rintro ⟨-, h2⟩
          obtain ⟨is', t', hr, hf⟩ := (ih' _).2 h2
          exact ⟨item :: is', t', .cons t t' _ b _ is' (g3 b) hr, (hcons is').1 hf⟩

/-- Starting with INDEXED for a header that is in no table, or with the mistyped name, no octets that
follow make the given header come first. -/
theorem bad_entry {t : Table} {p : HeaderPrefix} (hp : p ≠ .sizeUpdate) {h : Header}
    {mode : EncodeMode} {a b : Bytes} {items : List Item} {t' : Table} {hs : List Header}
    (henc : encodeLiteral p h mode = .ok a)
    (hbad : p = .indexed ∧ (h.2 ≠ [] ∨ mode = .huffman) ∨ p ≠ .indexed ∧ h.1 = mistypedName)
    (hd : BlockDecodes t (a ++ b) items t') : fields items ≠ h :: hs := by
  obtain ⟨d2, v1, -, v3, v4⟩ := encodeHeaderValue_spec h.2 mode
  obtain ⟨d1, -, n2, n3, n4⟩ := encodeHeaderValue_spec h.1 mode
  rcases hbad with ⟨rfl, hval⟩ | ⟨hpi, hname⟩
  · unfold encodeLiteral at henc
    cases hr : reverseStaticTableEntries.lookup (h.1, []) with
    | none =>
        rw [hr] at henc
        simp only at henc
        rw [encodeIndex_eq (by decide), Res.ok_bind, n2, Res.ok_bind, v1, Res.ok_bind, Res.pure_eq,
          List.append_assoc] at henc
        obtain rfl := Res.ok.inj henc
        rw [List.append_assoc] at hd
        generalize hb : intEnc (nbits .indexed) 0 HeaderPrefix.indexed.value ++ _ = bytes at hd
        cases hd with
        | nil => simp [fields]
        | cons _ _ _ rest item is hi hr' =>
            rw [← hb] at hi
            obtain ⟨f, hf, -⟩ := indexed_start hi
            rw [get?_zero] at hf
            cases hf
    | some idx =>
        rw [hr] at henc
        simp only at henc
        rw [encodeIndex_eq (by decide), Res.ok_bind, v1, Res.ok_bind, Res.pure_eq] at henc
        obtain rfl := Res.ok.inj henc
        rw [List.append_assoc] at hd
        have hs := (staticTable_inverse _ _).1 hr
        generalize hb : intEnc (nbits .indexed) idx HeaderPrefix.indexed.value ++ _ = bytes at hd
        cases hd with
        | nil => simp [fields]
        | cons _ _ _ rest item is hi hr' =>
            rw [← hb] at hi
            obtain ⟨f, hf, rfl, rfl⟩ := indexed_start hi
            intro hfs
            have hfs' : f :: fields is = h :: _ := hfs
            injection hfs' with hfh _
            have hval0 : h.2 = [] := by
              by_cases h20 : idx = 20
              · subst h20
                rw [get?_20] at hf
                rw [← hfh, ← Option.some.inj hf]
              · rw [static_get? hs h20] at hf
                rw [← hfh, ← Option.some.inj hf]
            rcases hval with hval | rfl
            · exact hval hval0
            · rw [hval0] at v1
              have h80 : encodeHeaderValue [] .huffman = .ok [0x80] := by decide +kernel
              rw [h80] at v1
              rw [← Res.ok.inj v1] at hr'
              cases hr' with
              | cons _ _ _ rest item is hi hr =>
                  have h0 : intEnc 7 0 HeaderPrefix.indexed.value = [0x80] := by decide +kernel
                  rw [← h0] at hi
                  obtain ⟨f', hf', -⟩ := indexed_start hi
                  rw [get?_zero] at hf'
                  cases hf'
  · have hlit : IsLiteral p := by
      cases p with
      | indexed => exact absurd rfl hpi
      | sizeUpdate => exact absurd rfl hp
      | incrementalIndexing => exact Or.inl rfl
      | withoutIndexing => exact Or.inr (Or.inl rfl)
      | neverIndexed => exact Or.inr (Or.inr rfl)
    have h20 : reverseStaticTableEntries.lookup (h.1, []) = some 20 := by
      rw [hname]
      decide +kernel
    unfold encodeLiteral at henc
    rw [h20] at henc
    simp only at henc
    rw [encodeIndex_eq hp, Res.ok_bind, v1, Res.ok_bind, Res.pure_eq] at henc
    obtain rfl := Res.ok.inj henc
    rw [List.append_assoc] at hd
    generalize hb : intEnc (nbits p) 20 p.value ++ _ = bytes at hd
    cases hd with
    | nil => simp [fields]
    | cons _ _ _ rest item is hi hr' =>
        rw [← hb] at hi
        obtain ⟨f, hf1, hf2⟩ := literal_start hlit hi
        intro hf'
        have : f :: fields is = h :: hs := by
          rw [← hf']
          unfold fields
          rw [List.filterMap_cons_some hf1]
        injection this with hfh _
        rw [hfh, hname] at hf2
        revert hf2
        decide +kernel

/-- An entry that is encoded has a representation, or is INDEXED and in no table. -/
theorem sentAs_of_encoded {table : DynamicTable} {mode : EncodeMode} {e : HeaderEntry} {a : Bytes}
    (ha : encodeHeader e mode table = .ok a) :
    (∃ item, SentAs table e item) ∨
      ∃ h, e = ⟨.indexed, .header h⟩ ∧ ¬ InTables h table := by
  obtain ⟨p, x⟩ := e
  cases x with
  | maxSize n =>
      by_cases hp : p = .sizeUpdate
      · subst hp
        exact Or.inl ⟨_, .size n⟩
      · rw [C27_mistyped _ _ _ (Or.inr ⟨hp, n, rfl⟩)] at ha
        cases ha
  | header h =>
      by_cases hp : p = .sizeUpdate
      · rw [C27_mistyped _ _ _ (Or.inl ⟨hp, h, rfl⟩)] at ha
        cases ha
      · by_cases hin : InTables h table
        · exact Or.inl ⟨_, .hit p h hp hin⟩
        · cases p with
          | indexed => exact Or.inr ⟨h, rfl, hin⟩
          | sizeUpdate => exact absurd rfl hp
          | incrementalIndexing => exact Or.inl ⟨_, .incremental h hin⟩
          | withoutIndexing => exact Or.inl ⟨_, .withoutIndexing h hin⟩
          | neverIndexed => exact Or.inl ⟨_, .neverIndexed h hin⟩

/-- A block that is read as the given headers has none of the entries that are wrong by themselves. -/
theorem no_bad_entry {table : DynamicTable} {mode : EncodeMode} {block : HeaderBlock}
    (hempty : ∀ h, ⟨.indexed, .header h⟩ ∈ block → ¬ InTables h table → h.2 ≠ [] ∨ mode = .huffman)
    {t t' : Table} {items : List Item} {bytes : Bytes}
    (henc : encodeHeaderBlock block mode table = .ok bytes)
    (hd : BlockDecodes t bytes items t') (hf : fields items = headersOf block) :
    (∃ items, List.Forall₂ (SentAs table) block items) ∧
    ∀ e ∈ block, ∀ h, e.entry = .header h → ¬ InTables h table → h.1 ≠ mistypedName := by
  induction block generalizing t bytes items with
  | nil => exact ⟨⟨[], .nil⟩, fun e he => absurd he List.not_mem_nil⟩
  | cons e es ih =>
      rw [encodeHeaderBlock] at henc
      obtain ⟨a, ha, henc⟩ := Res.bind_eq_ok.1 henc
      obtain ⟨b, hb, henc⟩ := Res.bind_eq_ok.1 henc
      obtain rfl := Res.ok.inj henc
      have lit : ∀ p h, e = ⟨p, .header h⟩ → p ≠ .sizeUpdate → ¬ InTables h table →
          encodeLiteral p h mode = .ok a ∧ headersOf (e :: es) = h :: headersOf es := by
        rintro p h rfl hp hin
        rw [encodeHeader_header hp, hitIndex_none.2 hin] at ha
        exact ⟨ha, rfl⟩
      rcases sentAs_of_encoded ha with ⟨item, he⟩ | ⟨h, rfl, hin⟩
      · have hn : ∀ h, e.entry = .header h → ¬ InTables h table → h.1 ≠ mistypedName := by
          intro h hh hin hm
          obtain ⟨p, x⟩ := e
          simp only at hh
          subst hh
          have hp : p ≠ .sizeUpdate ∧ p ≠ .indexed := by
            cases he with
            | hit p h hp hh => exact absurd hh hin
            | incremental => exact ⟨by decide, by decide⟩
            | withoutIndexing => exact ⟨by decide, by decide⟩
            | neverIndexed => exact ⟨by decide, by decide⟩
          obtain ⟨h1, h2⟩ := lit p h rfl hp.1 hin
          exact bad_entry hp.1 h1 (Or.inr ⟨hp.2, hm⟩) hd (hf.trans h2)
        have rest : ∃ items1 t1, BlockDecodes t1 b items1 t' ∧ fields items1 = headersOf es := by
          by_cases hdyn : HitsDynamic table e
          · obtain ⟨h, hh, hm, hns⟩ := id hdyn
            obtain ⟨p, x⟩ := e
            simp only at hh
            subst hh
            have hp : p ≠ .sizeUpdate := by
              cases he with
              | hit p h hp hh => exact hp
              | incremental => decide
              | withoutIndexing => decide
              | neverIndexed => decide
            rw [encodeHeader_dynamic hp hdyn] at ha
            obtain rfl := Res.ok.inj ha
            generalize hbs : intEnc 7 _ _ ++ b = bytes at hd
            cases hd with
            | nil => simp [fields, headersOf] at hf
            | cons _ _ _ rest item is' hi hr =>
                rw [← hbs] at hi
                obtain ⟨f, hf1, rfl, rfl⟩ := indexed_start hi
                have hf' : f :: fields is' = h :: headersOf es := hf
                injection hf' with _ h2
                exact ⟨is', _, hr, h2⟩
          · obtain ⟨a', g1, g2, g3⟩ := encodeHeader_rfc (t := t) (mode := mode) he hn (Or.inr hdyn)
            rw [ha] at g1
            obtain rfl := Res.ok.inj g1
            generalize hbs : a ++ b = bytes at hd
            cases hd with
            | nil => exact absurd (List.append_eq_nil_iff.1 hbs).1 g2
            | cons _ _ _ rest item' is' hi hr =>
                rw [← hbs] at hi
                obtain ⟨rfl, rfl⟩ := ItemAt.unique (get?_zero t) hi (g3 b)
                refine ⟨is', _, hr, ?_⟩
                have h1 : fields (item' :: is') = fields [item'] ++ fields is' := by
                  unfold fields
                  rw [← List.filterMap_append]
                  rfl
                have h2 : headersOf (e :: es) = headersOf [e] ++ headersOf es := by
                  unfold headersOf
                  rw [← List.filterMap_append]
                  rfl
                have h3 : fields [item'] = headersOf [e] := fields_of_sentAs (.cons he .nil)
                rw [h1, h2, h3, List.append_cancel_left_eq] at hf
                exact hf
        obtain ⟨items1, t1, hd1, hf1⟩ := rest
        obtain ⟨⟨is, his⟩, hns⟩ := ih (fun h hm => hempty h (List.mem_cons_of_mem _ hm)) hb hd1 hf1
        refine ⟨⟨item :: is, .cons he his⟩, fun e' he' => ?_⟩
        rcases List.mem_cons.1 he' with rfl | he'
        · exact hn
        · exact hns e' he'
      · obtain ⟨h1, h2⟩ := lit _ h rfl (by decide) hin
        exact absurd (hf.trans h2)
          (bad_entry (by decide) h1 (Or.inl ⟨rfl, hempty h List.mem_cons_self hin⟩) hd)

/-- C31, exactly, for every block that is encoded, of any length. A conforming decoder that holds the
same table decodes exactly the given headers if and only if every entry has a representation
(`SentAs`: INDEXED only for headers in a table), no literal has the mistyped name, and for every
entry that is sent as a position in the dynamic table, the decoder, having applied the items before
it, has that header at that position. Missing (false of the code): the blocks in which one of these
is not so. The hypothesis `hempty` leaves out INDEXED asked, without Huffman coding, for a header with
an empty value that is in no table: the peer then takes the octets that follow for another header,
which may by accident be the one meant (`hempty_needed`). -/
theorem C31_exact_partial (table : DynamicTable) (mode : EncodeMode) (block : HeaderBlock)
    (hempty : ∀ h, ⟨.indexed, .header h⟩ ∈ block → ¬ InTables h table → h.2 ≠ [] ∨ mode = .huffman)
    (bytes : Bytes) (henc : encodeHeaderBlock block mode table = .ok bytes) :
    (∃ items' t', BlockDecodes ⟨table.entries, table.maxTableSize⟩ bytes items' t' ∧
      fields items' = headersOf block) ↔
    ∃ items, List.Forall₂ (SentAs table) block items ∧
      (∀ e ∈ block, ∀ h, e.entry = .header h → ¬ InTables h table →
        h.1 ≠ bstr "accept-control-allow-origin") ∧
      ∀ k e h, block[k]? = some e → e.entry = .header h → HitsDynamic table e →
        ((items.take k).foldl Item.apply ⟨table.entries, table.maxTableSize⟩).entries[
          table.entries.idxOf h]? = some h := by
  constructor
  · rintro ⟨items', t', hd, hf⟩
    obtain ⟨⟨items, hs⟩, hn⟩ := no_bad_entry hempty henc hd hf
    refine ⟨items, hs, hn, ?_⟩
    rw [← stillThere_iff hs.length_eq, ← block_exact hs hn _ bytes henc]
    exact ⟨items', t', hd, hf⟩
  · rintro ⟨items, hs, hn, hk⟩
    rw [block_exact hs hn _ bytes henc, stillThere_iff hs.length_eq]
    exact hk

/-! Without `hempty` the theorem is false: there are blocks with an INDEXED entry that is in no table
which a peer reads as the given headers by accident. The stray octet 0 and what follows, an index and
size updates, happen to be a literal of the header that is meant to come next. -/

/-- A header and a table that holds it. -/
def strayHeader : Header := ((List.replicate 31 (bstr "esp")).flatten, List.replicate 32 0x20)
def strayTable : DynamicTable := ⟨[strayHeader], 157, 4096⟩

/-- INDEXED for `cookie` with an empty value, an index, and 95 size updates. -/
def strayBlock : HeaderBlock :=
  ⟨.indexed, .header (bstr "cookie", [])⟩ :: ⟨.indexed, .header strayHeader⟩ ::
    ((List.replicate 31 [⟨.sizeUpdate, .maxSize 10⟩, ⟨.sizeUpdate, .maxSize 11⟩]).flatten ++
      List.replicate 33 ⟨.sizeUpdate, .maxSize 0⟩)

theorem hempty_needed : ∃ bytes items t', encodeHeaderBlock strayBlock .none strayTable = .ok bytes ∧
    ¬ InTables (bstr "cookie", []) strayTable ∧
    BlockDecodes ⟨strayTable.entries, strayTable.maxTableSize⟩ bytes items t' ∧
    fields items = headersOf strayBlock := by
  refine ⟨0xa0 :: 0x00 :: 0xbe :: ((List.replicate 31 [0x2a, 0x2b]).flatten ++ List.replicate 33 0x20),
    [.indexed (bstr "cookie", []), .withoutIndexing strayHeader], _, by decide +kernel, ?_,
    .cons _ _ _ (0x00 :: 0xbe :: ((List.replicate 31 [0x2a, 0x2b]).flatten ++ List.replicate 33 0x20))
      _ _ (.indexed _ _ _ 32 _ (by decide) (by decide +kernel) (by decide +kernel))
      (.cons _ _ _ [] _ _ (.withoutIndexing _ _ _ _ (by decide)
        (.newName _ (0xbe :: ((List.replicate 31 [0x2a, 0x2b]).flatten ++ List.replicate 33 0x20))
          (List.replicate 33 0x20) _ _ _ (by decide +kernel)
          (.huffman _ _ (List.replicate 31 [0x2a, 0x2b]).flatten _ _ (by decide) (by decide +kernel)
            ⟨[], by decide +kernel, by decide, by decide⟩)
          (.plain _ _ _ _ (by decide) (by decide +kernel)))) (.nil _)), by decide +kernel⟩
  rw [← hitIndex_none]
  decide +kernel

/-- Blocks on each side: the block of `C31_reference_after_insertion_violated` has representations
but the wrong order, the other block asks for INDEXED in vain. Both meet the hypotheses. -/
example : (∃ bytes, encodeHeaderBlock goodBlock.reverse .none oneTable = .ok bytes) ∧
    (∀ h, ⟨.indexed, .header h⟩ ∈ goodBlock.reverse → h.2 ≠ []) ∧
    (∃ bytes, encodeHeaderBlock [⟨.indexed, .header (bstr "x", bstr "y")⟩,
      ⟨.neverIndexed, .header (bstr "z", [])⟩] .none oneTable = .ok bytes) ∧
    (∀ h, ⟨.indexed, .header h⟩ ∈ ([⟨.indexed, .header (bstr "x", bstr "y")⟩,
      ⟨.neverIndexed, .header (bstr "z", [])⟩] : HeaderBlock) → h.2 ≠ []) := by
  refine ⟨⟨_, rfl⟩, ?_, ⟨_, rfl⟩, ?_⟩
  · intro h hm
    simp [goodBlock] at hm
    rw [hm]
    decide
  · intro h hm
    simp at hm
    rw [hm]
    decide

/-- The representations of the first of them. -/
example : List.Forall₂ (SentAs oneTable) goodBlock.reverse
    [.incremental (bstr "b", bstr "2"), .indexed (bstr "a", bstr "1")] :=
  .cons (.incremental _ (by
    rintro (⟨-, i, hi⟩ | hm)
    · rw [← staticTable_inverse] at hi
      revert hi
      have : reverseStaticTableEntries.lookup (bstr "b", bstr "2") = none := by decide +kernel
      rw [this]
      intro hi
      cases hi
    · revert hm
      decide)) (.cons (.hit _ _ (by decide) (Or.inr (by decide))) .nil)

end Mh2c
