/-
C23-C30, C34, C35: header entries and header blocks.
-/
import Verif.Proofs.HeaderProgress
import Verif.Model.Client
import Mathlib.Data.List.Forall2

namespace Mh2c

open Rfc

/-! ## C23 -/

/-- C23. The class of an octet is the one of the patterns of RFC 7541 section 6:
1xxxxxxx, 01xxxxxx, 001xxxxx, 0001xxxx, 0000xxxx. -/
theorem C23_classification (b : UInt8) :
    (b.toNat / 2 ^ 7 = 1 → checkPrefix b = .ok .indexed) ∧
    (b.toNat / 2 ^ 6 = 1 → checkPrefix b = .ok .incrementalIndexing) ∧
    (b.toNat / 2 ^ 5 = 1 → checkPrefix b = .ok .sizeUpdate) ∧
    (b.toNat / 2 ^ 4 = 1 → checkPrefix b = .ok .neverIndexed) ∧
    (b.toNat / 2 ^ 4 = 0 → checkPrefix b = .ok .withoutIndexing) := by
  rw [checkPrefix_eq]
  unfold prefixClass
  refine ⟨?_, ?_, ?_, ?_, ?_⟩ <;> intro h <;> congr 1 <;> norm_num at h
  · rw [if_pos (by omega)]
  · rw [if_neg (by omega), if_pos (by omega)]
  · rw [if_neg (by omega), if_neg (by omega), if_pos (by omega)]
  · rw [if_neg (by omega), if_neg (by omega), if_neg (by omega), if_pos (by omega)]
  · rw [if_neg (by omega), if_neg (by omega), if_neg (by omega), if_neg (by omega)]

/-- C23. The five patterns cover every octet. -/
theorem C23_exhaustive (b : UInt8) :
    b.toNat / 2 ^ 7 = 1 ∨ b.toNat / 2 ^ 6 = 1 ∨ b.toNat / 2 ^ 5 = 1 ∨ b.toNat / 2 ^ 4 = 1 ∨
      b.toNat / 2 ^ 4 = 0 := by
  have := b.toNat_lt
  omega

/-- C23. What the encoder writes is classified back, for every index and every size. -/
theorem C23_encoded (p : HeaderPrefix) (i : Nat) :
    (p ≠ .sizeUpdate → ∃ b bs, encodeIndex i p = .ok (b :: bs) ∧ checkPrefix b = .ok p) ∧
    (p = .sizeUpdate → ∃ b bs, encodeMaxSize i p = .ok (b :: bs) ∧ checkPrefix b = .ok p) := by
  constructor
  · intro hp
    obtain ⟨b, bs, hc, hb⟩ := intEnc_cons (nbits_le p) i (value_mod p)
    refine ⟨b, bs, by rw [encodeIndex_eq hp, hc], ?_⟩
    rw [checkPrefix_eq, hb]
    congr 1
    cases p with
    | sizeUpdate => exact absurd rfl hp
    | indexed =>
        show prefixClass (128 + min i (2 ^ 7 - 1)) = _
        unfold prefixClass
        rw [if_pos (by omega)]
    | incrementalIndexing =>
        show prefixClass (64 + min i (2 ^ 6 - 1)) = _
        unfold prefixClass
        rw [if_neg (by omega), if_pos (by omega)]
    | neverIndexed =>
        show prefixClass (16 + min i (2 ^ 4 - 1)) = _
        unfold prefixClass
        rw [if_neg (by omega), if_neg (by omega), if_neg (by omega), if_pos (by omega)]
    | withoutIndexing =>
        show prefixClass (0 + min i (2 ^ 4 - 1)) = _
        unfold prefixClass
        rw [if_neg (by omega), if_neg (by omega), if_neg (by omega), if_neg (by omega)]
  · rintro rfl
    obtain ⟨b, bs, hc, hb⟩ := intEnc_cons (n := 5) (by omega) i (value_mod .sizeUpdate)
    refine ⟨b, bs, by rw [encodeMaxSize_eq, hc], ?_⟩
    rw [checkPrefix_eq, hb]
    show Res.ok (prefixClass (32 + min i (2 ^ 5 - 1))) = _
    unfold prefixClass
    rw [if_neg (by omega), if_neg (by omega), if_pos (by omega)]

example : encodeIndex 1000 .neverIndexed = .ok [0x1f, 0xd9, 0x07] ∧
    checkPrefix 0x1f = .ok .neverIndexed := by decide +kernel

/-! ## C24 -/

/-- C24. A literal entry that is in neither table is decoded back, with the exact length, whatever
follows it. -/
theorem C24_literal_round_trip [Platform] (p : HeaderPrefix)
    (hp : p = .incrementalIndexing ∨ p = .withoutIndexing ∨ p = .neverIndexed) (h : Header)
    (mode : EncodeMode) (table : DynamicTable) (hh : ¬ InTables h table)
    (h1 : wireLength h.1 mode < 2 ^ 31 + 127) (h2 : wireLength h.2 mode < 2 ^ 31 + 127)
    (ht1 : Tolerant h.1) (ht2 : Tolerant h.2) :
    ∃ bytes, encodeHeader ⟨p, .header h⟩ mode table = .ok bytes ∧
      ∀ rest, decodeHeader (bytes ++ rest) table = .ok (⟨p, .header h⟩, bytes.length) := by
  -- the table is only consulted for static names, so its length does not matter
  have key : ∀ item, SentAs table ⟨p, .header h⟩ item → item = literalItem p h →
      ∃ bytes, encodeHeader ⟨p, .header h⟩ mode table = .ok bytes ∧
      ∀ rest, decodeHeader (bytes ++ rest) table = .ok (⟨p, .header h⟩, bytes.length) := by
    rintro item hs rfl
    have hB : ItemBound (fun n v => v < 2 ^ n - 1 + 2 ^ 31) mode (literalItem p h) := by
      rcases hp with rfl | rfl | rfl <;>
        exact ⟨by show _ < 2 ^ 7 - 1 + 2 ^ 31; omega, by show _ < 2 ^ 7 - 1 + 2 ^ 31; omega⟩
    obtain ⟨bytes, g1, -, g3⟩ := encodeHeader_item (get := codeGet table)
      (getName := codeGetName table) understands_client hs (mode := mode) hB
      (by
        intro n i hn hi
        have := Nat.two_pow_pos n
        show i < 2 ^ n - 1 + 2 ^ 31
        omega)
      (by
        intro h' i he hi
        injection he with he
        subst he
        have := hitIndex_none.2 hh
        rw [this] at hi
        cases hi)
      (fun h i _ _ hi => codeGetName_static table i _ hi)
    refine ⟨bytes, g1, fun rest => ?_⟩
    obtain ⟨d, -⟩ := decodeHeader_item (g3 rest)
      (by rcases hp with rfl | rfl | rfl <;> exact ⟨ht1, ht2⟩)
    rw [d, List.length_append]
    have : entryOf (literalItem p h) = ⟨p, .header h⟩ := by
      rcases hp with rfl | rfl | rfl <;> rfl
    rw [this]
    congr 2
    omega
  rcases hp with rfl | rfl | rfl
  · exact key _ (.incremental h hh) rfl
  · exact key _ (.withoutIndexing h hh) rfl
  · exact key _ (.neverIndexed h hh) rfl

/-- Literals used in the examples: a new name, a static name. -/
def newHeader : Header := (bstr "x-id", bstr "42")
def pathHeader : Header := (bstr "cookie", bstr "a=b")

theorem newHeader_not_in : ¬ InTables newHeader .default :=
  hitIndex_none.1 (by decide +kernel)

example : ¬ InTables pathHeader .default := hitIndex_none.1 (by decide +kernel)
example : wireLength newHeader.1 .huffman = 3 ∧ wireLength newHeader.2 .none = 2 := by decide +kernel
example : encodeHeader ⟨.incrementalIndexing, .header newHeader⟩ .none .default =
    .ok [0x40, 4, 120, 45, 105, 100, 2, 52, 50] := by decide +kernel
attribute [local instance] strictBig in
example : decodeHeader [0x40, 4, 120, 45, 105, 100, 2, 52, 50, 0xff] .default =
    .ok (⟨.incrementalIndexing, .header newHeader⟩, 9) := by decide +kernel

/-! ## C25 -/

/-- C25. A header of the static table (with a value) or of the dynamic table is sent as an index
only, whatever prefix was asked for; the index denotes that header and decoding gives it back. -/
theorem C25_indexed [Platform] (p : HeaderPrefix) (hp : p ≠ .sizeUpdate) (h : Header)
    (mode : EncodeMode) (table : DynamicTable)
    (hh : (h.2 ≠ [] ∧ ∃ i, staticTableEntries.lookup i = some h) ∨ h ∈ table.entries)
    (hl : table.entries.length ≤ 2 ^ 31 + 65) :
    ∃ bytes i, encodeHeader ⟨p, .header h⟩ mode table = .ok bytes ∧
      (∃ b bs, bytes = b :: bs ∧ 128 ≤ b.toNat) ∧
      intDecode 7 bytes = some (i, []) ∧
      ((1 ≤ i ∧ i ≤ 61 ∧ staticTableEntries.lookup i = some h) ∨
        (62 ≤ i ∧ table.entries[i - 62]? = some h)) ∧
      ∀ rest, decodeHeader (bytes ++ rest) table = .ok (⟨.indexed, .header h⟩, bytes.length) := by
  have hs : SentAs table ⟨p, .header h⟩ (.indexed h) := .hit p h hp hh
  obtain ⟨bytes, h1, -, h3⟩ := encodeHeader_client (mode := mode) hs trivial hl
  cases hi : hitIndex h table with
  | none => exact absurd hh (hitIndex_none.1 hi)
  | some i =>
      have he : bytes = intEnc 7 i HeaderPrefix.indexed.value := by
        rw [encodeHeader_header hp, hi] at h1
        exact (Res.ok.inj h1).symm
      obtain ⟨b, bs, hc, hb⟩ := intEnc_cons (n := 7) (by omega) i (value_mod .indexed)
      refine ⟨bytes, i, h1, ⟨b, bs, by rw [he, hc], ?_⟩, ?_, ?_, h3⟩
      · rw [hb]
        show 128 ≤ 128 + _
        omega
      · have := intDecode_intEnc (n := 7) (by omega) i (value_mod .indexed) []
        rw [List.append_nil] at this
        rw [he]
        exact this
      · rcases hitIndex_some hi with ⟨a, b, -, c⟩ | ⟨a, b, -⟩
        · exact Or.inl ⟨a, b, c⟩
        · exact Or.inr ⟨a, b⟩

/-- Table of the examples. -/
def sampleTable : DynamicTable := ⟨[(bstr "d", bstr "4"), (bstr "c", bstr "")], 67, 4096⟩

example : encodeHeader ⟨.neverIndexed, .header (bstr "c", bstr "")⟩ .huffman sampleTable =
    .ok [0xbf] := by decide +kernel
example : encodeHeader ⟨.neverIndexed, .header (bstr ":method", bstr "GET")⟩ .huffman sampleTable =
    .ok [0x82] := by decide +kernel

/-! ## C26 -/

/-- C26. A size update round-trips for every size below 2^31 + 31; for larger sizes what the client
itself wrote is undefined behaviour in its decoder. -/
theorem C26_size_update [Platform] (n : Nat) (mode : EncodeMode) (table : DynamicTable) :
    ∃ bytes, encodeHeader ⟨.sizeUpdate, .maxSize n⟩ mode table = .ok bytes ∧
      (n < 2 ^ 31 + 31 → ∀ rest, decodeHeader (bytes ++ rest) table =
        .ok (⟨.sizeUpdate, .maxSize n⟩, bytes.length)) ∧
      (2 ^ 31 + 31 ≤ n → ∀ rest, (decodeHeader (bytes ++ rest) table).IsUb) := by
  refine ⟨_, encodeHeader_size n mode table, ?_, ?_⟩
  · intro hn rest
    have hi := item_size (int := clientInt) understands_client (codeGet table) (codeGetName table)
      (n := n) (by show n < 2 ^ 5 - 1 + 2 ^ 31; omega) rest
    obtain ⟨d, -⟩ := decodeHeader_item hi trivial
    rw [d, List.length_append]
    show Res.ok (_, _) = Res.ok (_, _)
    congr 2
    omega
  · intro hn rest
    obtain ⟨b, bs, hc, hb⟩ := intEnc_cons (n := 5) (by omega) n (value_mod .sizeUpdate)
    have hd := intDecode_intEnc (n := 5) (by omega) n (value_mod .sizeUpdate) rest
    rw [hc, List.cons_append] at hd ⊢
    have hcls : prefixClass b.toNat = .sizeUpdate := by
      rw [hb]
      show prefixClass (32 + min n (2 ^ 5 - 1)) = _
      unfold prefixClass
      rw [if_neg (by omega), if_neg (by omega), if_pos (by omega)]
    unfold decodeHeader
    simp only [front, Res.ok_bind, checkPrefix_eq]
    rw [if_pos hcls]
    have hub : (decodeIntegerValue 5 (b :: (bs ++ rest))).IsUb := by
      rcases decodeIntegerValue_ok_or_ub 5 (b :: (bs ++ rest)) with ⟨v, hv⟩ | h
      · obtain ⟨r, g1, -, g3⟩ := (decodeIntegerValue_spec 5 (by omega) _ v).1 hv
        rw [hd] at g1
        injection g1 with g1
        injection g1 with g1 _
        omega
      · exact h
    obtain ⟨k, hk⟩ := hub
    refine ⟨k, ?_⟩
    unfold decodeMaxSize decodeIntWithLength
    rw [hk]
    rfl

example : encodeHeader ⟨.sizeUpdate, .maxSize 4096⟩ .none .default = .ok [0x3f, 0xe1, 0x1f] := by
  decide +kernel

/-! ## C27 -/

/-- C27. Entries whose variant matches the prefix are encoded to at least one octet. -/
theorem C27_well_typed (e : HeaderEntry) (mode : EncodeMode) (table : DynamicTable)
    (he : (e.pfx = .sizeUpdate ∧ ∃ n, e.entry = .maxSize n) ∨
      (e.pfx ≠ .sizeUpdate ∧ ∃ h, e.entry = .header h)) :
    ∃ bytes, encodeHeader e mode table = .ok bytes ∧ bytes ≠ [] := by
  obtain ⟨p, x⟩ := e
  have hne : ∀ n v hi, intEnc n v hi ≠ [] := by
    intro n v hi hc
    have := intEnc_length n v hi
    rw [hc] at this
    exact encodeIntegerValue_ne_nil n v (List.length_eq_zero_iff.1 this.symm)
  rcases he with ⟨h1, n, h2⟩ | ⟨h1, h, h2⟩
  · simp only at h1 h2
    subst h1 h2
    exact ⟨_, encodeHeader_size n mode table, hne _ _ _⟩
  · simp only at h1 h2
    subst h2
    rw [encodeHeader_header h1]
    cases hi : hitIndex h table with
    | some i => exact ⟨_, rfl, hne _ _ _⟩
    | none =>
        obtain ⟨bytes, i, tail, g1, -, g3, -⟩ := encodeLiteral_at understands_rfc
          (getName := fun i => staticTableEntries.lookup i) h1 (h := h) (mode := mode)
          (fun _ _ => trivial) trivial trivial (fun _ hi => hi)
        refine ⟨bytes, g1, ?_⟩
        rw [g3]
        intro hc
        exact hne _ _ _ (List.append_eq_nil_iff.1 hc).1

/-- C27. Entries whose variant does not match throw `runtime_error`. -/
theorem C27_mistyped (e : HeaderEntry) (mode : EncodeMode) (table : DynamicTable)
    (he : (e.pfx = .sizeUpdate ∧ ∃ h, e.entry = .header h) ∨
      (e.pfx ≠ .sizeUpdate ∧ ∃ n, e.entry = .maxSize n)) :
    encodeHeader e mode table = .throw .runtimeError := by
  obtain ⟨p, x⟩ := e
  rcases he with ⟨h1, n, h2⟩ | ⟨h1, h, h2⟩
  · simp only at h1 h2
    subst h1 h2
    rfl
  · simp only at h1 h2
    subst h2
    unfold encodeHeader
    rw [if_neg h1]
    rfl

/-- C27. The sizes recorded in the table do not influence the encoding. -/
theorem C27_depends_on_entries (e : HeaderEntry) (mode : EncodeMode) (t1 t2 : DynamicTable)
    (h : t1.entries = t2.entries) : encodeHeader e mode t1 = encodeHeader e mode t2 := by
  unfold encodeHeader encodeDynamicOrLiteral
  rw [h]

example : encodeHeader ⟨.indexed, .maxSize 3⟩ .none sampleTable = .throw .runtimeError := by
  decide +kernel

/-! ## C28 -/

/-- C28. Every decoded header reports at least one octet and at most those there are. -/
theorem C28_progress [Platform] (v : Bytes) (table : DynamicTable) (e : HeaderEntry) (n : Nat)
    (h : decodeHeader v table = .ok (e, n)) : 1 ≤ n ∧ n ≤ v.length :=
  decodeHeader_bounds h

/-- C28. Decoding a header, or a block, ends: with a value, an exception or undefined behaviour. -/
theorem C28_terminates [Platform] (v : Bytes) (table : DynamicTable) :
    decodeHeader v table ≠ .diverge ∧ decodeHeaderBlock v table ≠ .diverge :=
  ⟨decodeHeader_ne_diverge v table, decodeHeaderBlock_ne_diverge v table⟩

/-- C28. If decoding a block returns, the block is the concatenation of non-empty pieces, one per
entry; each entry is what decoding a header gives at its piece, with the length of the piece. -/
theorem C28_pieces [Platform] (v : Bytes) (table : DynamicTable) (es : HeaderBlock)
    (h : decodeHeaderBlock v table = .ok es) :
    ∃ pieces : List Bytes, v = pieces.flatten ∧ pieces.length = es.length ∧
      (∀ x ∈ pieces, x ≠ []) ∧
      ∀ k, (hk : k < es.length) → ∃ piece, pieces[k]? = some piece ∧
        decodeHeader (pieces.drop k).flatten table = .ok (es[k], piece.length) := by
  induction hn : v.length using Nat.strong_induction_on generalizing v es with
  | _ m ih =>
    by_cases hv : v = []
    · subst hv
      rw [decodeHeaderBlock_nil] at h
      obtain rfl := Res.ok.inj h
      exact ⟨[], rfl, rfl, by simp, by simp⟩
    · rw [decodeHeaderBlock_eq hv] at h
      obtain ⟨⟨e, n⟩, h1, h2⟩ := Res.bind_eq_ok.1 h
      obtain ⟨rest, h3, h4⟩ := Res.bind_eq_ok.1 h2
      obtain rfl := (Res.ok.inj h4).symm
      have hb := decodeHeader_bounds h1
      obtain ⟨ps, g1, g2, g3, g4⟩ :=
        @ih (v.drop n).length (by simp; omega) (v.drop n) rest h3 rfl
      have hv' : v = v.take n ++ ps.flatten := by rw [← g1, List.take_append_drop]
      refine ⟨v.take n :: ps, by rw [List.flatten_cons]; exact hv', by simp [g2], ?_, ?_⟩
      · intro x hx
        rcases List.mem_cons.1 hx with rfl | hx
        · intro hc
          have := congrArg List.length hc
          rw [List.length_take, List.length_nil] at this
          omega
        · exact g3 x hx
      · intro k hk
        cases k with
        | zero =>
            refine ⟨v.take n, rfl, ?_⟩
            rw [List.drop_zero, List.flatten_cons, ← hv', h1, List.length_take]
            simp only [List.getElem_cons_zero]
            congr 2
            omega
        | succ k =>
            simp only [List.length_cons] at hk
            obtain ⟨piece, q1, q2⟩ := g4 k (by omega)
            exact ⟨piece, by simpa using q1, by simpa using q2⟩

/-- C28. In particular the reported lengths add up to the length of the block: each entry is what
decoding a header gives after skipping the lengths reported before. -/
theorem C28_lengths_add_up [Platform] (v : Bytes) (table : DynamicTable) (es : HeaderBlock)
    (h : decodeHeaderBlock v table = .ok es) :
    ∃ lengths : List Nat, lengths.length = es.length ∧ lengths.sum = v.length ∧
      ∀ k, (hk : k < es.length) → ∃ n, lengths[k]? = some n ∧ 1 ≤ n ∧
        decodeHeader (v.drop (lengths.take k).sum) table = .ok (es[k], n) := by
  obtain ⟨ps, h1, h2, h3, h4⟩ := C28_pieces v table es h
  refine ⟨ps.map List.length, by simp [h2], by rw [h1, List.length_flatten], fun k hk => ?_⟩
  obtain ⟨piece, g1, g2⟩ := h4 k hk
  refine ⟨piece.length, by simp [g1], ?_, ?_⟩
  · exact List.length_pos_iff.2 (h3 _ (List.mem_of_getElem? g1))
  · have hd : v.drop ((ps.map List.length).take k).sum = (ps.drop k).flatten := by
      conv_lhs => rw [h1, ← List.take_append_drop k ps, List.flatten_append]
      rw [List.take_append_drop, ← List.map_take, ← List.length_flatten, List.drop_left]
    rw [hd]
    exact g2

attribute [local instance] strictBig in
example : decodeHeaderBlock [0x82, 0x40, 1, 97, 1, 98, 0xbf] sampleTable =
    .ok [⟨.indexed, .header (bstr ":method", bstr "GET")⟩,
      ⟨.incrementalIndexing, .header (bstr "a", bstr "b")⟩,
      ⟨.indexed, .header (bstr "c", [])⟩] := by decide +kernel

/-! ## C29 -/

theorem decodeHeader_index [Platform] {b : UInt8} {bs : Bytes} {n : Nat}
    (hb : indexBits b = some n) (table : DynamicTable) :
    ∃ p, p = prefixClass b.toNat ∧ p ≠ .sizeUpdate ∧ n = nbits p ∧ n ≤ 8 ∧
    decodeHeader (b :: bs) table = (do
      let (index, indexLength) ← decodeIntWithLength n (b :: bs)
      let indexedHeader ←
        if index > 0 then makeIndexedHeader index table else .ok ([], [])
      if p = .indexed then return (.ofHeader p indexedHeader, indexLength)
      else decodeLiteral (b :: bs) p indexedHeader indexLength) := by
  have h0 : prefixClass b.toNat ≠ .sizeUpdate ∧ n = nbits (prefixClass b.toNat) := by
    unfold indexBits at hb
    unfold prefixClass
    split at hb
    · rw [if_pos (by assumption)]; exact ⟨by decide, (Option.some.inj hb).symm⟩
    · rw [if_neg (by assumption)]
      split at hb
      · rw [if_pos (by assumption)]; exact ⟨by decide, (Option.some.inj hb).symm⟩
      · rw [if_neg (by assumption)]
        split at hb
        · cases hb
        · rw [if_neg (by assumption)]
          split
          · exact ⟨by decide, (Option.some.inj hb).symm⟩
          · exact ⟨by decide, (Option.some.inj hb).symm⟩
  refine ⟨_, rfl, h0.1, h0.2, by rw [h0.2]; exact nbits_le _, ?_⟩
  conv_lhs => unfold decodeHeader
  simp only [front, Res.ok_bind, checkPrefix_eq]
  rw [if_neg h0.1, decodeIndex_eq h0.1, ← h0.2]

theorem makeIndexedHeader_missing {i : Nat} {table : DynamicTable}
    (hi : 61 + table.entries.length < i) : makeIndexedHeader i table = .throw .outOfRange := by
  unfold makeIndexedHeader DynamicTable.atPos
  rw [staticTable_length, if_pos (by omega), List.getElem?_eq_none (by omega)]

/-- C29, the part that holds: an index beyond both tables is `out_of_range`, in an indexed
representation and as the name of any literal. Missing: index 0 (false, see below).
(`rest`: an integer of at most six octets and below 2^31, the decoder's limits.) -/
theorem C29_missing_reference_partial [Platform] (b : UInt8) (bs : Bytes) (n i : Nat) (rest : Bytes)
    (table : DynamicTable) (hb : indexBits b = some n) (hi : intDecode n (b :: bs) = some (i, rest))
    (h31 : i < 2 ^ 31) (h6 : (b :: bs).length - rest.length ≤ 6)
    (hmiss : 61 + table.entries.length < i) :
    decodeHeader (b :: bs) table = .throw .outOfRange := by
  obtain ⟨p, -, -, -, hn, hd⟩ := decodeHeader_index (bs := bs) hb table
  rw [hd]
  have := Nat.two_pow_pos n
  have hv : decodeIntegerValue n (b :: bs) = .ok i :=
    (decodeIntegerValue_spec n hn _ i).2 ⟨rest, hi, h6, by omega⟩
  unfold decodeIntWithLength
  rw [hv]
  simp only [Res.ok_bind, Res.pure_eq]
  rw [if_pos (by omega), makeIndexedHeader_missing hmiss]
  rfl

/-- C29, exactly, for an index beyond both tables: `out_of_range` if the integer takes at most six octets
and is below 2^31 plus what fits its prefix, undefined behaviour otherwise; nothing is ever delivered.
Missing: the exception for longer and larger integers, and index 0 (false, see below). -/
theorem C29_exact_partial [Platform] (b : UInt8) (bs : Bytes) (n i : Nat) (rest : Bytes)
    (table : DynamicTable) (hb : indexBits b = some n) (hi : intDecode n (b :: bs) = some (i, rest))
    (hmiss : 61 + table.entries.length < i) :
    (decodeHeader (b :: bs) table = .throw .outOfRange ↔
      (b :: bs).length - rest.length ≤ 6 ∧ i < 2 ^ n - 1 + 2 ^ 31) ∧
    (¬ decodeHeader (b :: bs) table = .throw .outOfRange → (decodeHeader (b :: bs) table).IsUb) := by
  obtain ⟨p, -, -, -, hn, hd⟩ := decodeHeader_index (bs := bs) hb table
  rw [hd]
  unfold decodeIntWithLength
  rcases decodeIntegerValue_ok_or_ub n (b :: bs) with ⟨v, hv⟩ | ⟨k, hk⟩
  · obtain ⟨r', g1, g2, g3⟩ := (decodeIntegerValue_spec n hn _ v).1 hv
    rw [hi] at g1
    injection g1 with g1
    injection g1 with g1 g4
    subst g1 g4
    rw [hv]
    simp only [Res.ok_bind, Res.pure_eq]
    rw [if_pos (by omega), makeIndexedHeader_missing hmiss]
    exact ⟨⟨fun _ => ⟨g2, g3⟩, fun _ => rfl⟩, fun h => absurd rfl h⟩
  · rw [hk]
    refine ⟨⟨fun h => (by cases h), fun ⟨h6, h31⟩ => ?_⟩, fun _ => ⟨k, rfl⟩⟩
    have := (decodeIntegerValue_spec n hn _ i).2 ⟨rest, hi, h6, h31⟩
    rw [hk] at this
    cases this

/-- C29 is false for index 0: RFC 7541 6.1 makes it a decoding error, the client delivers a header
with empty name and value. -/
theorem C29_index_zero_violated [Platform] (rest : Bytes) (table : DynamicTable) :
    decodeHeader (0x80 :: rest) table = .ok (⟨.indexed, .header ([], [])⟩, 1) ∧
    ¬ ∃ (t : Table) (item : Item) (r : Bytes),
      ItemAt intDecode t.get? t.get? (0x80 :: rest) item r := by
  constructor
  · obtain ⟨p, hp, -, -, hn, hd⟩ := decodeHeader_index (b := 0x80) (bs := rest) (n := 7) rfl table
    have hp' : p = .indexed := by rw [hp]; rfl
    rw [hd, hp']
    have hv : decodeIntegerValue 7 (0x80 :: rest) = .ok 0 := by
      rw [decodeIntegerValue_spec 7 (by omega)]
      exact ⟨rest, rfl, by simp, by norm_num⟩
    unfold decodeIntWithLength
    rw [hv]
    rfl
  · rintro ⟨t, item, r, h⟩
    cases h with
    | indexed _ _ _ i f hb hi hf =>
        have h0 : intDecode 7 (0x80 :: rest) = some (0, rest) := rfl
        rw [h0] at hi
        injection hi with hi
        injection hi with hi _
        rw [← hi, get?_zero] at hf
        cases hf
    | incremental _ _ _ f hb hl => exact absurd hb (by decide)
    | sizeUpdate _ _ _ n hb hi => exact absurd hb (by decide)
    | neverIndexed _ _ _ f hb hl => exact absurd hb (by decide)
    | withoutIndexing _ _ _ f hb hl => exact absurd hb (by decide)

attribute [local instance] x86 in
example : decodeHeader [0xc0] sampleTable = .throw .outOfRange ∧
    decodeHeader [0x0f, 0x31, 1, 97] sampleTable = .throw .outOfRange := by decide +kernel
example : indexBits 0xc0 = some 7 ∧ intDecode 7 [0xc0] = some (64, []) ∧
    indexBits 0x0f = some 4 ∧ intDecode 4 [0x0f, 0x31, 1, 97] = some (64, [1, 97]) := by
  decide +kernel

attribute [local instance] x86 in
/-- An index beyond both tables in seven octets, and in six. RFC 7541 allows either form. -/
example : intDecode 7 [0xff, 0x81, 0x80, 0x80, 0x80, 0x80, 0x00] = some (128, []) ∧
    decodeHeader [0xff, 0x81, 0x80, 0x80, 0x80, 0x80, 0x00] sampleTable = .ub .badShift ∧
    decodeHeader [0xff, 0x81, 0x80, 0x80, 0x80, 0x00] sampleTable = .throw .outOfRange := by
  decide +kernel

/-! ## C30 -/

theorem Sendable.sentAs [Platform] {table : DynamicTable} {mode : EncodeMode} {e : HeaderEntry}
    (h : Sendable table mode e) : ∃ item, SentAs table e item ∧ ItemReadable mode item ∧
      (entryOf item).entry = e.entry ∧
      ((entryOf item).pfx = e.pfx ∨ (entryOf item).pfx = .indexed ∧
        ∃ h, e.entry = .header h ∧ InTables h table) := by
  obtain ⟨p, x⟩ := e
  cases x with
  | maxSize n =>
      obtain ⟨h1, h2⟩ := h
      simp only at h1
      subst h1
      exact ⟨_, .size n, h2, rfl, Or.inl rfl⟩
  | header f =>
      obtain ⟨h1, h2⟩ := h
      simp only at h1 h2
      by_cases hf : InTables f table
      · exact ⟨_, .hit p f h1 hf, trivial, rfl, Or.inr ⟨rfl, f, rfl, hf⟩⟩
      · rcases h2 with h2 | ⟨h2, h3⟩
        · exact absurd h2 hf
        · cases p with
          | indexed => exact absurd rfl h2
          | sizeUpdate => exact absurd rfl h1
          | incrementalIndexing => exact ⟨_, .incremental f hf, h3, rfl, Or.inl rfl⟩
          | withoutIndexing => exact ⟨_, .withoutIndexing f hf, h3, rfl, Or.inl rfl⟩
          | neverIndexed => exact ⟨_, .neverIndexed f hf, h3, rfl, Or.inl rfl⟩

theorem forall₂_of_exists {α β : Type} {R : α → β → Prop} {l : List α}
    (h : ∀ a ∈ l, ∃ b, R a b) : ∃ m, List.Forall₂ R l m := by
  induction l with
  | nil => exact ⟨[], .nil⟩
  | cons a l ih =>
      obtain ⟨b, hb⟩ := h a List.mem_cons_self
      obtain ⟨m, hm⟩ := ih (fun a ha => h a (List.mem_cons_of_mem _ ha))
      exact ⟨b :: m, .cons hb hm⟩

/-- C30. A block of sendable entries is decoded, under the same table, to the same headers and size
updates in the same order. A prefix only changes to INDEXED, and only for headers in a table. -/
theorem C30_block_round_trip [Platform] (table : DynamicTable) (mode : EncodeMode)
    (block : HeaderBlock) (hs : ∀ e ∈ block, Sendable table mode e)
    (hl : table.entries.length ≤ 2 ^ 31 + 65) :
    ∃ bytes decoded, encodeHeaderBlock block mode table = .ok bytes ∧
      decodeHeaderBlock bytes table = .ok decoded ∧
      decoded.map (·.entry) = block.map (·.entry) ∧
      List.Forall₂ (fun e d => d.pfx = e.pfx ∨
        d.pfx = .indexed ∧ ∃ h, e.entry = .header h ∧ InTables h table) block decoded := by
  obtain ⟨items, hf⟩ := forall₂_of_exists (fun e he => (hs e he).sentAs)
  have hr : ∀ item ∈ items, ItemReadable mode item := by
    clear hs
    induction hf with
    | nil => simp
    | cons h _ ih =>
        intro item hi
        rcases List.mem_cons.1 hi with rfl | hi
        · exact h.2.1
        · exact ih item hi
  obtain ⟨bytes, h1, h2⟩ := block_round_trip hl (mode := mode)
    (hf.imp fun _ _ h => h.1) hr
  refine ⟨bytes, _, h1, h2, ?_, ?_⟩
  · clear h1 h2 hs hr
    induction hf with
    | nil => rfl
    | cons h _ ih => simp only [List.map_cons, ih, h.2.2.1]
  · clear h1 h2 hs hr
    induction hf with
    | nil => exact .nil
    | cons h _ ih => exact .cons h.2.2.2 ih

/-- A block with every kind of entry. -/
def sampleBlock : HeaderBlock :=
  [⟨.sizeUpdate, .maxSize 1000⟩, ⟨.indexed, .header (bstr ":method", bstr "GET")⟩,
   ⟨.incrementalIndexing, .header newHeader⟩, ⟨.neverIndexed, .header pathHeader⟩,
   ⟨.withoutIndexing, .header (bstr "d", bstr "4")⟩]

attribute [local instance] strictBig in
example : ∀ e ∈ sampleBlock, Sendable sampleTable .huffman e := by
  intro e he
  simp only [sampleBlock, List.mem_cons, List.not_mem_nil, or_false] at he
  rcases he with rfl | rfl | rfl | rfl | rfl
  · exact ⟨rfl, by norm_num⟩
  · exact ⟨by decide, Or.inl (Or.inl ⟨by decide, 2, by decide +kernel⟩)⟩
  · exact ⟨by decide, Or.inr ⟨by decide, by decide +kernel, by decide +kernel,
      Or.inr (by decide), Or.inr (by decide)⟩⟩
  · exact ⟨by decide, Or.inr ⟨by decide, by decide +kernel, by decide +kernel,
      Or.inr (by decide), Or.inr (by decide)⟩⟩
  · exact ⟨by decide, Or.inl (Or.inr (by decide))⟩

/-! ## C35 -/

/-- C35. The block has the given headers in order. A header gets INDEXED exactly if it is a static
entry with a value, else the requested prefix. -/
theorem C35_make_header_block (p : HeaderPrefix) (hs : List Header) :
    ∃ block, makeHeaderBlock p hs = .ok block ∧
      block.map (·.entry) = hs.map EntryValue.header ∧
      List.Forall₂ (fun h (e : HeaderEntry) =>
        ((h.2 ≠ [] ∧ ∃ i, staticTableEntries.lookup i = some h) → e.pfx = .indexed) ∧
        (¬ (h.2 ≠ [] ∧ ∃ i, staticTableEntries.lookup i = some h) → e.pfx = p)) hs block := by
  induction hs with
  | nil => exact ⟨[], rfl, rfl, .nil⟩
  | cons h hs ih =>
      obtain ⟨block, h1, h2, h3⟩ := ih
      have key : ∃ e, correctPrefix (.ofHeader p h) = .ok e ∧ e.entry = .header h ∧
          (((h.2 ≠ [] ∧ ∃ i, staticTableEntries.lookup i = some h) → e.pfx = .indexed) ∧
          (¬ (h.2 ≠ [] ∧ ∃ i, staticTableEntries.lookup i = some h) → e.pfx = p)) := by
        unfold correctPrefix
        simp only [HeaderEntry.ofHeader, HeaderEntry.getHeader, Res.ok_bind]
        cases hr : reverseStaticTableEntries.lookup h with
        | none =>
            refine ⟨_, rfl, rfl, ?_, fun _ => rfl⟩
            rintro ⟨-, i, hi⟩
            rw [← staticTable_inverse, hr] at hi
            cases hi
        | some i =>
            simp only
            by_cases hv : h.2.length > 0
            · rw [if_pos hv]
              refine ⟨_, rfl, rfl, fun _ => rfl, fun hn => ?_⟩
              exact absurd ⟨List.length_pos_iff.1 hv, i, (staticTable_inverse h i).1 hr⟩ hn
            · rw [if_neg hv]
              refine ⟨_, rfl, rfl, ?_, fun _ => rfl⟩
              rintro ⟨hne, -⟩
              exact absurd (List.length_eq_zero_iff.1 (by omega)) hne
      obtain ⟨e, g1, g2, g3⟩ := key
      refine ⟨e :: block, ?_, by simp [g2, h2], .cons g3 h3⟩
      rw [makeHeaderBlock, g1, Res.ok_bind, h1]
      rfl

/-- C35. What was built with a literal prefix can be sent: see `C30_block_round_trip`. -/
theorem C35_sendable [Platform] (p : HeaderPrefix)
    (hp : p = .incrementalIndexing ∨ p = .withoutIndexing ∨ p = .neverIndexed) (hs : List Header)
    (block : HeaderBlock) (hb : makeHeaderBlock p hs = .ok block) (table : DynamicTable)
    (mode : EncodeMode)
    (hlen : ∀ h ∈ hs, wireLength h.1 mode < 2 ^ 31 + 127 ∧ wireLength h.2 mode < 2 ^ 31 + 127 ∧
      Tolerant h.1 ∧ Tolerant h.2) :
    ∀ e ∈ block, Sendable table mode e := by
  obtain ⟨block', h1, h2, h3⟩ := C35_make_header_block p hs
  rw [hb] at h1
  obtain rfl := Res.ok.inj h1
  clear h1 hb
  induction h3 with
  | nil => simp
  | @cons h e hs block he _ ih =>
      simp only [List.map_cons, List.cons.injEq] at h2
      intro e' he'
      rcases List.mem_cons.1 he' with rfl | hm
      · have hpp : p ≠ .indexed ∧ p ≠ .sizeUpdate := by
          rcases hp with rfl | rfl | rfl <;> decide
        unfold Sendable
        rw [h2.1]
        simp only
        by_cases hst : h.2 ≠ [] ∧ ∃ i, staticTableEntries.lookup i = some h
        · rw [he.1 hst]
          exact ⟨by decide, Or.inl (Or.inl hst)⟩
        · rw [he.2 hst]
          exact ⟨hpp.2, Or.inr ⟨hpp.1, hlen h List.mem_cons_self⟩⟩
      · exact ih (fun h hh => hlen h (List.mem_cons_of_mem _ hh)) h2.2 e' hm

example : makeHeaderBlock .neverIndexed [(bstr ":method", bstr "GET"), (bstr "accept", bstr ""),
    (bstr "x", bstr "y")] = .ok [⟨.indexed, .header (bstr ":method", bstr "GET")⟩,
      ⟨.neverIndexed, .header (bstr "accept", bstr "")⟩,
      ⟨.neverIndexed, .header (bstr "x", bstr "y")⟩] := by decide +kernel

end Mh2c
