import Verif.Props.OneEntry
import Verif.Props.Huffman
import Verif.Props.HeaderFrames
import Verif.Proofs.Makeable
import Verif.Spec.Octets

/-! C124: the octets of a header block. C125: names that are in a table. -/

namespace Mh2c
open Rfc

theorem intGroups_eq (i : Nat) : intGroups i = encodeIntTail i := by
  induction i using Nat.strongRecOn with
  | ind i ih =>
      rw [intGroups, encodeIntTail]
      by_cases h : i < 128
      · rw [if_pos h, if_neg (by omega)]
      · rw [if_neg h, if_pos (by omega), ih _ (by omega)]

theorem intOctets_eq {n : Nat} (hn : n ≤ 8) (v : Nat) {hi : UInt8} (hhi : hi.toNat % 2 ^ n = 0) :
    intEnc n v hi = intOctets hi.toNat n v := by
  obtain ⟨b, bs, h1, h2, h3⟩ := encodeIntegerValue_cons n v hn
  obtain ⟨c, cs, k1, k2⟩ := intEnc_cons hn v hhi
  have hcs : cs = bs := by
    unfold intEnc at k1
    rw [h1] at k1
    exact (List.cons.inj k1).2.symm
  rw [k1, hcs, h3]
  have hc : c = UInt8.ofNat (hi.toNat + min v (2 ^ n - 1)) := by
    rw [← k2]; exact (UInt8.ofNat_toNat).symm
  unfold intOctets
  by_cases hv : v < 2 ^ n - 1
  · rw [if_pos hv, if_pos hv, hc, Nat.min_eq_left (by omega)]
  · rw [if_neg hv, if_neg hv, hc, Nat.min_eq_right (by omega), intGroups_eq]

theorem string_octets (s : Bytes) (mode : EncodeMode) :
    ∃ bytes, encodeHeaderValue s mode = .ok bytes ∧ encodeHeaderName s mode = .ok bytes ∧
      ∀ octets, StringOctets mode s octets ↔ octets = bytes := by
  obtain ⟨data, h1, h2, h3, h4⟩ := encodeHeaderValue_spec s mode
  refine ⟨_, h1, h2, fun octets => ?_⟩
  rw [intOctets_eq (by omega) _ (by cases mode <;> decide)]
  cases mode with
  | none =>
      rw [h3 rfl]
      exact ⟨fun h => by cases h; rfl, fun h => h ▸ .plain s⟩
  | huffman =>
      constructor
      · rintro (_ | ⟨_, d, hd⟩)
        have : d = data := by
          have e1 := (C10_unique s d).2 hd
          have e2 := (C10_unique s data).2 (h4 rfl)
          rw [e1] at e2
          exact Res.ok.inj e2
        rw [this]; rfl
      · rintro rfl
        exact .coded s data (h4 rfl)

theorem representation_eq {p : HeaderPrefix} (hp : p ≠ .sizeUpdate) (i : Nat) :
    encodeIndex i p = .ok (intOctets (representation p).1 (representation p).2 i) := by
  rw [encodeIndex_eq hp, intOctets_eq (nbits_le p) i (value_mod p)]
  cases p <;> rfl

theorem encodeLiteral_octets {p : HeaderPrefix} (hp : p ≠ .sizeUpdate) (h : Header)
    (mode : EncodeMode) (bytes : Bytes) :
    encodeLiteral p h mode = .ok bytes ↔
      (∃ i value, staticTableEntries.lookup i = some (h.1, []) ∧ StringOctets mode h.2 value ∧
        bytes = intOctets (representation p).1 (representation p).2 i ++ value) ∨
      ((∀ i, staticTableEntries.lookup i ≠ some (h.1, [])) ∧ ∃ name value,
        StringOctets mode h.1 name ∧ StringOctets mode h.2 value ∧
        bytes = intOctets (representation p).1 (representation p).2 0 ++ name ++ value) := by
  obtain ⟨n, -, n2, n3⟩ := string_octets h.1 mode
  obtain ⟨v, v1, -, v3⟩ := string_octets h.2 mode
  unfold encodeLiteral
  cases hr : reverseStaticTableEntries.lookup (h.1, []) with
  | some idx =>
      simp only [representation_eq hp, v1, Res.ok_bind, Res.pure_eq]
      have hs := (staticTable_inverse _ _).1 hr
      constructor
      · intro he
        exact .inl ⟨idx, v, hs, (v3 v).2 rfl, (Res.ok.inj he).symm⟩
      · rintro (⟨i, value, h1, h2, rfl⟩ | ⟨h1, -⟩)
        · have := (staticTable_inverse _ _).2 h1
          rw [hr] at this
          rw [Option.some.inj this, (v3 value).1 h2]
        · exact absurd hs (h1 idx)
  | none =>
      simp only [representation_eq hp, n2, v1, Res.ok_bind, Res.pure_eq]
      have hs : ∀ i, staticTableEntries.lookup i ≠ some (h.1, []) := by
        intro i hi
        rw [← staticTable_inverse, hr] at hi
        cases hi
      constructor
      · intro he
        exact .inr ⟨hs, n, v, (n3 n).2 rfl, (v3 v).2 rfl, (Res.ok.inj he).symm⟩
      · rintro (⟨i, value, h1, -⟩ | ⟨-, name, value, h1, h2, rfl⟩)
        · exact absurd h1 (hs i)
        · rw [(n3 name).1 h1, (v3 value).1 h2]

theorem hitIndex_unique {h : Header} {table : DynamicTable} {i : Nat} :
    hitIndex h table = some i ↔
      (h.2 ≠ [] ∧ staticTableEntries.lookup i = some h) ∨
      (62 ≤ i ∧ ¬ (h.2 ≠ [] ∧ ∃ i, staticTableEntries.lookup i = some h) ∧
        table.entries[i - 62]? = some h ∧ ∀ j, j < i - 62 → table.entries[j]? ≠ some h) := by
  have hfind : ∀ k, findIndex h table.entries = some k ↔
      table.entries[k]? = some h ∧ ∀ j, j < k → table.entries[j]? ≠ some h := by
    intro k
    constructor
    · exact fun hk => ⟨findIndex_some hk, fun j hj => findIndex_first hk hj⟩
    · rintro ⟨h1, h2⟩
      cases hf : findIndex h table.entries with
      | none => exact absurd (List.mem_of_getElem? h1) (findIndex_none.1 hf)
      | some m =>
          have a : ¬ m < k := fun hlt => h2 m hlt (findIndex_some hf)
          have b : ¬ k < m := fun hlt => findIndex_first hf hlt h1
          rw [show m = k by omega]
  have hmap : ((findIndex h table.entries).map (62 + ·) = some i) ↔
      62 ≤ i ∧ table.entries[i - 62]? = some h ∧ ∀ j, j < i - 62 → table.entries[j]? ≠ some h := by
    rw [Option.map_eq_some_iff]
    constructor
    · rintro ⟨k, hk, rfl⟩
      rw [Nat.add_sub_cancel_left]
      exact ⟨by omega, (hfind k).1 hk⟩
    · rintro ⟨h1, h2⟩
      exact ⟨i - 62, (hfind _).2 h2, by omega⟩
  unfold hitIndex
  cases hr : reverseStaticTableEntries.lookup h with
  | none =>
      have hs : ¬ ∃ i, staticTableEntries.lookup i = some h := by
        rintro ⟨k, hk⟩
        rw [← staticTable_inverse, hr] at hk
        cases hk
      simp only [hmap]
      constructor
      · rintro ⟨h1, h2⟩; exact .inr ⟨h1, fun hc => hs hc.2, h2⟩
      · rintro (⟨-, h2⟩ | ⟨h1, -, h2⟩)
        · exact absurd ⟨i, h2⟩ hs
        · exact ⟨h1, h2⟩
  | some idx =>
      have hs := (staticTable_inverse h idx).1 hr
      simp only
      by_cases hv : h.2.length > 0
      · rw [if_pos hv, ← staticTable_inverse, hr]
        have hv' := List.length_pos_iff.1 hv
        constructor
        · exact fun he => .inl ⟨hv', he⟩
        · rintro (⟨-, he⟩ | ⟨-, h2, -⟩)
          · exact he
          · exact absurd ⟨hv', idx, hs⟩ h2
      · rw [if_neg hv, hmap]
        have hv' : h.2 = [] := List.length_eq_zero_iff.1 (by omega)
        constructor
        · rintro ⟨h1, h2⟩; exact .inr ⟨h1, fun hc => hc.1 hv', h2⟩
        · rintro (⟨h1, -⟩ | ⟨h1, -, h2⟩)
          · exact absurd hv' h1
          · exact ⟨h1, h2⟩

/-- C124. For every entry of a header block, every table and encoding: `encode_header` returns exactly
the octets described by `EntryOctets`. -/
theorem C124_entry (e : HeaderEntry) (mode : EncodeMode) (table : DynamicTable) (bytes : Bytes) :
    encodeHeader e mode table = .ok bytes ↔ EntryOctets table mode e bytes := by
  constructor
  · intro h
    obtain ⟨p, v⟩ := e
    by_cases hp : p = .sizeUpdate
    · subst hp
      cases v with
      | header g => rw [C27_mistyped _ _ _ (.inl ⟨rfl, g, rfl⟩)] at h; cases h
      | maxSize n =>
          rw [encodeHeader_size, intOctets_eq (n := 5) (by omega) _ (value_mod .sizeUpdate)] at h
          obtain rfl := Res.ok.inj h
          exact .size n
    · cases v with
      | maxSize n => rw [C27_mistyped _ _ _ (.inr ⟨hp, n, rfl⟩)] at h; cases h
      | header g =>
          rw [encodeHeader_header hp] at h
          cases hx : hitIndex g table with
          | some i =>
              rw [hx] at h
              simp only [intOctets_eq (n := 7) (by omega) i (value_mod .indexed)] at h
              obtain rfl := Res.ok.inj h
              rcases hitIndex_unique.1 hx with ⟨h1, h2⟩ | ⟨h1, h2, h3, h4⟩
              · exact .static p g i hp h1 h2
              · have := EntryOctets.dynamic (mode := mode) p g (i - 62) hp h2 h3 h4
                rwa [show 62 + (i - 62) = i by omega] at this
          | none =>
              rw [hx] at h
              have hh := hitIndex_none.1 hx
              rcases (encodeLiteral_octets hp g mode bytes).1 h with
                ⟨i, value, h1, h2, rfl⟩ | ⟨h1, name, value, h2, h3, rfl⟩
              · exact .indexedName p g i value hp hh h1 h2
              · exact .newName p g name value hp hh h1 h2 h3
  · intro h
    cases h with
    | size n => rw [encodeHeader_size, intOctets_eq (n := 5) (by omega) _ (value_mod .sizeUpdate)]; rfl
    | static p h i hp hv hi =>
        rw [encodeHeader_header hp, hitIndex_unique.2 (.inl ⟨hv, hi⟩)]
        simp only [intOctets_eq (n := 7) (by omega) i (value_mod .indexed)]
        rfl
    | dynamic p h i hp hs hi hfirst =>
        rw [encodeHeader_header hp, (hitIndex_unique (i := 62 + i)).2 (.inr ⟨by omega, hs, by
          rw [Nat.add_sub_cancel_left]; exact ⟨hi, hfirst⟩⟩)]
        simp only [intOctets_eq (n := 7) (by omega) _ (value_mod .indexed)]
        rfl
    | indexedName p h i value hp hh hi hv =>
        rw [encodeHeader_header hp, hitIndex_none.2 hh]
        exact (encodeLiteral_octets hp h mode _).2 (.inl ⟨i, value, hi, hv, rfl⟩)
    | newName p h name value hp hh hi hn hv =>
        rw [encodeHeader_header hp, hitIndex_none.2 hh]
        exact (encodeLiteral_octets hp h mode _).2 (.inr ⟨hi, name, value, hn, hv, rfl⟩)

/-- C124. A header block is sent as the octets of its entries, one after the other. All entries are
encoded against the same table, the one given. -/
theorem C124_block (block : HeaderBlock) (mode : EncodeMode) (table : DynamicTable) (bytes : Bytes) :
    encodeHeaderBlock block mode table = .ok bytes ↔
      ∃ parts, List.Forall₂ (EntryOctets table mode) block parts ∧ bytes = parts.flatten := by
  induction block generalizing bytes with
  | nil =>
      constructor
      · intro h; exact ⟨[], .nil, (Res.ok.inj h).symm⟩
      · rintro ⟨parts, h, rfl⟩; cases h; rfl
  | cons e es ih =>
      unfold encodeHeaderBlock
      constructor
      · intro h
        cases h1 : encodeHeader e mode table with
        | ok b =>
            cases h2 : encodeHeaderBlock es mode table with
            | ok bs =>
                rw [h1, h2] at h
                obtain ⟨parts, h3, rfl⟩ := (ih bs).1 h2
                exact ⟨b :: parts, .cons ((C124_entry e mode table b).1 h1) h3,
                  (Res.ok.inj h).symm⟩
            | throw x => rw [h1, h2] at h; cases h
            | ub x => rw [h1, h2] at h; cases h
            | diverge => rw [h1, h2] at h; cases h
        | throw x => rw [h1] at h; cases h
        | ub x => rw [h1] at h; cases h
        | diverge => rw [h1] at h; cases h
      · rintro ⟨parts, h, rfl⟩
        cases h with
        | @cons _ b _ parts h1 h2 =>
            rw [(C124_entry e mode table b).2 h1, (ih _).2 ⟨parts, h2, rfl⟩]
            rfl

/-- The octets of a frame with any payload and any stream identifier. -/
theorem frame_any [Platform] (payload : Bytes) (type flags : UInt8) (sid : UInt32) :
    (⟨castToFhLength payload.length, type, flags, 0, sid⟩ : FrameHeader).serialize ++ payload =
      frameOctets type flags sid.toNat payload := by
  rw [serialize_plain]
  unfold frameOctets castToFhLength
  rw [be_eq_of_mod 3 (x := (UInt32.ofNat payload.length).toNat) (y := payload.length)]
  rw [UInt32.toNat_ofNat']
  norm_num

/-- C124, HEADERS: what a frame made with any arguments is sent as. The exclusive field is one bit
(C54: more is undefined), the top bit of the dependency is cut off. -/
theorem C124_headers [Platform] (flags : UInt8) (sid : UInt32) (block : HeaderBlock)
    (mode : EncodeMode) (table : DynamicTable) (padding : Bytes) (priority : PriorityOption)
    (octets : Bytes) :
    (∃ f, HeadersFrame.new flags sid block mode table padding priority = .ok f ∧
      f.serialize = .ok octets) ↔
    (hasPriority flags → priority.exclusive.toNat ≤ 1) ∧
      ∃ parts, List.Forall₂ (EntryOctets table mode) block parts ∧
        octets = frameOctets 1 flags sid.toNat (withPadding flags (withPriority flags
          { priority with
            streamDependency := UInt32.ofNat (priority.streamDependency.toNat % 2 ^ 31) }
          parts.flatten) padding) := by
  have hdep : (UInt32.ofNat (priority.streamDependency.toNat % 2 ^ 31)).toNat =
      priority.streamDependency.toNat % 2 ^ 31 := by
    rw [UInt32.toNat_ofNat']; omega
  have hlow : HeadersFrame.constructEncodedPayload flags block mode table padding priority =
      HeadersFrame.constructEncodedPayload flags block mode table padding
        { priority with
          streamDependency := UInt32.ofNat (priority.streamDependency.toNat % 2 ^ 31) } := by
    unfold HeadersFrame.constructEncodedPayload encodePriority
    simp only [lowBits_eq, hdep, Nat.mod_mod]
  unfold HeadersFrame.new
  by_cases hx : hasPriority flags → priority.exclusive.toNat ≤ 1
  · cases hb : encodeHeaderBlock block mode table with
    | ok enc =>
        rw [hlow, headers_encoded (by exact hx) (fun _ => by
          show (UInt32.ofNat _).toNat < _
          rw [hdep]; exact Nat.mod_lt _ (by norm_num)) hb]
        obtain ⟨parts, h1, rfl⟩ := (C124_block _ _ _ _).1 hb
        constructor
        · rintro ⟨f, hf, hs⟩
          obtain rfl := Res.ok.inj hf
          exact ⟨hx, parts, h1, by rw [← frame_any]; exact (Res.ok.inj hs).symm⟩
        · rintro ⟨-, parts', h2, rfl⟩
          have he := (C124_block _ _ _ _).2 ⟨parts', h2, rfl⟩
          rw [hb] at he
          rw [← Res.ok.inj he]
          exact ⟨_, rfl, by rw [← frame_any]; rfl⟩
    | _ =>
        constructor
        · rintro ⟨f, hf, -⟩
          unfold HeadersFrame.constructEncodedPayload at hf
          rw [hb] at hf
          by_cases hq : isFlagSet flags flagPriority
          · simp only [hq, if_true] at hf
            cases hp : encodePriority priority <;> rw [hp] at hf <;> cases hf
          · simp only [hq] at hf; cases hf
        · rintro ⟨-, parts', h2, -⟩
          rw [(C124_block _ _ _ _).2 ⟨parts', h2, rfl⟩] at hb; cases hb
  · constructor
    · rintro ⟨f, hf, -⟩
      obtain ⟨h1, h2⟩ := Classical.not_imp.1 hx
      have := C54_headers_exclusive_violated flags sid block mode table padding priority h1 (by omega)
      unfold HeadersFrame.new at this
      rw [this] at hf
      cases hf
    · rintro ⟨h1, -⟩; exact absurd h1 hx

/-- C124, PUSH_PROMISE: what a frame made with any arguments is sent as. Only the low bit of the
reserved field and 31 bits of the promised stream are used. -/
theorem C124_push_promise [Platform] (flags : UInt8) (sid : UInt32) (p : PushPromisePayload)
    (mode : EncodeMode) (table : DynamicTable) (octets : Bytes) :
    (∃ f, PushPromiseFrame.new flags sid p mode table = .ok f ∧ f.serialize = .ok octets) ↔
      ∃ parts, List.Forall₂ (EntryOctets table mode) p.headerBlock parts ∧
        octets = frameOctets 5 flags sid.toNat (withPadding flags
          (bitAnd31 (p.reserved.toNat % 2) (p.promisedStreamId.toNat % 2 ^ 31) ++ parts.flatten)
          p.padding) := by
  unfold PushPromiseFrame.new
  cases hb : encodeHeaderBlock p.headerBlock mode table with
  | ok enc =>
      rw [pushPromise_encoded hb]
      obtain ⟨parts, h1, rfl⟩ := (C124_block _ _ _ _).1 hb
      constructor
      · rintro ⟨f, hf, hs⟩
        obtain rfl := Res.ok.inj hf
        exact ⟨parts, h1, by rw [← frame_any]; exact (Res.ok.inj hs).symm⟩
      · rintro ⟨parts', h2, rfl⟩
        have he := (C124_block _ _ _ _).2 ⟨parts', h2, rfl⟩
        rw [hb] at he
        rw [← Res.ok.inj he]
        exact ⟨_, rfl, by rw [← frame_any]; rfl⟩
  | _ =>
      constructor
      · rintro ⟨f, hf, -⟩
        unfold PushPromiseFrame.constructEncodedPayload at hf
        rw [hb] at hf
        cases hf
      · rintro ⟨parts', h2, -⟩
        rw [(C124_block _ _ _ _).2 ⟨parts', h2, rfl⟩] at hb; cases hb

/-- C124, CONTINUATION: what a frame made with any arguments is sent as. -/
theorem C124_continuation [Platform] (flags : UInt8) (sid : UInt32) (block : HeaderBlock)
    (mode : EncodeMode) (table : DynamicTable) (octets : Bytes) :
    (∃ f, ContinuationFrame.new flags sid block mode table = .ok f ∧ f.serialize = .ok octets) ↔
      ∃ parts, List.Forall₂ (EntryOctets table mode) block parts ∧
        octets = frameOctets 9 flags sid.toNat parts.flatten := by
  unfold ContinuationFrame.new
  cases hb : encodeHeaderBlock block mode table with
  | ok enc =>
      obtain ⟨parts, h1, rfl⟩ := (C124_block _ _ _ _).1 hb
      constructor
      · rintro ⟨f, hf, hs⟩
        obtain rfl := Res.ok.inj hf
        exact ⟨parts, h1, by rw [← frame_any]; exact (Res.ok.inj hs).symm⟩
      · rintro ⟨parts', h2, rfl⟩
        have he := (C124_block _ _ _ _).2 ⟨parts', h2, rfl⟩
        rw [hb] at he
        rw [← Res.ok.inj he]
        exact ⟨_, rfl, by rw [← frame_any]; rfl⟩
  | _ =>
      constructor
      · rintro ⟨f, hf, -⟩; cases hf
      · rintro ⟨parts', h2, -⟩
        rw [(C124_block _ _ _ _).2 ⟨parts', h2, rfl⟩] at hb; cases hb

/-- A block of one entry of each kind: a size update, a static header, a header of the dynamic table,
a static name with another value, a new name. -/
example : encodeHeaderBlock [⟨.sizeUpdate, .maxSize 256⟩,
      ⟨.withoutIndexing, .header (bstr ":method", bstr "GET")⟩,
      ⟨.neverIndexed, .header (bstr "a", bstr "b")⟩,
      ⟨.incrementalIndexing, .header (bstr "host", bstr "h")⟩,
      ⟨.neverIndexed, .header (bstr "x", bstr "y")⟩] .none ⟨[(bstr "a", bstr "b")], 34, 4096⟩ =
    .ok [0x3f, 0xe1, 0x01, 0x82, 0xbe, 0x66, 1, 104, 0x10, 1, 120, 1, 121] := by decide +kernel

example : intOctets 32 5 256 = [0x3f, 0xe1, 0x01] ∧ intOctets 128 7 62 = [0xbe] := by
  simp [intOctets, intGroups]

attribute [local instance] x86 in
example : (do HeadersFrame.serialize (← HeadersFrame.new 0x2c 3
      [⟨.incrementalIndexing, .header (bstr "host", bstr "h")⟩] .none .default [0, 0]
      ⟨1, 0x80000005, 9⟩)) =
    .ok [0, 0, 11, 1, 0x2c, 0, 0, 0, 3, 2, 0x80, 0, 0, 5, 9, 0x66, 1, 104, 0, 0] := by
  decide +kernel

/-! ### Names -/

theorem static_names (name : Bytes) (h : ∃ i v, staticTableEntries.lookup i = some (name, v)) :
    (∀ i, staticTableEntries.lookup i ≠ some (name, [])) ↔
      name ∈ [ascii ":method", ascii ":path", ascii ":scheme", ascii ":status",
        ascii "accept-encoding"] := by
  have hall : ∀ e ∈ staticTableEntries, decide (e.2.1 ∈ [ascii ":method", ascii ":path",
      ascii ":scheme", ascii ":status", ascii "accept-encoding"]) =
      !(staticTableEntries.any fun x => x.2 == (e.2.1, [])) := by decide +kernel
  obtain ⟨i, v, hi⟩ := h
  have h1 := hall _ (lookup_mem hi)
  simp only at h1
  have h2 : (∀ i, staticTableEntries.lookup i ≠ some (name, [])) ↔
      staticTableEntries.any (fun x => x.2 == (name, [])) = false := by
    constructor
    · intro hn
      by_contra hc
      rw [Bool.not_eq_false, List.any_eq_true] at hc
      obtain ⟨⟨k, e⟩, hk, he⟩ := hc
      have he' : e = (name, []) := by simpa using he
      subst he'
      have hl : ∀ e ∈ staticTableEntries, staticTableEntries.lookup e.1 = some e.2 := by
        decide +kernel
      exact hn k (hl _ hk)
    · intro hf k hk
      have := List.any_eq_false.1 hf _ (lookup_mem hk)
      simp at this
  rw [h2, ← decide_eq_true_iff (p := name ∈ _), h1]
  cases staticTableEntries.any fun x => x.2 == (name, []) <;> simp

theorem intDecode_octets (p : HeaderPrefix) (i : Nat) (rest : Bytes) :
    intDecode (representation p).2
      (intOctets (representation p).1 (representation p).2 i ++ rest) = some (i, rest) := by
  have h := understands_rfc (nbits p) i p.value rest (nbits_le p) (value_mod p) trivial
  rw [intOctets_eq (nbits_le p) i (value_mod p)] at h
  cases p <;> exact h

/-- C125, exactly. A header that is in no table is sent with the index of its name, and without the
name, if and only if the static table has the name with an empty value. The index is that of the name.
Missing: the other names of the static table and those of the dynamic table, see below. -/
theorem C125_exact_partial (p : HeaderPrefix) (hp : IsLiteral p) (h : Header) (mode : EncodeMode)
    (table : DynamicTable) (hh : ¬ InTables h table) :
    ∃ bytes i rest, encodeHeader ⟨p, .header h⟩ mode table = .ok bytes ∧
      intDecode (representation p).2 bytes = some (i, rest) ∧
      (0 < i ↔ ∃ k, staticTableEntries.lookup k = some (h.1, [])) ∧
      (0 < i → staticTableEntries.lookup i = some (h.1, []) ∧ StringOctets mode h.2 rest) := by
  have hp' : p ≠ .sizeUpdate := by rcases hp with rfl | rfl | rfl <;> decide
  obtain ⟨bytes, hb, -⟩ := C27_well_typed ⟨p, .header h⟩ mode table (.inr ⟨hp', h, rfl⟩)
  have ho := (C124_entry _ mode table bytes).1 hb
  cases ho with
  | static _ _ i _ hv hi => exact absurd (.inl ⟨hv, i, hi⟩) hh
  | dynamic _ _ i _ _ hi _ => exact absurd (.inr (List.mem_of_getElem? hi)) hh
  | indexedName _ _ i value _ _ hi hv =>
      have h0 : 0 < i := ((staticTable_isSome i).1 (by rw [hi]; rfl)).1
      exact ⟨_, i, value, hb, intDecode_octets p i value, ⟨fun _ => ⟨i, hi⟩, fun _ => h0⟩,
        fun _ => ⟨hi, hv⟩⟩
  | newName _ _ name value _ _ hi _ _ =>
      refine ⟨_, 0, name ++ value, hb, ?_, ⟨fun hc => absurd hc (by omega), ?_⟩,
        fun hc => absurd hc (by omega)⟩
      · rw [List.append_assoc]; exact intDecode_octets p 0 _
      · rintro ⟨k, hk⟩; exact absurd hk (hi k)

/-- C125 is false of the code for these five names, and for no other name of the static table: they are
there, but not with an empty value, so they are spelled out with every value that is not there. -/
theorem C125_static_violated (p : HeaderPrefix) (hp : IsLiteral p) (h : Header) (mode : EncodeMode)
    (table : DynamicTable) (hh : ¬ InTables h table)
    (hs : ∃ i v, staticTableEntries.lookup i = some (h.1, v)) :
    (∃ name value, StringOctets mode h.1 name ∧ StringOctets mode h.2 value ∧
      encodeHeader ⟨p, .header h⟩ mode table =
        .ok (intOctets (representation p).1 (representation p).2 0 ++ name ++ value)) ↔
    h.1 ∈ [ascii ":method", ascii ":path", ascii ":scheme", ascii ":status",
      ascii "accept-encoding"] := by
  have hp' : p ≠ .sizeUpdate := by rcases hp with rfl | rfl | rfl <;> decide
  rw [← static_names h.1 hs]
  constructor
  · rintro ⟨name, value, -, -, he⟩ i hi
    obtain ⟨bytes, k, rest, e1, e2, e3, -⟩ := C125_exact_partial p hp h mode table hh
    rw [he] at e1
    obtain rfl := Res.ok.inj e1
    rw [List.append_assoc, intDecode_octets p 0] at e2
    have hk : (0 : Nat) = k := (Prod.mk.inj (Option.some.inj e2)).1
    have := e3.2 ⟨i, hi⟩
    omega
  · intro hi
    obtain ⟨n, -, -, n3⟩ := string_octets h.1 mode
    obtain ⟨v, -, -, v3⟩ := string_octets h.2 mode
    exact ⟨n, v, (n3 n).2 rfl, (v3 v).2 rfl, (C124_entry _ mode table _).2
      (.newName p h n v hp' hh hi ((n3 n).2 rfl) ((v3 v).2 rfl))⟩

/-- C125 is false of the code for the dynamic table, which is searched for whole headers only: a header
with the name of an entry, but another value, is spelled out unless the static table has the name. -/
theorem C125_dynamic_violated (p : HeaderPrefix) (hp : IsLiteral p) (h : Header) (v : Bytes)
    (mode : EncodeMode) (table : DynamicTable) (_ : (h.1, v) ∈ table.entries)
    (hh : ¬ InTables h table) (hs : ∀ i, staticTableEntries.lookup i ≠ some (h.1, [])) :
    ∃ name value, StringOctets mode h.1 name ∧ StringOctets mode h.2 value ∧
      encodeHeader ⟨p, .header h⟩ mode table =
        .ok (intOctets (representation p).1 (representation p).2 0 ++ name ++ value) := by
  have hp' : p ≠ .sizeUpdate := by rcases hp with rfl | rfl | rfl <;> decide
  obtain ⟨n, -, -, n3⟩ := string_octets h.1 mode
  obtain ⟨v, -, -, v3⟩ := string_octets h.2 mode
  exact ⟨n, v, (n3 n).2 rfl, (v3 v).2 rfl, (C124_entry _ mode table _).2
    (.newName p h n v hp' hh hs ((n3 n).2 rfl) ((v3 v).2 rfl))⟩

/-- `host` is in the static table with an empty value, `:path` only with values, `x` is new. -/
example : encodeHeader ⟨.withoutIndexing, .header (bstr "host", bstr "h")⟩ .none .default =
      .ok [0x0f, 0x17, 1, 104] ∧
    encodeHeader ⟨.withoutIndexing, .header (bstr ":path", bstr "/a")⟩ .none .default =
      .ok [0, 5, 58, 112, 97, 116, 104, 2, 47, 97] ∧
    encodeHeader ⟨.neverIndexed, .header (bstr "x", bstr "2")⟩ .none
      ⟨[(bstr "x", bstr "1")], 34, 4096⟩ = .ok [0x10, 1, 120, 1, 50] := by decide +kernel

example : ¬ InTables (bstr ":path", bstr "/a") .default := by
  have h : ∀ e ∈ staticTableEntries, e.2 ≠ (bstr ":path", bstr "/a") := by decide +kernel
  rintro (⟨-, i, hi⟩ | hc)
  · exact h _ (lookup_mem hi) rfl
  · cases hc

end Mh2c
