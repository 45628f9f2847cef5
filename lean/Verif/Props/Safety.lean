/-
C79, C80: which received octets are safe to decode.
-/
import Verif.Proofs.Safety
import Verif.Props.HeaderFrames
import Verif.Spec.Session
import Verif.Props.Loose

namespace Mh2c

open Rfc DynamicTable

/-! ## C79 -/

/-- C79 is false of the code: a header field representation cut short anywhere is not rejected, the
decoder runs past the end of its input. -/
theorem C79_cut_violated [Platform] (raw : Bytes) (table : DynamicTable) (e : HeaderEntry) (n k : Nat)
    (h : decodeHeader raw table = .ok (e, n)) (hk : k < n) :
    (decodeHeader (raw.take k) table).IsUb := decodeHeader_cut h hk

/-- C79, the same for header blocks: whatever is left of a block that was decoded either decodes to
the first headers of it or is undefined behaviour; there is no third outcome, in particular no
exception. -/
theorem C79_cut_block_violated [Platform] (raw : Bytes) (table : DynamicTable) (es : HeaderBlock)
    (h : decodeHeaderBlock raw table = .ok es) (k : Nat) :
    (∃ j, decodeHeaderBlock (raw.take k) table = .ok (es.take j)) ∨
      (decodeHeaderBlock (raw.take k) table).IsUb := by
  rcases decodeHeaderBlock_append (raw.take k) (raw.drop k) table with h1 | h1
  · rw [List.take_append_drop, h] at h1
    obtain ⟨a, ha, h1⟩ := Res.bind_eq_ok.1 h1.symm
    obtain ⟨b, hb, h1⟩ := Res.bind_eq_ok.1 h1
    obtain rfl := Res.ok.inj h1
    exact Or.inl ⟨a.length, by rw [ha, List.take_left]⟩
  · exact Or.inr h1

/-- C79, the part that holds: a block of complete representations, with integers in their shortest
form, is decoded or rejected by an exception, whatever the strings contain and whatever the indices
refer to. Missing: incomplete blocks (false, see above), and tables with an empty name, longer
integers and platforms that object to `v[v.size()]`, for each of which it is false (see below). -/
theorem C79_complete_partial [P : Platform] (hP : P.strictIndex = false) (raw : Bytes)
    (table : DynamicTable) (ht : NamedTable table) (h : BlockSpan intDecodeMinimal raw) :
    (decodeHeaderBlock raw table).Safe := decodeHeaderBlock_span hP ht h

/-- A literal with a new name and a Huffman coded value that is not a Huffman code: complete. -/
theorem span_example : BlockSpan intDecodeMinimal [0x40, 1, 0x61, 0x81, 0x00, 0xff, 0x00] :=
  .cons _ [0xff, 0x00]
    (.newName 0x40 _ [1, 0x61, 0x81, 0x00, 0xff, 0x00] [0x81, 0x00, 0xff, 0x00] _ 6
      (Or.inl ⟨by decide, by decide, rfl⟩) (by decide +kernel) (.mk _ [0x61] _ (by decide +kernel))
      (.mk _ [0x00] _ (by decide +kernel)))
    (.cons _ [] (.indexed 0xff _ _ 127 (by decide) (by decide +kernel)) .nil)

attribute [local instance] x86 in
example : decodeHeader [0x40, 1, 0x61, 1, 0x62] .default =
      .ok (⟨.incrementalIndexing, .header (bstr "a", bstr "b")⟩, 5) ∧
    (decodeHeader [0x40, 1, 0x61, 1] .default) = .ub .outOfBounds ∧
    decodeHeader [0xff, 0x00] .default = .throw .outOfRange := by
  decide +kernel

example : NamedTable ⟨[(bstr "a", [])], 33, 4096⟩ := by
  intro h hm
  simp only [List.mem_singleton] at hm
  subst hm
  decide

/-- The condition on the table is needed: after a header with an empty name has been inserted, a
complete literal that refers to it is read past its end. -/
theorem C79_empty_name_violated [P : Platform] (value : Bytes) (rest : List Header) (size max : Nat) :
    BlockSpan intDecodeMinimal [0x7e, 1, 0x61] ∧
      (decodeHeaderBlock [0x7e, 1, 0x61] ⟨([], value) :: rest, size, max⟩).IsUb := by
  constructor
  · exact .cons _ [] (.indexedName 0x7e _ [1, 0x61] _ 6 62 (Or.inl ⟨by decide, by decide, rfl⟩)
      (by decide +kernel) (by decide) (.mk _ [0x61] _ (by decide +kernel))) .nil
  · rw [decodeHeaderBlock_eq (by simp)]
    have h1 : decodeIntWithLength 6 [0x7e, 1, 0x61] = .ok (62, 1) := by decide +kernel
    have h2 : decodeHeaderString [1, 0x61] = .ok ([0x61], 2) := by
      rcases P with ⟨_ | _, _ | _⟩ <;> decide +kernel
    have h3 : decodeHeaderString [] = .ub .outOfBounds := by
      rcases P with ⟨_ | _, _ | _⟩ <;> decide +kernel
    have : decodeHeader [0x7e, 1, 0x61] ⟨([], value) :: rest, size, max⟩ = .ub .outOfBounds := by
      unfold decodeHeader
      simp only [front, Res.ok_bind, checkPrefix_eq]
      have hc : prefixClass (0x7e : UInt8).toNat = .incrementalIndexing := by decide
      rw [hc, if_neg (by decide)]
      simp only [decodeIndex]
      rw [h1, Res.ok_bind]
      simp only
      rw [if_pos (by decide)]
      change decodeLiteral [0x7e, 1, 0x61] .incrementalIndexing ([], value) 1 = _
      unfold decodeLiteral
      rw [eraseFirst_drop (by simp), Res.ok_bind]
      simp only [List.drop_succ_cons, List.drop_zero, List.length_nil, if_true]
      rw [h2, Res.ok_bind]
      simp only
      rw [eraseFirst_drop (by simp), Res.ok_bind]
      simp only [List.drop_succ_cons, List.drop_zero]
      rw [h3]
      rfl
    rw [this]
    exact ⟨_, rfl⟩

/-- The condition on the integers is needed: a complete literal whose index 15 takes three octets
where two do, and whose value is `a`, is read past its end. -/
theorem C79_longer_integer_violated [P : Platform] (table : DynamicTable) :
    BlockSpan intDecode [0x0f, 0x80, 0x00, 0x01, 0x61] ∧
      (decodeHeaderBlock [0x0f, 0x80, 0x00, 0x01, 0x61] table).IsUb := by
  constructor
  · exact .cons _ [] (.indexedName 0x0f _ [1, 0x61] _ 4 15 (Or.inr ⟨by decide, rfl⟩)
      (by decide +kernel) (by decide) (.mk _ [0x61] _ (by decide +kernel))) .nil
  · rw [decodeHeaderBlock_eq (by simp)]
    have h0 : decodeHeader [0x0f, 0x80, 0x00, 0x01, 0x61] table =
        decodeLiteral [0x0f, 0x80, 0x00, 0x01, 0x61] .withoutIndexing
          (bstr "accept-charset", []) 2 := by
      have h1 : decodeIntWithLength 4 [0x0f, 0x80, 0x00, 0x01, 0x61] = .ok (15, 2) := by
        decide +kernel
      unfold decodeHeader
      simp only [front, Res.ok_bind, checkPrefix_eq]
      have hc : prefixClass (0x0f : UInt8).toNat = .withoutIndexing := by decide
      rw [hc, if_neg (by decide)]
      simp only [decodeIndex]
      rw [h1, Res.ok_bind]
      rfl
    have h1 : decodeHeader [0x0f, 0x80, 0x00, 0x01, 0x61] table =
        .ok (⟨.withoutIndexing, .header (bstr "accept-charset", [])⟩, 3) := by
      rw [h0]
      rcases P with ⟨_ | _, _ | _⟩ <;> rfl
    have h2 : decodeHeader [0x01, 0x61] table = .ub .outOfBounds := by
      rcases P with ⟨_ | _, _ | _⟩ <;> rfl
    rw [h1, Res.ok_bind]
    simp only [List.drop_succ_cons, List.drop_zero]
    rw [decodeHeaderBlock_eq (by simp), h2]
    exact ⟨_, rfl⟩

/-- The condition on the platform is needed: a complete literal with an empty value. -/
theorem C79_empty_string_violated [P : Platform] (hP : P.strictIndex = true) (table : DynamicTable) :
    BlockSpan intDecodeMinimal [0x00, 1, 0x61, 0] ∧
      (decodeHeaderBlock [0x00, 1, 0x61, 0] table).IsUb := by
  constructor
  · exact .cons _ [] (.newName 0x00 _ [1, 0x61, 0] [0] _ 4 (Or.inr ⟨by decide, rfl⟩)
      (by decide +kernel) (.mk _ [0x61] _ (by decide +kernel)) (.mk _ [] _ (by decide +kernel))) .nil
  · have h1 : ∃ k, decodeHeader [0x00, 1, 0x61, 0] table = .ub k := by
      rcases P with ⟨_ | _, _ | _⟩ <;> first | exact ⟨_, rfl⟩ | cases hP
    obtain ⟨k, h1⟩ := h1
    rw [decodeHeaderBlock_eq (by simp), h1]
    exact ⟨_, rfl⟩

/-! ## C80 -/

/-- C80. Frames other than HEADERS, SETTINGS, PUSH_PROMISE and CONTINUATION: whatever the header and
the payload, build_frame returns a frame or throws. -/
theorem C80_build_fixed [Platform] (fh : FrameHeader) (raw : Bytes) (table : DynamicTable)
    (h : fh.type ∉ [1, 4, 5, 9]) : (buildFrame fh raw table).Safe := by
  simp only [List.mem_cons, List.not_mem_nil, or_false, not_or] at h
  rcases type_cases fh.type with h' | h' | h' | h' | h' | h' | h' | h' | h' | h' | h'
  · rw [buildFrame_data _ _ _ h']; trivial
  · exact absurd h' h.1
  · rw [buildFrame_priority _ _ _ h', safe_map]
    by_cases hl : 5 ≤ raw.length
    · rw [priority_ofRaw _ hl]; trivial
    · unfold PriorityFrame.ofRaw PriorityFrame.constructPayload
      rw [if_pos (by omega)]; trivial
  · rw [buildFrame_rstStream _ _ _ h', safe_map]
    by_cases hl : 4 ≤ raw.length
    · rw [rstStream_ofRaw _ hl]; trivial
    · unfold RstStreamFrame.ofRaw
      rw [if_pos (by omega)]; trivial
  · exact absurd h' h.2.1
  · exact absurd h' h.2.2.1
  · rw [buildFrame_ping _ _ _ h']; trivial
  · rw [buildFrame_goaway _ _ _ h', safe_map]
    by_cases hl : 8 ≤ raw.length
    · rw [goaway_ofRaw _ hl]; trivial
    · unfold GoawayFrame.ofRaw
      rw [if_pos (by omega)]; trivial
  · rw [buildFrame_windowUpdate _ _ _ h', safe_map]
    by_cases hl : raw.length = 4
    · rw [windowUpdate_ofRaw _ hl]; trivial
    · unfold WindowUpdateFrame.ofRaw constructReserved constructWindowSize
      rw [if_pos hl]
      split
      · trivial
      · rw [readAt_ok (by omega)]; trivial
  · exact absurd h' h.2.2.2
  · rw [buildFrame_unknown _ _ _ h']; trivial

/-- C80. SETTINGS: exactly the payloads of whole settings are safe. -/
theorem C80_build_settings [Platform] (fh : FrameHeader) (raw : Bytes) (table : DynamicTable)
    (h : fh.type = 4) : (buildFrame fh raw table).Safe ↔ raw.length % 6 = 0 := by
  constructor
  · intro hs
    by_contra hc
    rw [C50_malformed_settings_violated fh h raw table hc] at hs
    exact hs
  · intro hl
    obtain ⟨_, _, -, hb, -⟩ := C50_well_formed_partial fh h raw table hl
    rw [hb]; trivial

theorem build_blocks_safe [Platform] (fh : FrameHeader) (raw : Bytes) (table : DynamicTable)
    (h : fh.type ∈ [1, 5, 9]) :
    (buildFrame fh raw table).Safe ↔
      ∃ block, CarriesBlock fh.flags fh.type raw block ∧ (decodeHeaderBlock block table).Safe := by
  simp only [List.mem_cons, List.not_mem_nil, or_false] at h
  rcases h with h | h | h
  · rw [buildFrame_headers _ _ _ h, h, ← headersOfRaw_safe, buildHeadersFrame]
    cases HeadersFrame.ofRaw fh raw table <;> exact Iff.rfl
  · rw [buildFrame_pushPromise _ _ _ h, h, ← pushPromiseOfRaw_safe, safe_map]
  · rw [buildFrame_continuation _ _ _ h, h, ← continuationOfRaw_safe, safe_map]

/-- C80. HEADERS, PUSH_PROMISE and CONTINUATION: exactly the payloads are safe whose padding leaves
room for the fixed fields and a header block that the client reads or rejects (C121 says which). -/
theorem C80_build_blocks [Platform] (fh : FrameHeader) (raw : Bytes) (table : DynamicTable)
    (h : fh.type ∈ [1, 5, 9]) :
    (buildFrame fh raw table).Safe ↔
      ∃ block, CarriesBlock fh.flags fh.type raw block ∧
        ((∃ es, ReadsAs table.entries block es) ∨ ∃ e, Rejects table.entries block e) := by
  rw [build_blocks_safe fh raw table h]
  simp only [safe_iff]

/-- C80. With the previous theorem and C79: a frame that carries complete representations is safe to
build. -/
theorem C80_build_complete [P : Platform] (hP : P.strictIndex = false) (fh : FrameHeader)
    (raw block : Bytes) (table : DynamicTable) (ht : NamedTable table)
    (h : CarriesBlock fh.flags fh.type raw block) (hb : BlockSpan intDecodeMinimal block) :
    (buildFrame fh raw table).Safe := by
  have hm : fh.type ∈ [1, 5, 9] := by
    generalize fh.type = t at h
    cases h <;> decide
  exact (build_blocks_safe fh raw table hm).2 ⟨block, h, C79_complete_partial hP block table ht hb⟩

/-- The outcome of receive_frame is that of processing a frame, or a transport exception. -/
theorem receive_safe [Platform] (c : Client)
    (h : ∀ fh, buildFrameHeader (c.conn.incoming.take 9) = .ok fh →
      frameLength c.conn.incoming ≤ c.conn.incoming.length →
      (processTable fh ((c.conn.incoming.drop 9).take (announced c.conn.incoming))
        c.responseTable).1.Safe) : c.receiveFrame.1.Safe := by
  obtain ⟨reads', -, ⟨k, -, -, e⟩ | ⟨fh, e1, -, e2, -, e⟩⟩ := receiveFrame_cases c
  · rw [e]; trivial
  · rw [e, processFrame_eq]
    exact h fh e1 e2

theorem built_safe [Platform] {fh : FrameHeader} {raw : Bytes} {t : DynamicTable}
    (hb : (buildFrame fh raw t).Safe)
    (hu : ∀ f, buildFrame fh raw t = .ok f → (updateDynamicTableFrame f t).1.Safe) :
    (processTable fh raw t).1.Safe := by
  unfold processTable
  cases h : buildFrame fh raw t with
  | ok f =>
      have := hu f h
      simp only
      rcases hx : updateDynamicTableFrame f t with ⟨_ | _ | _ | _, t'⟩ <;> rw [hx] at this
      · trivial
      · trivial
      · exact this
      · exact this
  | throw e => trivial
  | ub k => rw [h] at hb; exact hb
  | diverge => rw [h] at hb; exact hb

theorem header_type {incoming : Bytes} {fh : FrameHeader} {type : UInt8}
    (h : buildFrameHeader (incoming.take 9) = .ok fh) (ht : incoming[3]? = some type) :
    fh.type = type := by
  have hl : 9 ≤ (incoming.take 9).length := by
    by_contra hc
    rw [buildFrameHeader_short _ (by omega)] at h
    cases h
  rw [buildFrameHeader_eq _ hl] at h
  rw [← Res.ok.inj h]
  rw [List.length_take] at hl
  rw [List.getElem?_eq_getElem (by omega)] at ht
  simp only [List.getElem_take]
  exact Option.some.inj ht

theorem header_flags {incoming : Bytes} {fh : FrameHeader}
    (h : buildFrameHeader (incoming.take 9) = .ok fh) : incoming[4]? = some fh.flags := by
  have hl : 9 ≤ (incoming.take 9).length := by
    by_contra hc
    rw [buildFrameHeader_short _ (by omega)] at h
    cases h
  rw [buildFrameHeader_eq _ hl] at h
  rw [← Res.ok.inj h]
  rw [List.length_take] at hl
  rw [List.getElem?_eq_getElem (by omega)]
  simp only [List.getElem_take]

theorem payload_length {incoming : Bytes} (h : frameLength incoming ≤ incoming.length) :
    ((incoming.drop 9).take (announced incoming)).length = announced incoming := by
  unfold frameLength at h
  rw [List.length_take, List.length_drop]
  omega

/-- C80. receive_frame, in every state and for all incoming octets: a frame of a type other than
HEADERS, SETTINGS, PUSH_PROMISE and CONTINUATION is returned or an exception is thrown. -/
theorem C80_receive_fixed [Platform] (c : Client) (type : UInt8)
    (ht : c.conn.incoming[3]? = some type) (h : type ∉ [1, 4, 5, 9]) : c.receiveFrame.1.Safe := by
  refine receive_safe c fun fh h1 _ => built_safe ?_ ?_
  · exact C80_build_fixed fh _ _ (by rw [header_type h1 ht]; exact h)
  · intro f hf
    rw [updateFrame_built (built_of_ok hf)]
    have ht' := header_type h1 ht
    rw [← ht'] at h
    cases built_of_ok hf with
    | headers h' => rw [h'] at h; simp at h
    | rawHeaders h' => rw [h'] at h; simp at h
    | settings h' => rw [h'] at h; simp at h
    | pushPromise h' => rw [h'] at h; simp at h
    | continuation h' => rw [h'] at h; simp at h
    | _ => trivial

/-- C80. SETTINGS of whole settings, on an accounted table. -/
theorem C80_receive_settings [Platform] (c : Client) (ht : c.conn.incoming[3]? = some 4)
    (hok : Accounted c.responseTable) (hmax : c.responseTable.maxTableSize < 2 ^ 63)
    (hl : announced c.conn.incoming % 6 = 0) : c.receiveFrame.1.Safe := by
  refine receive_safe c fun fh h1 h2 => built_safe ?_ ?_
  · exact (C80_build_settings fh _ _ (header_type h1 ht)).2 (by rw [payload_length h2, hl])
  · intro f hf
    rw [updateFrame_built (built_of_ok hf)]
    have ht' := header_type h1 ht
    cases built_of_ok hf with
    | settings h' p hp =>
        simp only
        split
        · rename_i size _
          have hsz : size.toNat < 2 ^ 63 := lt_of_lt_of_le size.toNat_lt (by norm_num)
          obtain ⟨t', e1, -, -⟩ := updateTableSize_refines ⟨hok.1, hok.2, hmax⟩ hsz
          rw [e1]
          trivial
        · trivial
    | headers h' => rw [h'] at ht'; exact absurd ht' (by decide)
    | rawHeaders h' => rw [h'] at ht'; exact absurd ht' (by decide)
    | pushPromise h' => rw [h'] at ht'; exact absurd ht' (by decide)
    | continuation h' => rw [h'] at ht'; exact absurd ht' (by decide)
    | _ => trivial

/-- C80. Frames with a header block, on an accounted table: safe if the client reads the
block and the headers it inserts fit the table, or if it rejects the block and the frame is not a
HEADERS frame (for that C61 shows undefined behaviour). -/
theorem C80_receive_blocks [Platform] (c : Client) (type : UInt8) (h : type ∈ [1, 5, 9])
    (ht : c.conn.incoming[3]? = some type)
    (hok : Accounted c.responseTable) (hmax : c.responseTable.maxTableSize < 2 ^ 63)
    (hb : ∀ flags, c.conn.incoming[4]? = some flags → ∃ block,
      CarriesBlock flags type ((c.conn.incoming.drop 9).take (announced c.conn.incoming)) block ∧
      ((∃ es, ReadsAs c.responseTable.entries block es ∧
          InsertsFit c.responseTable.maxTableSize es) ∨
        (type ≠ 1 ∧ ∃ e, Rejects c.responseTable.entries block e))) : c.receiveFrame.1.Safe := by
  refine receive_safe c fun fh h1 h2 => ?_
  obtain ⟨block, b1, b2, b3, b4⟩ : ∃ block,
      CarriesBlock fh.flags type ((c.conn.incoming.drop 9).take (announced c.conn.incoming)) block ∧
      (decodeHeaderBlock block c.responseTable).Safe ∧
      (type = 1 → (decodeHeaderBlock block c.responseTable).Returns) ∧
      ∀ es, decodeHeaderBlock block c.responseTable = .ok es →
        InsertsFit c.responseTable.maxTableSize es := by
    obtain ⟨block, g1, ⟨es, g2, g3⟩ | ⟨g2, e, g3⟩⟩ := hb fh.flags (header_flags h1)
    · have hd := (C121_accepts block c.responseTable es).2 g2
      refine ⟨block, g1, by rw [hd]; trivial, fun _ => ⟨es, hd⟩, fun es' he => ?_⟩
      rw [hd] at he
      obtain rfl := Res.ok.inj he
      exact g3
    · have hd := (C121_rejects block c.responseTable e).2 g3
      refine ⟨block, g1, by rw [hd]; trivial, fun h1 => absurd h1 g2, fun es' he => ?_⟩
      rw [hd] at he
      cases he
  have ht' := header_type h1 ht
  rw [← ht'] at b1 b3 h
  have hin : c.responseTable.Inv := ⟨hok.1, hok.2, hmax⟩
  have key : ∀ es n, decodeHeaderBlock block c.responseTable = .ok es →
      (∀ e ∈ es, DecodedEntry n c.responseTable e) →
      (updateDynamicTable es c.responseTable).1.Safe := by
    intro es n hd hes
    rw [updateDynamicTable_fits hin (fun x hx => (hes x hx).typed)
      (fun x hx m hm => lt_trans ((hes x hx).size m hm) (by norm_num)) (b4 es hd)]
    trivial
  refine built_safe ((build_blocks_safe fh _ _ h).2 ⟨block, b1, b2⟩) ?_
  intro f hf
  rw [updateFrame_built (built_of_ok hf)]
  cases built_of_ok hf with
  | headers h' f hf' =>
      rw [h'] at b1
      exact key _ _ (headers_block b1 hf') (headers_entries hf').2
  | rawHeaders h' e hf' =>
      rw [h'] at b1
      obtain ⟨es, hes⟩ := b3 h'
      exact absurd hf' (headers_block_ok b1 hes e)
  | settings h' => rw [h'] at h; exact absurd h (by decide)
  | pushPromise h' f hf' =>
      rw [h'] at b1
      exact key _ _ (pushPromise_block b1 hf') (pushPromise_entries hf').2
  | continuation h' f hf' =>
      rw [h'] at b1
      exact key _ _ (continuation_block b1 hf') (continuation_entries hf').2
  | _ => trivial

/-- A padded HEADERS frame with priority fields and the block of `span_example`. -/
example : CarriesBlock 0x28 1
    ([2, 0, 0, 0, 0, 16] ++ [0x40, 1, 0x61, 0x81, 0x00, 0xff, 0x00] ++ [9, 9])
    [0x40, 1, 0x61, 0x81, 0x00, 0xff, 0x00] :=
  .headersPriority _ [0, 0, 0, 0, 16] _ (by decide)
    (.padded 2 ([0, 0, 0, 0, 16] ++ [0x40, 1, 0x61, 0x81, 0x00, 0xff, 0x00]) [9, 9] (by decide) rfl)
    rfl

/-- A PUSH_PROMISE frame that inserts a header. -/
example : CarriesBlock 4 5 [0, 0, 0, 2, 0x40, 1, 0x61, 1, 0x62] [0x40, 1, 0x61, 1, 0x62] ∧
    InsertsFit 4096 [⟨.incrementalIndexing, .header (bstr "a", bstr "b")⟩] ∧
    ¬ InsertsFit 4096 [⟨.sizeUpdate, .maxSize 33⟩,
      ⟨.incrementalIndexing, .header (bstr "a", bstr "b")⟩] :=
  ⟨.pushPromise _ [0, 0, 0, 2] _ (.plain _ (by decide)) rfl, ⟨by decide, trivial⟩,
    fun h => absurd h.1 (by decide)⟩

/-- The types of the first theorems are received: a GOAWAY frame that is too short. -/
example : (7 : UInt8) ∉ [1, 4, 5, 9] ∧ ([0, 0, 1, 7, 0, 0, 0, 0, 0, 5] : Bytes)[3]? = some 7 ∧
    announced [0, 0, 12, 4, 0, 0, 0, 0, 0] % 6 = 0 := by decide

end Mh2c
