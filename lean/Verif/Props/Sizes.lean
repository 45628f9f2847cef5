import Verif.Props.HeaderRfc
import Verif.Proofs.HeaderFrames

/-! C95: how many octets a header block takes. -/

namespace Mh2c
open Rfc

theorem intEnc_le (n v : Nat) (hi : UInt8) (hn : n ≤ 8) (hv : v < 2 ^ 64) :
    (intEnc n v hi).length ≤ 11 := by
  rw [intEnc_length]
  obtain ⟨b, bs, h1, -, h3⟩ := encodeIntegerValue_cons n v hn
  rw [h1, h3, List.length_cons]
  split
  · simp
  · have := (encodeIntTail_length (v - (2 ^ n - 1)) 10 (by omega)).2 (by norm_num; omega)
    omega

theorem huffCode_le30 (b : UInt8) : (huffCode b.toNat).length ≤ 30 := by
  have h : ∀ s ∈ List.range 256, (huffCode s).length ≤ 30 := by decide +kernel
  exact h _ (List.mem_range.2 b.toNat_lt)

theorem bytesBits_len (v : Bytes) : (bytesBits v).length = 8 * v.length := by
  induction v with
  | nil => rfl
  | cons b bs ih =>
      have hb : ∀ n x, (bits n x).length = n := by
        intro n
        induction n with
        | zero => intro x; rfl
        | succ n ih => intro x; simp [bits, ih]
      rw [bytesBits, List.flatMap_cons, List.length_append, hb, List.length_cons]
      rw [bytesBits] at ih
      omega

theorem huffman_le (s enc : Bytes) (h : Huffman.encode s = .ok enc) : enc.length ≤ 4 * s.length := by
  obtain ⟨e', pad, h1, h2, h3⟩ := encode_spec s
  rw [h] at h1
  obtain rfl := Res.ok.inj h1
  have hl := congrArg List.length h3
  rw [bytesBits_len, List.length_append, List.length_replicate] at hl
  have hs : ∀ s : Bytes, (s.flatMap fun b => huffCode b.toNat).length ≤ 30 * s.length := by
    intro s
    induction s with
    | nil => simp
    | cons b bs ih =>
        rw [List.flatMap_cons, List.length_append, List.length_cons]
        have := huffCode_le30 b
        omega
  have := hs s
  by_cases h0 : s.length = 0
  · rw [List.length_eq_zero_iff] at h0
    subst h0
    have hz : (List.flatMap (fun b : UInt8 => huffCode b.toNat) []).length = 0 := rfl
    simp only [hz] at hl
    simp only [List.length_nil]
    omega
  · omega

theorem string_le (s : Bytes) (mode : EncodeMode) (out : Bytes) (hs : s.length < 2 ^ 61)
    (h : encodeHeaderValue s mode = .ok out) :
    out.length ≤ (if mode = .huffman then 4 * s.length else s.length) + 11 := by
  unfold encodeHeaderValue at h
  cases mode with
  | none =>
      simp only [reduceCtorEq, if_false, Res.ok_bind, orFirst_int] at h
      rw [← Res.ok.inj h, List.length_append]
      have := intEnc_le 7 s.length EncodeMode.none.value (by omega) (by omega)
      simp only [reduceCtorEq, if_false]
      omega
  | huffman =>
      simp only [if_true] at h
      obtain ⟨enc, -, h1, -⟩ := encode_spec s
      have hl := huffman_le s enc h1
      rw [h1] at h
      simp only [Res.ok_bind, orFirst_int] at h
      rw [← Res.ok.inj h, List.length_append]
      have := intEnc_le 7 enc.length EncodeMode.huffman.value (by omega) (by omega)
      simp only [if_true]
      omega

theorem reverse_lt62 (h : Header) (i : Nat) (hi : reverseStaticTableEntries.lookup h = some i) :
    i < 62 := by
  have hm : ∀ l : List (Header × Nat), (∀ e ∈ l, e.2 < 62) → l.lookup h = some i → i < 62 := by
    intro l
    induction l with
    | nil => intro _ h; cases h
    | cons a l ih =>
        intro hl hk
        rw [List.lookup_cons] at hk
        split at hk
        · obtain rfl := Option.some.inj hk
          exact hl _ (by simp)
        · exact ih (fun e he => hl e (List.mem_cons_of_mem _ he)) hk
  exact hm _ (by decide +kernel) hi

/-- C95. A header block that is encoded takes no more room than its header list size (RFC 7540
section 6.5.2); with Huffman coding at most four times the text and 32 octets for each header. -/
theorem C95_block_size (block : HeaderBlock) (mode : EncodeMode) (table : DynamicTable)
    (bytes : Bytes) (h : encodeHeaderBlock block mode table = .ok bytes)
    (hc : ∀ e ∈ block, EntryCounts e) (ht : table.entries.length < 2 ^ 61) :
    bytes.length ≤ (block.map (entryRoom mode)).sum := by
  have hone : ∀ (e : HeaderEntry) b, EntryCounts e → encodeHeader e mode table = .ok b →
      b.length ≤ entryRoom mode e := by
    rintro ⟨p, v⟩ b hc he
    by_cases hp : p = .sizeUpdate
    · subst hp
      cases v with
      | header g => simp [encodeHeader, HeaderEntry.getMaxSize] at he
      | maxSize n =>
          rw [encodeHeader_size] at he
          rw [← Res.ok.inj he]
          have := intEnc_le 5 n HeaderPrefix.sizeUpdate.value (by omega) hc
          show _ ≤ 32
          omega
    · cases v with
      | maxSize n => simp [encodeHeader, HeaderEntry.getHeader, hp] at he
      | header g =>
          rw [encodeHeader_header hp] at he
          have hroom : 32 ≤ entryRoom mode ⟨p, .header g⟩ := by
            cases mode <;> simp [entryRoom]
          cases hh : hitIndex g table with
          | some i =>
              rw [hh] at he
              rw [← Res.ok.inj he]
              have hi : i < 2 ^ 64 := by
                rcases hitIndex_some hh with ⟨_, h2, _⟩ | ⟨h1, h2, _⟩
                · omega
                · have := (List.getElem?_eq_some_iff.1 h2).1
                  omega
              have := intEnc_le 7 i HeaderPrefix.indexed.value (by omega) hi
              omega
          | none =>
              rw [hh] at he
              unfold encodeLiteral at he
              obtain ⟨hn, hv⟩ := hc
              cases hr : reverseStaticTableEntries.lookup (g.1, []) with
              | some i =>
                  simp only [hr, encodeIndex_eq hp, Res.ok_bind] at he
                  have hi := intEnc_le (nbits p) i p.value (nbits_le p)
                    (by have := reverse_lt62 _ _ hr; omega)
                  cases hs : encodeHeaderValue g.2 mode with
                  | ok out =>
                      rw [hs] at he
                      rw [← Res.ok.inj he, List.length_append]
                      have := string_le _ _ _ hv hs
                      cases mode <;> simp [entryRoom] at this ⊢ <;> omega
                  | throw e => rw [hs] at he; cases he
                  | ub k => rw [hs] at he; cases he
                  | diverge => rw [hs] at he; cases he
              | none =>
                  simp only [hr, encodeIndex_eq hp, Res.ok_bind] at he
                  have hi : (intEnc (nbits p) 0 p.value).length = 1 := by
                    cases p <;> rfl
                  cases hs1 : encodeHeaderName g.1 mode with
                  | ok o1 =>
                      rw [hs1] at he
                      cases hs2 : encodeHeaderValue g.2 mode with
                      | ok o2 =>
                          rw [hs2] at he
                          rw [← Res.ok.inj he, List.length_append, List.length_append]
                          have h1 := string_le g.1 mode o1 hn hs1
                          have h2 := string_le _ _ _ hv hs2
                          cases mode <;> simp [entryRoom] at h1 h2 ⊢ <;> omega
                      | throw e => rw [hs2] at he; cases he
                      | ub k => rw [hs2] at he; cases he
                      | diverge => rw [hs2] at he; cases he
                  | throw e => rw [hs1] at he; cases he
                  | ub k => rw [hs1] at he; cases he
                  | diverge => rw [hs1] at he; cases he
  induction block generalizing bytes with
  | nil =>
      obtain rfl := Res.ok.inj h
      simp
  | cons e es ih =>
      rw [encodeHeaderBlock] at h
      cases he : encodeHeader e mode table with
      | ok b =>
          rw [he] at h
          cases hes : encodeHeaderBlock es mode table with
          | ok bs =>
              rw [hes] at h
              rw [← Res.ok.inj h, List.length_append, List.map_cons, List.sum_cons]
              have h1 := hone e b (hc e (by simp)) he
              have h2 := ih bs hes (fun x hx => hc x (List.mem_cons_of_mem _ hx))
              omega
          | throw x => rw [hes] at h; cases h
          | ub k => rw [hes] at h; cases h
          | diverge => rw [hes] at h; cases h
      | throw x => rw [he] at h; cases h
      | ub k => rw [he] at h; cases h
      | diverge => rw [he] at h; cases h

/-- C95, whole frames: a HEADERS frame is at most 15 octets (frame header, pad length, priority) and
its padding longer than the room of its entries; CONTINUATION at most 9, PUSH_PROMISE at most 14. -/
theorem C95_frame_size [Platform] (flags : UInt8) (sid : UInt32) (block : HeaderBlock)
    (mode : EncodeMode) (table : DynamicTable) (padding wire : Bytes) (priority : PriorityOption)
    (reserved : UInt8) (promised : UInt32)
    (hc : ∀ e ∈ block, EntryCounts e) (ht : table.entries.length < 2 ^ 61) :
    ((do let f ← HeadersFrame.new flags sid block mode table padding priority
         f.serialize) = .ok wire →
      wire.length ≤ 15 + (block.map (entryRoom mode)).sum + padding.length) ∧
    ((do let f ← ContinuationFrame.new flags sid block mode table
         f.serialize) = .ok wire →
      wire.length ≤ 9 + (block.map (entryRoom mode)).sum) ∧
    ((do let f ← PushPromiseFrame.new flags sid ⟨reserved, promised, block, padding⟩ mode table
         f.serialize) = .ok wire →
      wire.length ≤ 14 + (block.map (entryRoom mode)).sum + padding.length) := by
  have hpad : ∀ b : Bool, (if b = true then [u8 padding.length] else []).length ≤ 1 := by
    intro b; cases b <;> simp
  have hpad2 : ∀ b : Bool, (if b = true then padding else []).length ≤ padding.length := by
    intro b; cases b <;> simp
  refine ⟨?_, ?_, ?_⟩
  · intro h
    unfold HeadersFrame.new HeadersFrame.constructEncodedPayload at h
    cases hb : encodeHeaderBlock block mode table with
    | ok bytes =>
        have h1 := C95_block_size block mode table bytes hb hc ht
        have h2 := hpad (isFlagSet flags flagPadded)
        have h3 := hpad2 (isFlagSet flags flagPadded)
        by_cases hf : isFlagSet flags flagPriority = true
        · simp only [hf, if_true, hb] at h
          unfold encodePriority at h
          cases hs : shlInt priority.exclusive.toNat 31 with
          | ok e =>
              rw [hs] at h
              rw [← Res.ok.inj h]
              simp only [List.length_append, FrameHeader.serialize_length, integral2bytes_eq,
                be_length, List.length_singleton]
              omega
          | ub k => rw [hs] at h; cases h
          | throw e => rw [hs] at h; cases h
          | diverge => rw [hs] at h; cases h
        · simp only [hf, hb] at h
          rw [← Res.ok.inj h]
          simp only [List.length_append, FrameHeader.serialize_length, List.length_nil]
          omega
    | throw x =>
        by_cases hf : isFlagSet flags flagPriority = true
        · simp only [hf, if_true, hb] at h
          unfold encodePriority at h
          cases hs : shlInt priority.exclusive.toNat 31 <;> rw [hs] at h <;> cases h
        · simp only [hf, hb] at h; cases h
    | ub k =>
        by_cases hf : isFlagSet flags flagPriority = true
        · simp only [hf, if_true, hb] at h
          unfold encodePriority at h
          cases hs : shlInt priority.exclusive.toNat 31 <;> rw [hs] at h <;> cases h
        · simp only [hf, hb] at h; cases h
    | diverge =>
        by_cases hf : isFlagSet flags flagPriority = true
        · simp only [hf, if_true, hb] at h
          unfold encodePriority at h
          cases hs : shlInt priority.exclusive.toNat 31 <;> rw [hs] at h <;> cases h
        · simp only [hf, hb] at h; cases h
  · intro h
    unfold ContinuationFrame.new at h
    cases hb : encodeHeaderBlock block mode table with
    | ok bytes =>
        rw [hb] at h
        rw [← Res.ok.inj h]
        have h1 := C95_block_size block mode table bytes hb hc ht
        simp only [List.length_append, FrameHeader.serialize_length]
        omega
    | throw x => rw [hb] at h; cases h
    | ub k => rw [hb] at h; cases h
    | diverge => rw [hb] at h; cases h
  · intro h
    unfold PushPromiseFrame.new PushPromiseFrame.constructEncodedPayload at h
    cases hb : encodeHeaderBlock block mode table with
    | ok bytes =>
        simp only [hb] at h
        rw [← Res.ok.inj h]
        have h1 := C95_block_size block mode table bytes hb hc ht
        have h2 := hpad (isFlagSet flags flagPadded)
        have h3 := hpad2 (isFlagSet flags flagPadded)
        simp only [List.length_append, FrameHeader.serialize_length, netBytes_eq, be_length]
        omega
    | throw x => simp only [hb] at h; cases h
    | ub k => simp only [hb] at h; cases h
    | diverge => simp only [hb] at h; cases h

/-- Huffman coding can make a header longer: four line feeds take fifteen octets. -/
example : (do
    let w ← encodeHeaderBlock [⟨.neverIndexed, .header (bstr "a", bstr "\n\n\n\n")⟩] .huffman .default
    return w.length) = Res.ok (1 + 2 + 16) := by decide +kernel

example : ∀ e ∈ [(⟨.neverIndexed, .header (bstr "a", bstr "\n\n\n\n")⟩ : HeaderEntry)],
    EntryCounts e := by
  intro e he
  rw [List.mem_singleton] at he
  subst he
  constructor <;> decide

end Mh2c
