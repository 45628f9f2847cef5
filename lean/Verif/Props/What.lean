/-
C134, C135: the texts of exceptions.
-/
import Verif.Proofs.WhatTexts
import Verif.Props.Causes
import Verif.Props.Stdout
import Verif.Props.Log

namespace Mh2c

open Rfc Told

/-! ## C134 -/

/-- What decoding a frame throws, with the text. -/
theorem buildFrameTold_throw [Platform] {fh : FrameHeader} {raw : Bytes} {t : DynamicTable} {e : Exc}
    {w : What} (h : (buildFrameTold fh raw t).1 = .throw e w) :
    (e = .invalidArgument ∧ WrongLength fh.type raw ∧ w = lengthText raw.length) ∨
    (e = .outOfRange ∧ 9 < fh.type.toNat ∧ w = .mapAt) ∨
    ((fh.type = 5 ∨ fh.type = 9) ∧ Texted raw t.entries e w) := by
  have size : invalidPayloadSize raw = lengthText raw.length := by
    unfold invalidPayloadSize lengthText
    rw [toString_eq]; rfl
  have hb : buildFrame fh raw t = .throw e := by rw [← buildFrameTold_toRes, h]; rfl
  have ht := buildFrame_throw hb
  rcases type_cases fh.type with g | g | g | g | g | g | g | g | g | g | g
  · rw [buildFrame_data _ _ _ g, buildDataFrame] at hb; cases hb
  · rw [buildFrame_headers _ _ _ g, buildHeadersFrame] at hb
    split at hb <;> cases hb
  · have hty : frameTypeOf fh.type = some .priority := by rw [g]; rfl
    unfold buildFrameTold at h
    rw [hty] at h
    have hp : (PriorityFrame.ofRawTold fh raw) = .throw e w := by
      rcases Told.bind_eq_throw h with h | ⟨_, -, h⟩
      · exact h
      · cases h
    have hl : e = .invalidArgument ∧ raw.length < 5 := by
      rw [g] at ht
      rcases ht with ⟨h1, (⟨-, h2⟩ | ⟨h2, -⟩ | ⟨h2, -⟩ | ⟨h2, -⟩) | ⟨h2, -⟩⟩ | ⟨-, h2 | ⟨h2, -⟩⟩
      · exact ⟨h1, h2⟩
      all_goals exact absurd h2 (by decide)
    refine Or.inl ⟨hl.1, Or.inl ⟨g, hl.2⟩, ?_⟩
    unfold PriorityFrame.ofRawTold at hp
    rw [← size]
    rcases Told.bind_eq_throw hp with h1 | ⟨p, h1, -⟩
    · exact (saying_eq_throw h1).2
    · exfalso
      rw [saying_eq_ok] at h1
      unfold PriorityFrame.constructPayload at h1
      rw [if_pos hl.2] at h1
      cases h1
  · have hty : frameTypeOf fh.type = some .rstStream := by rw [g]; rfl
    unfold buildFrameTold at h
    rw [hty] at h
    have hp : (RstStreamFrame.ofRawTold fh raw) = .throw e w := by
      rcases Told.bind_eq_throw h with h | ⟨_, -, h⟩
      · exact h
      · cases h
    have hl : e = .invalidArgument ∧ raw.length < 4 := by
      rw [g] at ht
      rcases ht with ⟨h1, (⟨h2, -⟩ | ⟨-, h2⟩ | ⟨h2, -⟩ | ⟨h2, -⟩) | ⟨h2, -⟩⟩ | ⟨-, h2 | ⟨h2, -⟩⟩
      rotate_left
      · exact ⟨h1, h2⟩
      all_goals exact absurd h2 (by decide)
    exact Or.inl ⟨hl.1, Or.inr (Or.inl ⟨g, hl.2⟩), by rw [← size]; exact (saying_eq_throw hp).2⟩
  · rw [buildFrame_settings _ _ _ g, buildSettingsFrame] at hb
    rcases Mh2c.bind_eq_throw hb with h1 | ⟨_, -, h2⟩
    · exact absurd h1 (parseSettings_ne_throw _ _ _)
    · cases h2
  · have hty : frameTypeOf fh.type = some .pushPromise := by rw [g]; rfl
    unfold buildFrameTold at h
    rw [hty] at h
    refine Or.inr (Or.inr ⟨Or.inl g, ?_⟩)
    rcases Told.bind_eq_throw h with h | ⟨_, -, h⟩
    swap
    · cases h
    unfold PushPromiseFrame.ofRawTold at h
    rcases Told.bind_eq_throw h with h1 | ⟨⟨padding, rest⟩, hp, h⟩
    · exact absurd h1 (quiet_ne_throw (extractPadding_ne_throw _ _) _ _)
    apply extractPadding_texted (saying_eq_ok.1 hp)
    rcases Told.bind_eq_throw h with h1 | ⟨_, -, h⟩
    · exact absurd h1 (quiet_ne_throw (readAt_ne_throw _ _) _ _)
    rcases Told.bind_eq_throw h with h1 | ⟨_, -, h⟩
    · exact absurd h1 (quiet_ne_throw (bytes2integral_ne_throw _ _) _ _)
    rcases Told.bind_eq_throw h with h1 | ⟨r, h7, h⟩
    · exact absurd h1 (quiet_ne_throw (eraseFirst_ne_throw _ _) _ _)
    rw [Told.quiet, saying_eq_ok] at h7
    unfold eraseFirst at h7
    split at h7
    swap
    · cases h7
    obtain rfl := (Res.ok.inj h7).symm
    apply Texted.of_drop (n := 4)
    rcases Told.bind_eq_throw h with h1 | ⟨_, -, h⟩
    · exact decodeHeaderBlockTold_what h1
    · cases h
  · rw [buildFrame_ping _ _ _ g] at hb
    cases hb
  · have hty : frameTypeOf fh.type = some .goaway := by rw [g]; rfl
    unfold buildFrameTold at h
    rw [hty] at h
    have hp : (GoawayFrame.ofRawTold fh raw) = .throw e w := by
      rcases Told.bind_eq_throw h with h | ⟨_, -, h⟩
      · exact h
      · cases h
    have hl : e = .invalidArgument ∧ raw.length < 8 := by
      rw [g] at ht
      rcases ht with ⟨h1, (⟨h2, -⟩ | ⟨h2, -⟩ | ⟨-, h2⟩ | ⟨h2, -⟩) | ⟨h2, -⟩⟩ | ⟨-, h2 | ⟨h2, -⟩⟩
      rotate_left 2
      · exact ⟨h1, h2⟩
      all_goals exact absurd h2 (by decide)
    exact Or.inl ⟨hl.1, Or.inr (Or.inr (Or.inl ⟨g, hl.2⟩)), by rw [← size]; exact (saying_eq_throw hp).2⟩
  · have hty : frameTypeOf fh.type = some .windowUpdate := by rw [g]; rfl
    unfold buildFrameTold at h
    rw [hty] at h
    have hp : (WindowUpdateFrame.ofRawTold fh raw) = .throw e w := by
      rcases Told.bind_eq_throw h with h | ⟨_, -, h⟩
      · exact h
      · cases h
    have hl : e = .invalidArgument ∧ raw.length ≠ 4 := by
      rw [g] at ht
      rcases ht with ⟨h1, (⟨h2, -⟩ | ⟨h2, -⟩ | ⟨h2, -⟩ | ⟨-, h2⟩) | ⟨h2, -⟩⟩ | ⟨-, h2 | ⟨h2, -⟩⟩
      rotate_left 3
      · exact ⟨h1, h2⟩
      all_goals exact absurd h2 (by decide)
    refine Or.inl ⟨hl.1, Or.inr (Or.inr (Or.inr ⟨g, hl.2⟩)), ?_⟩
    unfold WindowUpdateFrame.ofRawTold at hp
    rw [← size]
    rcases Told.bind_eq_throw hp with h1 | ⟨p, -, hp⟩
    · exact (saying_eq_throw h1).2
    rcases Told.bind_eq_throw hp with h1 | ⟨p, h1, -⟩
    · exact (saying_eq_throw h1).2
    · exfalso
      rw [saying_eq_ok] at h1
      unfold constructWindowSize at h1
      rw [if_pos hl.2] at h1
      cases h1
  · have hty : frameTypeOf fh.type = some .continuation := by rw [g]; rfl
    unfold buildFrameTold at h
    rw [hty] at h
    refine Or.inr (Or.inr ⟨Or.inr g, ?_⟩)
    rcases Told.bind_eq_throw h with h | ⟨_, -, h⟩
    swap
    · cases h
    unfold ContinuationFrame.ofRawTold at h
    rcases Told.bind_eq_throw h with h1 | ⟨_, -, h⟩
    · exact decodeHeaderBlockTold_what h1
    · cases h
  · have hn : frameTypeOf fh.type = none := by
      cases hf : frameTypeOf fh.type with
      | none => rfl
      | some ty =>
          have := List.find?_some hf
          simp only [beq_iff_eq] at this
          rw [← this] at g
          cases ty <;> exact absurd g (by decide)
    unfold buildFrameTold at h
    rw [hn] at h
    injection h with h1 h2
    exact Or.inr (Or.inl ⟨h1.symm, g, h2.symm⟩)

/-- The ways in which `receive_frame` throws, with the text. -/
theorem receiveFrameTold_cases [Platform] (c : Client) :
    ∃ reads', 
      ((∃ k n, k ≤ c.conn.incoming.length ∧
        (k < 9 ∧ n = 9 ∨ 9 ≤ k ∧ k < 9 + n ∧ n = beValue (c.conn.incoming.take 3)) ∧
        c.receiveFrameTold =
          (.throw .runtimeError (Client.readFailed n), c.consumed reads' k, [])) ∨
       (∃ fh, buildFrameHeader (c.conn.incoming.take 9) = .ok fh ∧
        9 + beValue (c.conn.incoming.take 3) ≤ c.conn.incoming.length ∧
        c.receiveFrameTold = ((c.consumed reads' (9 + beValue (c.conn.incoming.take 3))).processFrameTold
          fh ((c.conn.incoming.drop 9).take (beValue (c.conn.incoming.take 3)))))) := by
  obtain ⟨⟨incoming, sent, reads, writes⟩, rt, st⟩ := c
  simp only
  unfold Client.receiveFrameTold Client.receiveRawDataTold Client.receiveRawData Conn.read
    Client.consumed
  simp only
  obtain ⟨r1, -, h | ⟨k, h1, h2, h3⟩⟩ := readLoop_spec reads incoming 9
  · obtain ⟨h1, -, h3⟩ := h
    rw [h3]
    simp only [saying]
    obtain ⟨fh, hf, hl⟩ := announced_eq h1
    rw [hf]
    simp only
    rw [hl]
    by_cases h0 : beValue (incoming.take 3) > 0
    · rw [if_pos h0]
      obtain ⟨r2, -, h | ⟨k, g1, g2, g3⟩⟩ :=
        readLoop_spec r1 (incoming.drop 9) (beValue (incoming.take 3))
      · obtain ⟨g1, -, g3⟩ := h
        rw [g3]
        rw [List.length_drop] at g1
        exact ⟨r2, Or.inr ⟨fh, rfl, by omega, by rw [List.drop_drop]⟩⟩
      · rw [g3]
        rw [List.length_drop] at g2
        exact ⟨r2, Or.inl ⟨9 + k, _, by omega, Or.inr ⟨by omega, by omega, rfl⟩,
          by rw [List.drop_drop]⟩⟩
    · rw [if_neg h0]
      have h0' : beValue (incoming.take 3) = 0 := by omega
      refine ⟨r1, Or.inr ⟨fh, rfl, by omega, ?_⟩⟩
      rw [h0', List.take_zero]
  · rw [h3]
    exact ⟨r1, Or.inl ⟨k, 9, h2, Or.inl ⟨h1, rfl⟩, rfl⟩⟩

theorem processFrameTold_throw [Platform] {c : Client} {fh : FrameHeader} {raw : Bytes} {e : Exc}
    {w : What} (h : (c.processFrameTold fh raw).1 = .throw e w) :
    (buildFrameTold fh raw c.responseTable).1 = .throw e w ∧
      (c.processFrameTold fh raw).2.1 = c := by
  have hr : (processTable fh raw c.responseTable).1 = .throw e := by
    have := Client.processFrameTold_toRes c fh raw
    rw [processFrame_eq] at this
    rw [← (Prod.mk.inj this).1, h]
    rfl
  obtain ⟨-, h2⟩ := processTable_throw hr
  rw [← buildFrameTold_toRes] at h2
  obtain ⟨w', h3⟩ := toRes_eq_throw.1 h2
  unfold Client.processFrameTold at h ⊢
  rcases hb : buildFrameTold fh raw c.responseTable with ⟨r, said⟩
  rw [hb] at h h3
  simp only at h3
  subst h3
  exact ⟨h, rfl⟩

/-- The library writes a line of its own only for HEADERS, and then decoding does not throw. -/
theorem buildFrameTold_said [Platform] (fh : FrameHeader) (raw : Bytes) (t : DynamicTable) :
    (buildFrameTold fh raw t).2 = [] ∨
    (fh.type = 1 ∧ (buildFrameTold fh raw t).1 = .ok (.raw ⟨fh, raw⟩) ∧
      ∃ e w, (buildFrameTold fh raw t).2 = [w] ∧ HeadersFrame.ofRawTold fh raw t = .throw e w) := by
  unfold buildFrameTold
  split <;> try exact Or.inl rfl
  rename_i h
  unfold buildHeadersFrameTold
  split <;> try exact Or.inl rfl
  rename_i e w hw
  refine Or.inr ⟨?_, rfl, e, w, rfl, hw⟩
  have := List.find?_some h
  simp only [beq_iff_eq] at this
  exact this.symm

/-- C134. The octets of a string that the Huffman decoder rejects are codes and then eight or more bits of
which no code is a prefix, and the text gives exactly their whole octets, and the octets needed for the
shortest code that is longer. It rejects no others. -/
theorem C134_huffman (data : Bytes) (e : Exc) (w : What) :
    (Huffman.decodeTold data = .throw e w ↔
      e = .invalidArgument ∧ ∃ left needed, EndsInCode data left needed ∧
        w = .said (ascii "invalid argument: encoded_data.size()=" ++ decimal left ++
          ascii ", required_byte=" ++ decimal needed)) ∧
    ∀ l1 l2 n1 n2, EndsInCode data l1 n1 → EndsInCode data l2 n2 → l1 = l2 ∧ n1 = n2 := by
  refine ⟨⟨Huffman.decodeTold_what, ?_⟩, fun _ _ _ _ h1 h2 => h1.unique h2⟩
  rintro ⟨rfl, left, needed, h1, rfl⟩
  rcases decode_spec data with ⟨syms, rest, h2, -⟩ | ⟨-, h2⟩
  · exact absurd h2 (h1.not_parse syms rest)
  · rw [← Huffman.decodeTold_toRes] at h2
    obtain ⟨w', h3⟩ := toRes_eq_throw.1 h2
    obtain ⟨-, l', n', h4, rfl⟩ := Huffman.decodeTold_what h3
    obtain ⟨rfl, rfl⟩ := h1.unique h4
    exact h3

/-- The code of "a" and then eleven bits of a code of thirteen (`~`): three bits of the first octet and
one octet are left, and the shortest longer code needs two. -/
example : Huffman.decodeTold [0x1f, 0xff] = .throw .invalidArgument
    (.said (ascii "invalid argument: encoded_data.size()=1, required_byte=2")) := by decide +kernel

/-- C134. What `e.what()` says about an exception of `receive_frame`. If the transport failed, it names
`BIO_read` and the number of octets it was called for: 9 if the header was not yet read, else the
announced length of the payload. For a payload of the wrong length it gives this length. For a type
that is none of RFC 7540 it is the text of `std::unordered_map::at`; for a PUSH_PROMISE or
CONTINUATION frame with an index that is in none of the tables it is the text of `std::vector::at` for
the position and the number of entries, and with a string that is not in Huffman code it tells how
many octets were left, and how many were needed. The library has then written no line of its own. -/
theorem C134_receive [Platform] (c : Client) (e : Exc) (w : What)
    (h : c.receiveFrameTold.1 = .throw e w) :
    c.receiveFrameTold.2.2 = [] ∧
    ((e = .runtimeError ∧ ∃ (taken : Bytes) (n : Nat),
        c.conn.incoming = taken ++ c.receiveFrameTold.2.1.conn.incoming ∧
        (taken.length < 9 ∧ n = 9 ∨ 9 ≤ taken.length ∧ taken.length < frameLength c.conn.incoming ∧
          n = announced c.conn.incoming) ∧
        w = .system (ascii "BIO_read failed: result=") (ascii ", length=" ++ decimal n)) ∨
     (frameLength c.conn.incoming ≤ c.conn.incoming.length ∧
      c.receiveFrameTold.2.1.conn.incoming = c.conn.incoming.drop (frameLength c.conn.incoming) ∧
      ∃ type, c.conn.incoming[3]? = some type ∧
        ((e = .invalidArgument ∧ WrongLength type (payloadAt c.conn.incoming) ∧
            w = lengthText (announced c.conn.incoming)) ∨
         (e = .outOfRange ∧ 9 < type.toNat ∧ w = .mapAt) ∨
         ((type = 5 ∨ type = 9) ∧
          ((e = .invalidArgument ∧ BadHuffman (payloadAt c.conn.incoming) ∧
              HuffmanText (payloadAt c.conn.incoming) w) ∨
           (e = .outOfRange ∧ MissingText (payloadAt c.conn.incoming) c.responseTable.entries w)))))) := by
  obtain ⟨reads', ⟨k, n, h1, h2, h3⟩ | ⟨fh, h1, h2, h3⟩⟩ := receiveFrameTold_cases c
  · rw [h3] at h ⊢
    injection h with g1 g2
    refine ⟨rfl, Or.inl ⟨g1.symm, c.conn.incoming.take k, n, (List.take_append_drop k _).symm, ?_, ?_⟩⟩
    · rw [List.length_take]
      unfold frameLength announced
      omega
    · rw [← g2, Client.readFailed, toString_eq]
      rfl
  · have hs := h
    rw [h3] at h ⊢
    obtain ⟨g1, g2⟩ := processFrameTold_throw h
    have hsaid : (buildFrameTold fh ((c.conn.incoming.drop 9).take (beValue (c.conn.incoming.take 3)))
        c.responseTable).2 = [] := by
      rcases buildFrameTold_said fh ((c.conn.incoming.drop 9).take (beValue (c.conn.incoming.take 3)))
        c.responseTable with h5 | ⟨-, h5, -⟩
      · exact h5
      · rw [show (c.consumed reads' (9 + beValue (c.conn.incoming.take 3))).responseTable =
          c.responseTable from rfl, h5] at g1
        cases g1
    have hty : c.conn.incoming[3]? = some fh.type := by
      have hlen9 : 9 ≤ (c.conn.incoming.take 9).length := by rw [List.length_take]; omega
      rw [buildFrameHeader_eq _ hlen9] at h1
      obtain rfl := (Res.ok.inj h1).symm
      rw [List.getElem?_eq_getElem (by omega)]
      simp
    refine ⟨?_, Or.inr ⟨h2, by rw [g2]; rfl, fh.type, hty, ?_⟩⟩
    · unfold Client.processFrameTold at h ⊢
      rcases hb : buildFrameTold fh ((c.conn.incoming.drop 9).take (beValue (c.conn.incoming.take 3)))
        c.responseTable with ⟨r, said⟩
      rw [show (c.consumed reads' (9 + beValue (c.conn.incoming.take 3))).responseTable =
          c.responseTable from rfl, hb] at g1 ⊢
      rw [hb] at hsaid
      simp only at g1 hsaid
      subst g1 hsaid
      rfl
    · change (buildFrameTold fh (payloadAt c.conn.incoming) c.responseTable).1 = _ at g1
      have hlen : (payloadAt c.conn.incoming).length = announced c.conn.incoming := by
        unfold payloadAt announced
        rw [List.length_take, List.length_drop]
        omega
      have hplain : buildFrame fh (payloadAt c.conn.incoming) c.responseTable = .throw e := by
        rw [← buildFrameTold_toRes, g1]; rfl
      rcases buildFrameTold_throw g1 with ⟨a1, a2, a3⟩ | ⟨a1, a2, a3⟩ | ⟨a1, ⟨a2, a3⟩ | a2⟩
      · exact Or.inl ⟨a1, a2, by rw [a3, hlen]⟩
      · exact Or.inr (Or.inl ⟨a1, a2, a3⟩)
      · refine Or.inr (Or.inr ⟨a1, Or.inl ⟨a2, ?_, a3⟩⟩)
        subst a2
        rcases buildFrame_throw hplain with ⟨-, b | ⟨-, b⟩⟩ | ⟨b, -⟩
        · exfalso
          rcases a1 with a1 | a1 <;> rw [a1] at b <;>
            rcases b with ⟨b, -⟩ | ⟨b, -⟩ | ⟨b, -⟩ | ⟨b, -⟩ <;> exact absurd b (by decide)
        · exact b
        · cases b
      · exact Or.inr (Or.inr ⟨a1, Or.inr a2⟩)

/-- C134. The texts belong to the calls of C120 and of the other properties: with and without the text
`receive_frame` does the same. -/
theorem C134_same [Platform] (c : Client) :
    c.receiveFrame = (c.receiveFrameTold.1.toRes, c.receiveFrameTold.2.1) :=
  (Client.receiveFrameTold_toRes c).symm

/-- C134. The line that the library writes for a HEADERS frame it cannot decode, one for each frame it
returns undecoded: it gives one of the same two texts. -/
theorem C134_line [Platform] (fh : FrameHeader) (raw : Bytes) (t : DynamicTable) :
    (buildFrame fh raw t = .ok (.raw ⟨fh, raw⟩) ↔
      ∃ w, (buildFrameTold fh raw t).2 = [w] ∧ fh.type = 1 ∧
        (HuffmanText raw w ∨ MissingText raw t.entries w)) ∧
    (buildFrame fh raw t ≠ .ok (.raw ⟨fh, raw⟩) → (buildFrameTold fh raw t).2 = []) := by
  have hlen := buildFrameTold_messages fh raw t
  obtain ⟨hm, hz⟩ := C116_build fh raw t
  refine ⟨⟨fun h => ?_, ?_⟩, fun h => ?_⟩
  · rw [hm.2 h] at hlen
    rcases buildFrameTold_said fh raw t with h1 | ⟨h1, -, e, w, h2, h3⟩
    · rw [h1] at hlen; cases hlen
    · refine ⟨w, h2, h1, ?_⟩
      have key : Texted raw t.entries e w := by
        unfold HeadersFrame.ofRawTold at h3
        rcases Told.bind_eq_throw h3 with g | ⟨⟨padding, rest⟩, hp, h3⟩
        · exact absurd g (quiet_ne_throw (extractPadding_ne_throw _ _) _ _)
        apply extractPadding_texted (saying_eq_ok.1 hp)
        rcases Told.bind_eq_throw h3 with g | ⟨⟨priority, rest'⟩, hp, h3⟩
        · exact absurd g (quiet_ne_throw (extractPriority_ne_throw _ _) _ _)
        apply extractPriority_texted (saying_eq_ok.1 hp)
        rcases Told.bind_eq_throw h3 with g | ⟨_, -, h3⟩
        · exact decodeHeaderBlockTold_what g
        · cases h3
      exact key.imp And.right And.right
  · rintro ⟨w, h1, -⟩
    rw [h1] at hlen
    exact hm.1 hlen.symm
  · rcases hz with h0 | ⟨h0, -⟩
    · rw [h0] at hlen
      exact List.length_eq_zero_iff.1 hlen
    · exact absurd (hm.1 h0) h

/-- C134. `send_frame` throws only if the transport took less than the frame (C120); the text then
names `BIO_write` and the number of octets of the frame. -/
theorem C134_send [Platform] (c : Client) (f : Frame) (e : Exc) (w : What)
    (h : (c.sendFrameTold f).1 = .throw e w) :
    e = .runtimeError ∧ ∃ octets part rest, f.serialize = .ok octets ∧ octets = part ++ rest ∧
      rest ≠ [] ∧ (c.sendFrameTold f).2.conn.sent = c.conn.sent ++ part ∧
      w = .system (ascii "BIO_write failed: result=") (ascii ", length=" ++ decimal octets.length) := by
  have hs := Client.sendFrameTold_toRes c f
  have h1 : (c.sendFrame f).1 = .throw e := by rw [← hs, h]; rfl
  have h2 : (c.sendFrameTold f).2 = (c.sendFrame f).2 := by rw [← hs]
  obtain ⟨he, octets, part, rest, h3, h4, h5, h6⟩ := (C120_send c f e).1 h1
  refine ⟨he, octets, part, rest, h3, h4, h5, by rw [h2]; exact h6, ?_⟩
  unfold Client.sendFrameTold at h
  rw [h3] at h
  rw [(saying_eq_throw h).2, Client.writeFailed, toString_eq]
  rfl

/-- C134. `send_raw_data` and `receive_raw_data` throw only if the transport failed; the text gives the
number of octets that were to be sent or received. -/
theorem C134_raw (c : Client) (data : Bytes) (n : Nat) (e : Exc) (w : What) :
    ((c.sendRawDataTold data).1 = .throw e w → e = .runtimeError ∧
      w = .system (ascii "BIO_write failed: result=") (ascii ", length=" ++ decimal data.length)) ∧
    ((c.receiveRawDataTold n).1 = .throw e w → e = .runtimeError ∧
      w = .system (ascii "BIO_read failed: result=") (ascii ", length=" ++ decimal n)) := by
  refine ⟨fun h => ?_, fun h => ?_⟩
  · obtain ⟨h1, h2⟩ := saying_eq_throw h
    refine ⟨?_, by rw [h2, Client.writeFailed, toString_eq]; rfl⟩
    obtain ⟨sent, writes, -, -, ⟨g2, -⟩ | ⟨g2, -⟩⟩ := C55_send c data
    · rw [g2] at h1; cases h1
    · rw [g2] at h1; exact (Res.throw.inj h1).symm
  · obtain ⟨h1, h2⟩ := saying_eq_throw h
    refine ⟨?_, by rw [h2, Client.readFailed, toString_eq]; rfl⟩
    unfold Client.receiveRawData Conn.read at h1
    obtain ⟨r1, -, ⟨-, -, h3⟩ | ⟨k, -, -, h3⟩⟩ := readLoop_spec c.conn.reads c.conn.incoming n
    · rw [h3] at h1; cases h1
    · rw [h3] at h1; exact (Res.throw.inj h1).symm

/-- C134. Making a frame: PING data of more than eight octets, a window size increment or a
stream dependency of more than 31 bits, an exclusive flag of more than one bit. The text names what is
wrong, and the value. -/
theorem C134_make (sid : UInt32) (flags r : UInt8) (data : Bytes) (n : UInt32) (p : PriorityOption)
    (e : Exc) (w : What) :
    (PingFrame.newTold flags data = .throw e w ↔ e = .invalidArgument ∧ 8 < data.length ∧
      w = .said (ascii "invalid opaque data size: " ++ decimal data.length)) ∧
    (WindowUpdateFrame.newTold sid r n = .throw e w ↔ e = .invalidArgument ∧ 2 ^ 31 ≤ n.toNat ∧
      w = .said (ascii "invalid window size: " ++ decimal n.toNat)) ∧
    (PriorityFrame.newTold sid p = .throw e w ↔ e = .invalidArgument ∧
      (2 ≤ p.exclusive.toNat ∧ w = .said (ascii "invalid exclusive: " ++ decimal p.exclusive.toNat) ∨
       p.exclusive.toNat < 2 ∧ 2 ^ 31 ≤ p.streamDependency.toNat ∧
        w = .said (ascii "invalid stream dependency: " ++ decimal p.streamDependency.toNat))) := by
  refine ⟨?_, ?_, ?_⟩
  · unfold PingFrame.newTold PingFrame.new constructOpaqueData
    rw [toString_eq]
    by_cases h : data.length > 8
    · simp only [h, if_true, Res.throw_bind, saying, Told.throw.injEq]
      constructor
      · rintro ⟨a, b⟩; exact ⟨a.symm, trivial, b.symm⟩
      · rintro ⟨a, -, b⟩; exact ⟨a.symm, b.symm⟩
    · simp only [h, if_false, Res.ok_bind, saying, Res.pure_eq, reduceCtorEq, false_iff]
      rintro ⟨-, h1, -⟩
      exact h1
  · unfold WindowUpdateFrame.newTold validateWindowSizeTold validateWindowSize
    rw [toString_eq]
    by_cases h : n.toNat > 0x7fffffff
    · simp only [h, if_true, saying, Told.throw_bind, Told.throw.injEq]
      constructor
      · rintro ⟨a, b⟩; exact ⟨a.symm, h, b.symm⟩
      · rintro ⟨a, -, b⟩; exact ⟨a.symm, b.symm⟩
    · simp only [h, if_false, saying, Told.ok_bind, Told.pure_eq, reduceCtorEq, false_iff]
      rintro ⟨-, h1, -⟩
      omega
  · unfold PriorityFrame.newTold validatePriorityTold
    rw [toString_eq, toString_eq]
    by_cases h : p.exclusive.toNat > 1
    · simp only [h, if_true, Told.throw_bind, Told.throw.injEq]
      constructor
      · rintro ⟨a, b⟩; exact ⟨a.symm, Or.inl ⟨h, b.symm⟩⟩
      · rintro ⟨a, ⟨-, b⟩ | ⟨b, -⟩⟩
        · exact ⟨a.symm, b.symm⟩
        · omega
    · by_cases h' : p.streamDependency.toNat > 0x7fffffff
      · simp only [h, h', if_true, if_false, Told.throw_bind, Told.throw.injEq]
        constructor
        · rintro ⟨a, b⟩; exact ⟨a.symm, Or.inr ⟨by omega, by omega, b.symm⟩⟩
        · rintro ⟨a, ⟨b, -⟩ | ⟨-, -, b⟩⟩
          · omega
          · exact ⟨a.symm, b.symm⟩
      · simp only [h, h', if_false, Told.ok_bind, Told.pure_eq, reduceCtorEq, false_iff]
        rintro ⟨-, ⟨b, -⟩ | ⟨-, b, -⟩⟩ <;> omega

/-- C134. `update_request_dynamic_table` throws only for an entry whose kind and content do not go
together, and the text tells what the entry does not hold. -/
theorem C134_update (c : Client) (block : HeaderBlock) (e : Exc) (w : What)
    (h : (c.updateRequestDynamicTableTold block).1 = .throw e w) :
    e = .runtimeError ∧ ∃ x ∈ block,
      (x.pfx = .incrementalIndexing ∧ (∃ n, x.entry = .maxSize n) ∧
        w = .said (ascii "m_entry doesn't hold header_t")) ∨
      (x.pfx = .sizeUpdate ∧ (∃ f, x.entry = .header f) ∧
        w = .said (ascii "m_entry doesn't hold size_t")) := by
  change (updateDynamicTableTold block c.requestTable).1 = _ at h
  generalize c.requestTable = t at h
  induction block generalizing t with
  | nil => cases h
  | cons x xs ih =>
      unfold updateDynamicTableTold at h
      cases hx : updateDynamicTableEntryTold x t with
      | ok t' =>
          rw [hx] at h
          obtain ⟨h1, y, h2, h3⟩ := ih t' h
          exact ⟨h1, y, List.mem_cons_of_mem _ h2, h3⟩
      | throw e' w' =>
          rw [hx] at h
          injection h with h1 h2
          subst h1 h2
          unfold updateDynamicTableEntryTold at hx
          split at hx
          · rename_i hp
            rcases Told.bind_eq_throw hx with h1 | ⟨_, -, h1⟩
            · obtain ⟨g1, g2⟩ := saying_eq_throw h1
              unfold HeaderEntry.getHeader at g1
              split at g1
              · cases g1
              · rename_i n hn
                exact ⟨(Res.throw.inj g1).symm, x, List.mem_cons_self, Or.inl ⟨hp, ⟨n, hn⟩, g2⟩⟩
            · exact absurd h1 (quiet_ne_throw (fun e => push_ne_throw _ _ e) _ _)
          · split at hx
            · rename_i hp
              rcases Told.bind_eq_throw hx with h1 | ⟨_, -, h1⟩
              · obtain ⟨g1, g2⟩ := saying_eq_throw h1
                unfold HeaderEntry.getMaxSize at g1
                split at g1
                · cases g1
                · rename_i n hn
                  exact ⟨(Res.throw.inj g1).symm, x, List.mem_cons_self, Or.inr ⟨hp, ⟨n, hn⟩, g2⟩⟩
              · exact absurd h1 (quiet_ne_throw (fun e => updateTableSize_ne_throw _ _ e) _ _)
            · cases hx
      | ub k => rw [hx] at h; cases h
      | diverge => rw [hx] at h; cases h

theorem decimal_plain (n : Nat) : 10 ∉ decimal n := by
  rw [← toString_eq]
  exact fun h => (digits_plain ⟨.dec, false, false, false, 32, 0⟩ n 10 h).1 rfl

theorem intToString_eq (n : Int) : intToString n = signed n := by
  unfold intToString signed
  rw [toString_eq]
  rfl

theorem signed_plain (n : Int) : 10 ∉ signed n := by
  unfold signed
  split
  · simp only [List.mem_append, not_or]
    exact ⟨by decide +kernel, decimal_plain _⟩
  · exact decimal_plain _

/-- C134. If this holds of the texts of the standard library, then whatever `receive_frame` throws, the
text is a single line, and is not empty of the library's own making: it does not look like the first line
of a printed frame. -/
theorem C134_one_line [Platform] (c : Client) (e : Exc) (w : What) (o : Outside) (ho : o.Plain)
    (h : c.receiveFrameTold.1 = .throw e w) : 10 ∉ w.text o ∧ (w.text o).head? ≠ some 61 := by
  have dec := decimal_plain
  have head : ∀ {t u : Bytes}, (t.head? ≠ some 61 ∧ t ≠ []) → t <+: u → u.head? ≠ some 61 := by
    rintro (_ | ⟨a, t⟩) u ⟨h1, h2⟩ ⟨r, rfl⟩
    · exact absurd rfl h2
    · exact h1
  rcases (C134_receive c e w h).2 with ⟨-, taken, n, -, -, rfl⟩ |
    ⟨-, -, type, -, ⟨-, -, rfl⟩ | ⟨-, -, rfl⟩ | ⟨-, ⟨-, -, -, a, b, -, -, rfl⟩ | ⟨-, i, -, rfl⟩⟩⟩
  · simp only [What.text, List.mem_append, not_or, intToString_eq]
    exact ⟨⟨⟨by decide +kernel, signed_plain _⟩, by decide +kernel, dec n⟩,
      head (t := ascii "BIO_read failed: result=") (by decide +kernel) (by simp)⟩
  · simp only [What.text, lengthText, List.mem_append, not_or]
    exact ⟨⟨by decide +kernel, dec _⟩,
      head (t := ascii "invalid payload size: ") (by decide +kernel) (by simp)⟩
  · exact ho.1
  · simp only [What.text, List.mem_append, not_or]
    exact ⟨⟨⟨⟨by decide +kernel, dec a⟩, by decide +kernel⟩, dec b⟩,
      head (t := ascii "invalid argument: encoded_data.size()=") (by decide +kernel) (by simp)⟩
  · exact ho.2 _ _

/-! One stream for each cause: the frame is cut off in the header and in the payload, a RST_STREAM frame
of three octets, a CONTINUATION frame with a Huffman string that ends inside a code, a frame of type 10,
and a CONTINUATION frame with index 65 for an empty table. -/

attribute [local instance] x86 in
example :
    let run := fun stream => (Client.new ⟨stream, [], List.replicate 20 20, []⟩).receiveFrameTold.1
    run [0, 0, 4, 3, 0] =
      .throw .runtimeError (.system (ascii "BIO_read failed: result=") (ascii ", length=9")) ∧
    run [0, 0, 12, 3, 0, 0, 0, 0, 1, 0, 0] =
      .throw .runtimeError (.system (ascii "BIO_read failed: result=") (ascii ", length=12")) ∧
    run [0, 0, 3, 3, 0, 0, 0, 0, 1, 0, 0, 0] =
      .throw .invalidArgument (.said (ascii "invalid payload size: 3")) ∧
    run [0, 0, 6, 9, 4, 0, 0, 0, 1, 0x01, 0x84, 0x1f, 0xff, 0xff, 0xff] =
      .throw .invalidArgument
        (.said (ascii "invalid argument: encoded_data.size()=3, required_byte=4")) ∧
    run [0, 0, 0, 10, 0, 0, 0, 0, 1] = .throw .outOfRange .mapAt ∧
    run [0, 0, 1, 9, 4, 0, 0, 0, 1, 0xc1] = .throw .outOfRange (.vectorAt 3 0) := by decide +kernel

attribute [local instance] x86 in
/-- The line for a HEADERS frame with index 65. -/
example : buildFrameTold ⟨1, 1, 4, 0, 1⟩ [0xc1] .default =
    (.ok (.raw ⟨⟨1, 1, 4, 0, 1⟩, [0xc1]⟩), [.vectorAt 3 0]) := by decide +kernel

attribute [local instance] x86 in
example : ((Client.new ⟨[], [], [], [5, 0]⟩).sendFrameTold (.data (DataFrame.new 0 1 [7]))).1 =
    .throw .runtimeError (.system (ascii "BIO_write failed: result=") (ascii ", length=10")) := by
  decide +kernel

example : PingFrame.newTold 0 (List.replicate 9 0) =
      .throw .invalidArgument (.said (ascii "invalid opaque data size: 9")) ∧
    WindowUpdateFrame.newTold 1 0 0x80000000 =
      .throw .invalidArgument (.said (ascii "invalid window size: 2147483648")) ∧
    PriorityFrame.newTold 1 ⟨2, 0, 0⟩ =
      .throw .invalidArgument (.said (ascii "invalid exclusive: 2")) ∧
    PriorityFrame.newTold 1 ⟨1, 0xffffffff, 0⟩ =
      .throw .invalidArgument (.said (ascii "invalid stream dependency: 4294967295")) := by
  decide +kernel

example : ((Client.new ⟨[], [], [], []⟩).updateRequestDynamicTableTold
    [⟨.incrementalIndexing, .header ([97], [98])⟩, ⟨.sizeUpdate, .header ([97], [98])⟩]).1 =
      .throw .runtimeError (.said (ascii "m_entry doesn't hold size_t")) := by decide +kernel

/-- The texts of libstdc++. -/
def libstdcxx : Outside where
  mapAt := ascii "_Map_base::at"
  vectorAt i n := ascii "vector::_M_range_check: __n (which is " ++ decimal i ++
    ascii ") >= this->size() (which is " ++ decimal n ++ ascii ")"
  number := 0

example : libstdcxx.Plain := by
  refine ⟨by decide +kernel, fun i n => ⟨?_, ?_⟩⟩
  · simp only [libstdcxx, List.mem_append, not_or]
    exact ⟨⟨⟨⟨by decide +kernel, decimal_plain _⟩, by decide +kernel⟩, decimal_plain _⟩,
      by decide +kernel⟩
  · have : ∀ t u : Bytes, (t.head? ≠ some 61 ∧ t ≠ []) → (t ++ u).head? ≠ some 61 := by
      rintro (_ | ⟨a, t⟩) u ⟨h1, h2⟩
      · exact absurd rfl h2
      · exact h1
    simp only [libstdcxx, List.append_assoc]
    exact this _ _ (by decide +kernel)

/-! ## C135 -/

theorem failedAt_before {mode : VerifyMode} {env : TlsEnv} {s : Step} (h : FailedAt mode env s) :
    (∀ t ∈ steps.takeWhile (· ≠ s), t.Fine mode env) ∧ ¬ s.Fine mode env := by
  obtain ⟨before, after, h1, h2, h3⟩ := h
  refine ⟨?_, h3⟩
  have hn : steps.Nodup := by decide
  rw [h1, List.nodup_append] at hn
  have hs : s ∉ before := fun hm => hn.2.2 s hm s List.mem_cons_self rfl
  rw [h1, List.takeWhile_append_of_pos (by
    intro a ha
    simp only [ne_eq, decide_not, Bool.not_eq_eq_eq_not, Bool.not_true, decide_eq_false_iff_not]
    rintro rfl
    exact hs ha)]
  simpa using h2

/-- Some step is the first to fail, or none does. -/
theorem failedAt_or (mode : VerifyMode) (env : TlsEnv) :
    (∀ s ∈ steps, s.Fine mode env) ∨ ∃ s, FailedAt mode env s := by
  have key : ∀ (done todo : List Step), steps = done ++ todo → (∀ s ∈ done, s.Fine mode env) →
      (∀ s ∈ steps, s.Fine mode env) ∨ ∃ s, FailedAt mode env s := by
    intro done todo
    induction todo generalizing done with
    | nil => intro h1 h2; left; rw [h1]; simpa using h2
    | cons s rest ih =>
        intro h1 h2
        by_cases hs : s.Fine mode env
        · refine ih (done ++ [s]) (by rw [h1]; simp) ?_
          intro t ht
          rcases List.mem_append.1 ht with ht | ht
          · exact h2 t ht
          · rw [List.mem_singleton.1 ht]; exact hs
        · exact Or.inr ⟨s, done, rest, h1, h2, hs⟩
  exact key [] steps rfl (by simp)

/-- C135. The constructor throws exactly if a step fails, and the text is that of the first step that
failed, with the number that the call gave (`errno` for connecting and for the handshake), or the
protocol that the server chose. -/
theorem C135_constructor (mode : VerifyMode) (env : TlsEnv) (o : Outside) :
    ((∀ s ∈ steps, s.Fine mode env) → constructTold mode env = .ok ()) ∧
    ∀ s, FailedAt mode env s → ∃ w, constructTold mode env = .throw .runtimeError w ∧
      w.text o = s.text ++ s.rest o.number env := by
  have alpn (a : Bytes) : (a.length = ([0x02, 0x68, 0x32] : Bytes).length - 1 ∧
      a = (([0x02, 0x68, 0x32] : Bytes).drop 1).take a.length) ↔ a = ascii "h2" := by
    have e2 : ascii "h2" = [0x68, 0x32] := by decide +kernel
    rw [e2]
    constructor
    · rintro ⟨h1, h2⟩
      rw [h1] at h2
      exact h2
    · rintro rfl
      exact ⟨rfl, rfl⟩
  refine ⟨fun h => ?_, fun s h => ?_⟩
  · have h1 : env.ctxOk = true := h .ctxNew (by decide)
    have h2 : env.bioOk = true := h .bioNew (by decide)
    have h3 : env.hasSsl = true := h .getSsl (by decide)
    have h4 : env.setAlpn = 0 := h .setAlpn (by decide)
    have h5 : env.setVerifyPaths = 1 := h .setVerifyPaths (by decide)
    have h6 : 0 < env.connect := h .connect (by decide)
    have h7 : 0 < env.handshake := h .handshake (by decide)
    have h8 : mode = .verifyServerCert → env.verifyResult = 0 := h .verify (by decide)
    have h9 : env.alpnSelected = ascii "h2" := h .alpn (by decide)
    unfold constructTold
    simp only [h1, h2, h3, h4, h5]
    rw [if_neg (by simp), if_neg (by simp), if_neg (by simp), if_neg (by simp), if_neg (by simp),
      if_neg (by omega), if_neg (by omega), if_neg (by
        rintro ⟨a, b⟩
        cases mode with
        | verifyNone => exact a rfl
        | verifyServerCert => exact b (h8 rfl)), if_neg (not_not.2 ((alpn _).2 h9))]
  · obtain ⟨hb, hs⟩ := failedAt_before h
    unfold constructTold
    have f1 (hm : .ctxNew ∈ steps.takeWhile (· ≠ s)) : ¬ env.ctxOk = false := by
      have : env.ctxOk = true := hb _ hm
      simp [this]
    have f2 (hm : .bioNew ∈ steps.takeWhile (· ≠ s)) : ¬ env.bioOk = false := by
      have : env.bioOk = true := hb _ hm
      simp [this]
    have f3 (hm : .getSsl ∈ steps.takeWhile (· ≠ s)) : ¬ env.hasSsl = false := by
      have : env.hasSsl = true := hb _ hm
      simp [this]
    have f4 (hm : .setAlpn ∈ steps.takeWhile (· ≠ s)) : ¬ env.setAlpn ≠ 0 :=
      not_not.2 (hb .setAlpn hm)
    have f5 (hm : .setVerifyPaths ∈ steps.takeWhile (· ≠ s)) : ¬ env.setVerifyPaths ≠ 1 :=
      not_not.2 (hb .setVerifyPaths hm)
    have f6 (hm : .connect ∈ steps.takeWhile (· ≠ s)) : ¬ env.connect ≤ 0 := not_le.2 (hb .connect hm)
    have f7 (hm : .handshake ∈ steps.takeWhile (· ≠ s)) : ¬ env.handshake ≤ 0 :=
      not_le.2 (hb .handshake hm)
    have f8 (hm : .verify ∈ steps.takeWhile (· ≠ s)) :
        ¬ (mode ≠ .verifyNone ∧ env.verifyResult ≠ 0) := by
      rintro ⟨a, b⟩
      cases mode with
      | verifyNone => exact a rfl
      | verifyServerCert => exact b (hb _ hm rfl)
    cases s with
    | ctxNew =>
        rw [if_pos (by simpa [Step.Fine] using hs)]
        exact ⟨_, rfl, (List.append_nil _).symm⟩
    | bioNew =>
        rw [if_neg (f1 (by decide)), if_pos (by simpa [Step.Fine] using hs)]
        exact ⟨_, rfl, (List.append_nil _).symm⟩
    | getSsl =>
        rw [if_neg (f1 (by decide)), if_neg (f2 (by decide)), if_pos (by simpa [Step.Fine] using hs)]
        exact ⟨_, rfl, (List.append_nil _).symm⟩
    | setAlpn =>
        rw [if_neg (f1 (by decide)), if_neg (f2 (by decide)), if_neg (f3 (by decide)),
          if_pos (show env.setAlpn ≠ 0 from hs)]
        exact ⟨_, rfl, by rw [intToString_eq]; rfl⟩
    | setVerifyPaths =>
        rw [if_neg (f1 (by decide)), if_neg (f2 (by decide)), if_neg (f3 (by decide)),
          if_neg (f4 (by decide)), if_pos (show env.setVerifyPaths ≠ 1 from hs)]
        exact ⟨_, rfl, by rw [intToString_eq]; rfl⟩
    | connect =>
        rw [if_neg (f1 (by decide)), if_neg (f2 (by decide)), if_neg (f3 (by decide)),
          if_neg (f4 (by decide)), if_neg (f5 (by decide)), if_pos (not_lt.1 hs)]
        exact ⟨_, rfl, by simp only [What.text, List.append_nil, intToString_eq]; rfl⟩
    | handshake =>
        rw [if_neg (f1 (by decide)), if_neg (f2 (by decide)), if_neg (f3 (by decide)),
          if_neg (f4 (by decide)), if_neg (f5 (by decide)), if_neg (f6 (by decide)),
          if_pos (not_lt.1 hs)]
        exact ⟨_, rfl, by simp only [What.text, List.append_nil, intToString_eq]; rfl⟩
    | verify =>
        have hv : mode ≠ .verifyNone ∧ env.verifyResult ≠ 0 := by
          have : ¬ (mode = .verifyServerCert → env.verifyResult = 0) := hs
          rw [Classical.not_imp] at this
          exact ⟨by rw [this.1]; decide, this.2⟩
        rw [if_neg (f1 (by decide)), if_neg (f2 (by decide)), if_neg (f3 (by decide)),
          if_neg (f4 (by decide)), if_neg (f5 (by decide)), if_neg (f6 (by decide)),
          if_neg (f7 (by decide)), if_pos hv]
        exact ⟨_, rfl, by rw [intToString_eq]; rfl⟩
    | alpn =>
        rw [if_neg (f1 (by decide)), if_neg (f2 (by decide)), if_neg (f3 (by decide)),
          if_neg (f4 (by decide)), if_neg (f5 (by decide)), if_neg (f6 (by decide)),
          if_neg (f7 (by decide)), if_neg (f8 (by decide))]
        simp only
        rw [if_pos (fun hc => hs ((alpn _).1 hc))]
        refine ⟨_, rfl, ?_⟩
        simp only [What.text, terminated, Step.text, Step.rest]
        rw [List.takeWhile_append_of_pos (by decide +kernel)]
        rfl

/-- C135. So the text tells the step: if two constructions, of any kind and with whatever results of the
calls, fail with the same text, then it was the same step that failed first. -/
theorem C135_tells (m1 m2 : VerifyMode) (env1 env2 : TlsEnv) (o1 o2 : Outside) (e1 e2 : Exc)
    (w1 w2 : What) (h1 : constructTold m1 env1 = .throw e1 w1)
    (h2 : constructTold m2 env2 = .throw e2 w2) (h : w1.text o1 = w2.text o2) :
    ∃ s, FailedAt m1 env1 s ∧ FailedAt m2 env2 s := by
  have get : ∀ (m : VerifyMode) (env : TlsEnv) (o : Outside) (e : Exc) (w : What),
      constructTold m env = .throw e w → ∃ s, FailedAt m env s ∧ s.text <+: w.text o := by
    intro m env o e w hw
    rcases failedAt_or m env with hf | ⟨s, hs⟩
    · rw [(C135_constructor m env o).1 hf] at hw; cases hw
    · obtain ⟨w', g1, g2⟩ := (C135_constructor m env o).2 s hs
      rw [g1] at hw
      injection hw with _ hw
      subst hw
      exact ⟨s, hs, by rw [g2]; exact List.prefix_append _ _⟩
  obtain ⟨s, a1, a2⟩ := get m1 env1 o1 e1 w1 h1
  obtain ⟨t, b1, b2⟩ := get m2 env2 o2 e2 w2 h2
  rw [← h] at b2
  have free : ∀ s ∈ steps, ∀ t ∈ steps, s.text <+: t.text → s = t := by decide +kernel
  have all : ∀ s : Step, s ∈ steps := by intro s; cases s <;> decide
  have : s = t := by
    rcases List.prefix_or_prefix_of_prefix a2 b2 with hp | hp
    · exact free s (all s) t (all t) hp
    · exact (free t (all t) s (all s) hp).symm
  subst this
  exact ⟨s, a1, b1⟩

/-- The certificate is not accepted (X509_V_ERR_CERT_HAS_EXPIRED). -/
def expired : TlsEnv := ⟨⟨true, 0, 1, 1, 1, 10, ascii "h2"⟩, true, true⟩

example : FailedAt .verifyServerCert expired .verify :=
  ⟨[.ctxNew, .bioNew, .getSsl, .setAlpn, .setVerifyPaths, .connect, .handshake], [.alpn], rfl, by
    simp [Step.Fine, expired], by simp [Step.Fine, expired]⟩

example : constructTold .verifyServerCert expired = .throw .runtimeError
    (.said (ascii "SSL_get_verify_result failed: verify_result=10")) := by decide +kernel

example : ∀ s ∈ steps, s.Fine .verifyNone expired := by
  simp [steps, Step.Fine, expired]

/-! ## C136 -/

namespace Sample

theorem received_told [Platform] {c d : Client} {f : Frame} (h : c.receiveFrame = (.ok f, d)) :
    c.receiveFrameTold = (.ok f, d, []) := by
  have h1 := Client.receiveFrameTold_toRes c
  have h2 := receiveFrameTold_messages c
  rw [C116_receive c (by rw [h]; simp)] at h2
  rw [h] at h1
  obtain ⟨g1, g2⟩ := Prod.mk.inj h1
  rcases hr : c.receiveFrameTold with ⟨r, c', said⟩
  rw [hr] at g1 g2 h2
  rw [toRes_eq_ok] at g1
  simp only at g1 g2 h2
  rw [g1, g2, List.length_eq_zero_iff.1 h2]

/-- One round of the loop. -/
theorem loop_step_told [Platform] (o : Outside) {s : State} {f : Frame} {d : Client}
    (h : s.client.receiveFrame = (.ok f, d)) :
    (∃ out, f.dump s.cout = .ok out ∧
      ((EndsLoop f ∧ receiveFramesTold o s = (.ok f.header.type, ⟨d, out⟩)) ∨
      (¬ EndsLoop f ∧ receiveFramesTold o s = receiveFramesTold o ⟨d, out⟩))) ∨
    ∃ k, f.dump s.cout = .ub k ∧ receiveFramesTold o s = (.ub k, ⟨d, s.cout⟩) := by
  obtain ⟨hr, fh, raw, hb, hl⟩ := receive_ok h
  have ht := received_told h
  rcases C70_never_throws fh raw _ f hb hl s.cout with ⟨out, ho⟩ | ⟨k, ho⟩
  · refine Or.inl ⟨out, ho, ?_⟩
    by_cases he : EndsLoop f
    · refine Or.inl ⟨he, ?_⟩
      rw [receiveFramesTold, ht]
      simp only [say, List.foldl_nil, ho, (isMoreData_iff hb).2 he, Bool.false_eq_true, if_false]
    · refine Or.inr ⟨he, ?_⟩
      have hm : isMoreData f.header = true := by
        by_contra hc
        exact he ((isMoreData_iff hb).1 (by simpa using hc))
      rw [receiveFramesTold, ht]
      simp only [say, List.foldl_nil, ho, hm, if_true, if_pos hr]
  · refine Or.inr ⟨k, ho, ?_⟩
    rw [receiveFramesTold, ht]
    simp only [say, List.foldl_nil, ho]

/-- The loop with the texts, for each way in which the loop ends. -/
theorem loop_told [Platform] (o : Outside) (s : State) :
    (∀ ty s', receiveFrames s = (.ok ty, s') → receiveFramesTold o s = (.ok ty, s')) ∧
    (∀ e s', receiveFrames s = (.throw e, s') → ∃ w c, c.receiveFrameTold = (.throw e w, s'.client, []) ∧
      (∃ gs, Received s.client gs c ∧ Prints gs s.cout s'.cout ∧ ∀ f ∈ gs, ¬ EndsLoop f) ∧
      receiveFramesTold o s =
        (.throw e w, ⟨s'.client, { s'.cout with out := s'.cout.out ++ w.text o ++ [10] }⟩)) ∧
    (∀ k s', receiveFrames s = (.ub k, s') → ∃ out, receiveFramesTold o s = (.ub k, ⟨s'.client, out⟩)) := by
  induction hn : s.client.conn.reads.length using Nat.strong_induction_on generalizing s with
  | _ n ih =>
      subst hn
      have told := Client.receiveFrameTold_toRes s.client
      rcases hr : s.client.receiveFrame with ⟨f | e' | k | _, d⟩
      · rcases loop_step hr with ⟨out, ho, ⟨he, h1⟩ | ⟨he, h1⟩⟩ | ⟨k, ho, h1⟩ <;>
        rcases loop_step_told o hr with ⟨out', ho', ⟨he', h1'⟩ | ⟨he', h1'⟩⟩ | ⟨k', ho', h1'⟩
        · rw [ho] at ho'; cases ho'
          rw [h1, h1']
          refine ⟨?_, nofun, nofun⟩
          intro ty s' h
          obtain ⟨a, b⟩ := Prod.mk.inj h
          rw [← b, Res.ok.inj a]
        · exact absurd he he'
        · rw [ho] at ho'; cases ho'
        · exact absurd he' he
        · rw [ho] at ho'; cases ho'
          rw [h1, h1']
          obtain ⟨i1, i2, i3⟩ := ih _ (receive_ok hr).1 ⟨d, out⟩ rfl
          refine ⟨i1, ?_, i3⟩
          intro e s' h
          obtain ⟨w, c, j1, ⟨gs, j2, j3, j4⟩, j5⟩ := i2 e s' h
          refine ⟨w, c, j1, ⟨f :: gs, .cons _ _ _ _ _ hr j2, .cons _ _ _ _ _ ho j3, ?_⟩, j5⟩
          intro g hg
          rcases List.mem_cons.1 hg with rfl | hg
          · exact he
          · exact j4 g hg
        · rw [ho] at ho'; cases ho'
        · rw [ho] at ho'; cases ho'
        · rw [ho] at ho'; cases ho'
        · rw [ho] at ho'; cases ho'
          rw [h1, h1']
          refine ⟨nofun, nofun, ?_⟩
          intro k2 s' h
          obtain ⟨a, b⟩ := Prod.mk.inj h
          exact ⟨s.cout, by rw [← b]; cases a; rfl⟩
      · have e1 : receiveFrames s = (.throw e', ⟨d, s.cout⟩) := by rw [receiveFrames, hr]
        rw [hr] at told
        obtain ⟨t1, t2⟩ := Prod.mk.inj told
        obtain ⟨w, hw⟩ := toRes_eq_throw.1 t1
        have hsaid := (C134_receive s.client e' w hw).1
        have ht : s.client.receiveFrameTold = (.throw e' w, d, []) := by
          rw [← hw, ← t2, ← hsaid]
        rw [e1]
        refine ⟨nofun, ?_, nofun⟩
        intro e s' h
        obtain ⟨a, b⟩ := Prod.mk.inj h
        cases a
        subst b
        refine ⟨w, s.client, ht, ⟨[], .nil _, .nil _, by simp⟩, ?_⟩
        rw [receiveFramesTold, ht]
        simp only [say, List.nil_append, List.foldl_cons, List.foldl_nil, Stream.text]
        rw [List.append_assoc]
        rfl
      · have e1 : receiveFrames s = (.ub k, ⟨d, s.cout⟩) := by rw [receiveFrames, hr]
        rw [hr] at told
        obtain ⟨t1, t2⟩ := Prod.mk.inj told
        rw [e1]
        refine ⟨nofun, nofun, ?_⟩
        intro k2 s' h
        obtain ⟨a, b⟩ := Prod.mk.inj h
        cases a
        subst b
        rcases ht : s.client.receiveFrameTold with ⟨_ | _ | _ | _, c', said⟩ <;> rw [ht] at t1 t2 <;>
          cases t1
        cases t2
        rw [receiveFramesTold, ht]
        exact ⟨_, rfl⟩
      · have := receiveFrame_ne_diverge s.client
        rw [hr] at this
        exact absurd rfl this

/-- C136. When the receive loop of the sample program ends with an exception, it has printed the frames
it received, one after the other, then the text of this exception as the last line, and nothing else; the
exception goes on to the caller. -/
theorem C136_throws [Platform] (o : Outside) (s s' : State) (e : Exc) (w : What) :
    receiveFramesTold o s = (.throw e w, s') ↔
      ∃ gs c t, Received s.client gs c ∧ Prints gs s.cout t ∧ (∀ f ∈ gs, ¬ EndsLoop f) ∧
        c.receiveFrameTold.1 = .throw e w ∧ c.receiveFrameTold.2.1 = s'.client ∧
        s'.cout = { t with out := t.out ++ w.text o ++ [10] } := by
  constructor
  · intro h
    obtain ⟨h1, h2, h3⟩ := loop_told o s
    rcases hr : receiveFrames s with ⟨ty | e' | k | _, u⟩
    · rw [h1 _ _ hr] at h; cases h
    · obtain ⟨w', c, g1, ⟨gs, g2, g3, g4⟩, g5⟩ := h2 _ _ hr
      rw [g5] at h
      obtain ⟨a, b⟩ := Prod.mk.inj h
      cases a
      subst b
      exact ⟨gs, c, u.cout, g2, g3, g4, by rw [g1], by rw [g1], rfl⟩
    · obtain ⟨out, g⟩ := h3 _ _ hr
      rw [g] at h; cases h
    · have := C66_ends s
      rw [hr] at this
      exact absurd rfl this
  · rintro ⟨gs, c, t, h1, h2, h3, h4, h5, h6⟩
    induction gs generalizing s with
    | nil =>
        cases h1
        cases h2
        have hs := (C134_receive s.client e w h4).1
        have ht : s.client.receiveFrameTold = (.throw e w, s'.client, []) := by
          rw [← h4, ← h5, ← hs]
        rw [receiveFramesTold, ht]
        simp only [say, List.nil_append, List.foldl_cons, List.foldl_nil, Stream.text]
        obtain ⟨sc, so⟩ := s'
        simp only at h6
        rw [h6, List.append_assoc]
        rfl
    | cons f gs ih =>
        cases h1 with
        | cons _ d _ _ _ r1 r2 =>
            cases h2 with
            | cons _ _ _ s1 _ p1 p2 =>
                rcases loop_step_told o r1 with ⟨out, ho, ⟨he, -⟩ | ⟨-, g⟩⟩ | ⟨k, ho, -⟩
                · exact absurd he (h3 f List.mem_cons_self)
                · rw [p1] at ho
                  cases ho
                  rw [g]
                  exact ih ⟨d, s1⟩ r2 p2 (fun g hg => h3 g (List.mem_cons_of_mem _ hg))
                · rw [p1] at ho; cases ho

/-- A text after frames: where its frames can be told apart they still can be. -/
theorem titles_then_line {ts : List Bytes} {l : Bytes}
    (hlast : ∀ t ∈ ts, t.getLast? = some 10)
    (hcut : ∀ a b, ts.flatten = a ++ b →
      (LineStarts a ∧ ascii "=== " <+: b ↔ ∃ k < ts.length, a = (ts.take k).flatten))
    (h10 : 10 ∉ l) (h61 : l.head? ≠ some 61) (a b : Bytes) (h : ts.flatten ++ l ++ [10] = a ++ b) :
    LineStarts a ∧ ascii "=== " <+: b ↔ ∃ k < ts.length, a = (ts.take k).flatten := by
  have hT : ts.flatten = [] ∨ ts.flatten.getLast? = some 10 := by
    clear hcut h
    induction ts using List.reverseRecOn with
    | nil => exact Or.inl rfl
    | append_singleton ts t _ =>
        right
        have := hlast t (by simp)
        rw [List.flatten_append, List.flatten_cons, List.flatten_nil, List.append_nil,
          List.getLast?_append, this]
        rfl
  have hl : ¬ ascii "=== " <+: l ++ [10] := by
    rintro ⟨r, hr⟩
    cases l with
    | nil => exact absurd (congrArg List.head? hr) (by simp [ascii])
    | cons x xs =>
        have := congrArg List.head? hr
        simp [ascii] at this
        exact h61 (by simp [this])
  rw [List.append_assoc] at h
  rcases List.append_eq_append_iff.1 h with ⟨a', rfl, hb⟩ | ⟨b', hT', rfl⟩
  · by_cases ha' : a' = []
    · subst ha'
      rw [List.nil_append] at hb
      subst hb
      have := hcut ts.flatten [] (by simp)
      rw [List.append_nil, ← this]
      constructor
      · rintro ⟨-, h2⟩; exact absurd h2 hl
      · rintro ⟨-, h2⟩; exact absurd (List.prefix_nil.1 h2) (by decide)
    · constructor
      · rintro ⟨h1, h2⟩
        exfalso
        have ha : a'.getLast? = some 10 := by
          rcases h1 with h1 | h1
          · exact absurd (List.append_eq_nil_iff.1 h1).2 ha'
          · rw [List.getLast?_append] at h1
            cases hg : a'.getLast? with
            | none => exact absurd (List.getLast?_eq_none_iff.1 hg) ha'
            | some x => rw [hg] at h1; simpa using h1
        have hmem : 10 ∈ a' := List.mem_of_getLast? ha
        rcases List.append_eq_append_iff.1 hb with ⟨c, rfl, hc⟩ | ⟨c, hc, rfl⟩
        · cases c with
          | nil =>
              simp only [List.append_nil] at hmem
              exact h10 hmem
          | cons x xs =>
              have : b = [] := by
                have := congrArg List.length hc
                simp only [List.length_cons, List.length_append, List.length_nil] at this
                exact List.length_eq_zero_iff.1 (by omega)
              subst this
              exact absurd (List.prefix_nil.1 h2) (by decide)
        · exact h10 (by rw [hc]; exact List.mem_append_left _ hmem)
      · rintro ⟨k, -, hk⟩
        exfalso
        have h1 := congrArg List.length hk
        have h2 : ts.flatten.length = (ts.take k).flatten.length + (ts.drop k).flatten.length := by
          rw [← List.length_append, ← List.flatten_append, List.take_append_drop]
        simp only [List.length_append] at h1
        have := List.length_pos_iff.2 ha'
        omega
  · rw [← hcut a b' hT']
    refine and_congr_right fun _ => ⟨fun h2 => ?_, fun h2 => h2.trans (List.prefix_append _ _)⟩
    by_cases hlen : (ascii "=== ").length ≤ b'.length
    · exact List.prefix_of_prefix_length_le h2 (List.prefix_append _ _) hlen
    · exfalso
      have h3 := List.prefix_of_prefix_length_le (List.prefix_append b' _) h2 (by omega)
      by_cases hb' : b' = []
      · subst hb'; exact hl h2
      · have h4 : b'.getLast? = some 10 := by
          rcases hT with hT | hT
          · rw [hT'] at hT; exact absurd (List.append_eq_nil_iff.1 hT).2 hb'
          · rw [hT', List.getLast?_append] at hT
            cases hg : b'.getLast? with
            | none => exact absurd (List.getLast?_eq_none_iff.1 hg) hb'
            | some x => rw [hg] at hT; simpa using hT
        exact absurd (h3.subset (List.mem_of_getLast? h4)) (by decide)

/-- C133 with C136: in the output of a receive loop that ended with an exception, on a stream on which
nothing was printed before, the lines that start with `=== ` still count the frames and stand before
the text of each; the line with the text of the exception is not one of them. The conditions are that
no header or debug data has a line that starts with an equals sign, and no text of the standard library
either. Missing: frames with such a line, as in `C133_titles_partial`. -/
theorem C133_failed_partial [Platform] (o : Outside) (ho : o.Plain) (c : Client) (s' : State) (e : Exc)
    (w : What) (h : receiveFramesTold o ⟨c, ⟨[], false⟩⟩ = (.throw e w, s')) :
    ∃ (fs : List Frame) (c' : Client), Received c fs c' ∧
      ((∀ f ∈ fs, NoForgedTitle f) →
        ∃ ts : List Bytes, s'.cout.out = ts.flatten ++ w.text o ++ [10] ∧ ts.length = fs.length ∧
          (∀ (k : Nat) f t, fs[k]? = some f → ts[k]? = some t → title f ++ [10] <+: t) ∧
          ∀ a b, s'.cout.out = a ++ b →
            (LineStarts a ∧ ascii "=== " <+: b ↔ ∃ k < fs.length, a = (ts.take k).flatten)) := by
  obtain ⟨gs, c', t, h1, h2, -, h3, -, h4⟩ := (C136_throws o _ s' e w).1 h
  refine ⟨gs, c', h1, fun hf => ?_⟩
  obtain ⟨ts, o', h5, h6⟩ := logs_of_prints h2 (o := ⟨[], Format.initial⟩) (by constructor <;> rfl)
  obtain ⟨a1, a2, a3, a4⟩ := C133_titles_partial _ _ _ _ h5 rfl hf
  have e1 : t.out = ts.flatten := by rw [← h6.out, a2]; rfl
  have e2 : s'.cout.out = ts.flatten ++ w.text o ++ [10] := by rw [h4, e1]
  obtain ⟨p1, p2⟩ := C134_one_line c' e w o ho h3
  refine ⟨ts, e2, a1, fun k f t hk ht => (a3 k f t hk ht).1, fun a b hab => ?_⟩
  rw [← a1]
  refine titles_then_line (fun t ht => ?_) (fun a b hab => by rw [a1]; exact a4 a b hab) p1 p2 a b
    (by rw [← e2, hab])
  obtain ⟨k, hk, rfl⟩ := List.mem_iff_getElem.1 ht
  exact (a3 k gs[k] ts[k] (List.getElem?_eq_getElem (by omega)) (List.getElem?_eq_getElem hk)).2

/-- C136. When it returns, no such line was printed: the output is that of C66. -/
theorem C136_returns [Platform] (o : Outside) (s s' : State) (type : UInt8) :
    receiveFramesTold o s = (.ok type, s') ↔
      ∃ gs g, Received s.client (gs ++ [g]) s'.client ∧ Prints (gs ++ [g]) s.cout s'.cout ∧
        (∀ f ∈ gs, ¬ EndsLoop f) ∧ EndsLoop g ∧ type = g.header.type := by
  rw [← C66_returns]
  obtain ⟨h1, h2, h3⟩ := loop_told o s
  refine ⟨fun h => ?_, h1 type s'⟩
  rcases hr : receiveFrames s with ⟨ty | e | k | _, u⟩
  · rw [h1 _ _ hr] at h
    obtain ⟨a, b⟩ := Prod.mk.inj h
    cases a
    rw [b]
  · obtain ⟨w, c, -, -, g⟩ := h2 _ _ hr
    rw [g] at h; cases h
  · obtain ⟨out, g⟩ := h3 _ _ hr
    rw [g] at h; cases h
  · have := C66_ends s
    rw [hr] at this
    exact absurd rfl this

attribute [local instance] x86 in
/-- A SETTINGS frame, then the connection ends. -/
example :
    let r := receiveFramesTold libstdcxx
      ⟨Client.new ⟨[0, 0, 0, 4, 1, 0, 0, 0, 0, 0, 0], [], [20, 2, 0], []⟩, ⟨[], false⟩⟩
    r.1 = .throw .runtimeError (.system (ascii "BIO_read failed: result=") (ascii ", length=9")) ∧
    r.2.cout.out.reverse.take 36 = (ascii "
BIO_read failed: result=0, length=9
").reverse.take 36 ∧ 40 < r.2.cout.out.length := by
  decide +kernel

end Sample

end Mh2c
