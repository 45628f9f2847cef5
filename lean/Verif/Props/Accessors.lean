/-
C100: the accessors of a received frame.
-/
import Verif.Spec.Accessors
import Verif.Model.Accessors
import Verif.Props.Frames
import Verif.Props.HeaderFrames
import Verif.Props.Client
import Verif.Props.Bits
import Verif.Props.FrameRules
import Verif.Props.Loose
import Verif.Proofs.Received
import Verif.Proofs.Safety

namespace Mh2c

open Rfc

theorem extractPadding_inv {flags : UInt8} {raw pad content : Bytes}
    (h : extractPadding flags raw = .ok (pad, content)) :
    raw = withPadding flags content pad ∧ pad.length ≤ 255 := by
  unfold withPadding
  by_cases hp : hasPadded flags
  · match raw, h with
    | [], h =>
        obtain ⟨k, hk⟩ := extractPadding_bad hp (raw := []) (Or.inl rfl)
        rw [hk] at h; cases h
    | p :: rest, h =>
        by_cases hl : p.toNat ≤ rest.length
        · rw [extractPadding_good hp hl] at h
          obtain ⟨rfl, rfl⟩ := Prod.mk.inj (Res.ok.inj h)
          have hlen : (rest.drop (rest.length - p.toNat)).length = p.toNat := by
            rw [List.length_drop]; omega
          rw [if_pos hp]
          unfold padded
          rw [hlen, List.take_append_drop]
          have := p.toNat_lt
          exact ⟨by simp, by omega⟩
        · obtain ⟨k, hk⟩ := extractPadding_bad hp (raw := p :: rest)
            (Or.inr ⟨p, rest, rfl, by simp; omega⟩)
          rw [hk] at h; cases h
  · rw [extractPadding_unpadded hp] at h
    obtain ⟨rfl, rfl⟩ := Prod.mk.inj (Res.ok.inj h)
    rw [if_neg hp]
    exact ⟨rfl, by simp⟩

theorem extractPriority_inv {flags : UInt8} {raw content : Bytes} {p : PriorityOption}
    (h : extractPriority flags raw = .ok (p, content)) :
    raw = withPriority flags p content := by
  unfold withPriority
  by_cases hp : hasPriority flags
  · by_cases hl : 5 ≤ raw.length
    · rw [extractPriority_eq hp hl] at h
      obtain ⟨rfl, rfl⟩ := Prod.mk.inj (Res.ok.inj h)
      rw [if_pos hp]
      have hv : beValue (raw.take 4) < 2 ^ 32 := take_beValue_lt 4
      unfold priorityOctets bitAnd31
      simp only [UInt8.toNat_ofNat', UInt32.toNat_ofNat']
      have e : beValue (raw.take 4) / 2 ^ 31 % 2 ^ 8 * 2 ^ 31 + beValue (raw.take 4) % 2 ^ 31 % 2 ^ 32
        = beValue (raw.take 4) := by omega
      have e4 : be 4 (beValue (raw.take 4)) = raw.take 4 := by
        have := be_beValue (raw.take 4)
        rwa [List.length_take, Nat.min_eq_left (by omega)] at this
      rw [e, e4, List.append_assoc, List.singleton_append, ← List.drop_eq_getElem_cons (by omega),
        List.take_append_drop]
    · obtain ⟨k, hk⟩ := extractPriority_short hp (by omega : raw.length < 5)
      rw [hk] at h; cases h
  · rw [extractPriority_none hp] at h
    obtain ⟨rfl, rfl⟩ := Prod.mk.inj (Res.ok.inj h)
    rw [if_neg hp]

theorem withPadding_content (flags : UInt8) (content padding : Bytes) (h : padding.length ≤ 255) :
    Content flags (withPadding flags content padding) content := by
  unfold withPadding
  by_cases hp : hasPadded flags
  · rw [if_pos hp]
    unfold padded
    refine .padded _ _ _ hp ?_
    rw [UInt8.toNat_ofNat']
    omega
  · rw [if_neg hp]; exact .plain _ hp

theorem withPadding_carries (flags : UInt8) (p : PriorityOption) (block padding : Bytes)
    (h : padding.length ≤ 255) :
    CarriesBlock flags 1 (withPadding flags (withPriority flags p block) padding) block := by
  have hc := withPadding_content flags (withPriority flags p block) padding h
  unfold withPriority at hc ⊢
  by_cases hp : hasPriority flags
  · rw [if_pos hp] at hc ⊢
    exact .headersPriority _ _ _ hp hc (by simp [priorityOctets, bitAnd31])
  · rw [if_neg hp] at hc ⊢
    exact .headers _ _ hp hc

theorem top_octet (r v : Nat) :
    (bitAnd31 r v)[0]? = some (UInt8.ofNat (r * 128 + v / 2 ^ 24)) := by
  have h : (bitAnd31 r v)[0]? = some (UInt8.ofNat ((r * 2 ^ 31 + v) / 256 ^ 3 % 256)) := by
    unfold bitAnd31
    rw [be, List.getElem?_cons_zero]
  rw [h]
  congr 1
  apply UInt8.toNat.inj
  rw [UInt8.toNat_ofNat', UInt8.toNat_ofNat']
  omega

theorem carries [Platform] {fh : FrameHeader} {raw : Bytes} {table : DynamicTable} {f : Frame}
    (hb : buildFrame fh raw table = .ok f) (hr : ∀ g, f ≠ .raw g)
    (hd : fh.type = 0 → ¬ hasPadded fh.flags)
    (hw : fh.type = 8 → ∀ b, raw[0]? = some b → b.toNat < 128) :
    Carries table fh.flags fh.type raw f.getPayload := by
  have hb' := hb
  have key := built_of_ok hb
  cases key with
  | data h => rw [h]; exact .data raw raw (.plain _ (hd h))
  | headers h f hf =>
      rw [h]
      unfold HeadersFrame.ofRaw at hf
      obtain ⟨⟨pad, c⟩, h1, hf⟩ := Res.bind_eq_ok.1 hf
      obtain ⟨⟨p, c'⟩, h2, hf⟩ := Res.bind_eq_ok.1 hf
      obtain ⟨es, h3, hf⟩ := Res.bind_eq_ok.1 hf
      obtain rfl := (Res.ok.inj hf).symm
      refine .headers _ c' _ ?_ ((C121_accepts _ _ _).1 h3)
      rw [(extractPadding_inv h1).1, extractPriority_inv h2]
      exact withPadding_carries _ _ _ _ (extractPadding_inv h1).2
  | rawHeaders h e hf => exact absurd rfl (hr _)
  | priority h f hf =>
      by_cases hl : raw.length < 5
      · rw [(C49_priority fh h raw table).1 hl] at hb'; cases hb'
      · obtain ⟨g, h1, -, h2, h3, h4, h5⟩ := (C49_priority fh h raw table).2 (by omega)
        rw [h1] at hb'
        obtain rfl := Frame.priority.inj (Res.ok.inj hb')
        rw [h]
        have : raw = priorityOctets g.payload.exclusive.toNat g.payload.streamDependency.toNat
            g.payload.weight ++ raw.drop 5 := by
          unfold priorityOctets
          rw [← h4, h5, List.append_assoc, List.singleton_append,
            ← List.drop_eq_getElem_cons (by omega), List.take_append_drop]
        rw [this]
        exact .priority _ _ h2 h3
  | rstStream h f hf =>
      by_cases hl : raw.length < 4
      · rw [(C49_rst_stream fh h raw table).1 hl] at hb'; cases hb'
      · obtain ⟨g, h1, -, h2⟩ := (C49_rst_stream fh h raw table).2 (by omega)
        rw [h1] at hb'
        obtain rfl := Frame.rstStream.inj (Res.ok.inj hb')
        rw [h]
        have : raw = be 4 g.errorCode.toNat ++ raw.drop 4 := by
          rw [← h2, List.take_append_drop]
        rw [this]
        exact .rstStream _ _
  | settings h p hp =>
      by_cases hl : raw.length % 6 = 0
      · obtain ⟨ps, f, h1, h2, h3⟩ := C50_well_formed_partial fh h raw table hl
        obtain ⟨f', g1, g2, g3, -⟩ := C52_first_value_partial fh h table ps
        rw [← h1, hb] at g1
        obtain rfl := (Frame.settings.inj (Res.ok.inj g1)).symm
        rw [h, h1]
        exact .settings _ _ g2 g3
      · rw [C50_malformed_settings_violated fh h raw table hl] at hb'; cases hb'
  | pushPromise h f hf =>
      rw [h]
      unfold PushPromiseFrame.ofRaw at hf
      obtain ⟨⟨pad, c⟩, h1, hf⟩ := Res.bind_eq_ok.1 hf
      obtain ⟨first, h2, hf⟩ := Res.bind_eq_ok.1 hf
      obtain ⟨value, h3, hf⟩ := Res.bind_eq_ok.1 hf
      obtain ⟨c', h4, hf⟩ := Res.bind_eq_ok.1 hf
      obtain ⟨es, h5, hf⟩ := Res.bind_eq_ok.1 hf
      obtain rfl := (Res.ok.inj hf).symm
      rw [(extractPadding_inv h1).1]
      by_cases hl : 4 ≤ c.length
      · have hv : beValue (c.take 4) < 2 ^ 32 := take_beValue_lt 4
        rw [readAt_ok (by omega)] at h2
        rw [bytes2integral_ok (by omega) hl] at h3
        rw [eraseFirst_drop hl] at h4
        obtain rfl := (Res.ok.inj h2).symm
        obtain rfl := (Res.ok.inj h3).symm
        obtain rfl := (Res.ok.inj h4).symm
        have e : c = bitAnd31 (UInt8.ofNat (highBits 8 1 c[0].toNat)).toNat
            (UInt32.ofNat (lowBits 31 (beValue (c.take 4)))).toNat ++ c.drop 4 := by
          rw [first_bit hl, lowBits_eq]
          unfold bitAnd31
          simp only [UInt8.toNat_ofNat', UInt32.toNat_ofNat']
          have e : beValue (c.take 4) / 2 ^ 31 % 2 ^ 8 * 2 ^ 31 + beValue (c.take 4) % 2 ^ 31 % 2 ^ 32
            = beValue (c.take 4) := by omega
          have e4 : be 4 (beValue (c.take 4)) = c.take 4 := by
            have := be_beValue (c.take 4)
            rwa [List.length_take, Nat.min_eq_left (by omega)] at this
          rw [e, e4, List.take_append_drop]
        have he : withPadding fh.flags c pad = withPadding fh.flags
            (bitAnd31 (UInt8.ofNat (highBits 8 1 c[0].toNat)).toNat
            (UInt32.ofNat (lowBits 31 (beValue (c.take 4)))).toNat ++ c.drop 4) pad := by rw [← e]
        rw [he]
        refine .pushPromise ⟨_, _, es, pad⟩ _ ?_ ?_ (extractPadding_inv h1).2 ((C121_accepts _ _ _).1 h5)
        · show (UInt8.ofNat _).toNat ≤ 1
          rw [first_bit hl, UInt8.toNat_ofNat']
          omega
        · show (UInt32.ofNat _).toNat < 2 ^ 31
          rw [lowBits_eq, UInt32.toNat_ofNat']
          omega
      · rw [bytes2integral_short (by omega) (by omega)] at h3
        cases h3
  | ping h f hf =>
      rw [h]
      obtain rfl := (Res.ok.inj hf).symm
      exact .ping raw
  | goaway h f hf =>
      by_cases hl : raw.length < 8
      · rw [(C49_goaway fh h raw table).1 hl] at hb'; cases hb'
      · obtain ⟨g, h1, -, h2, h3, h4⟩ := (C49_goaway fh h raw table).2 (by omega)
        rw [h1] at hb'
        obtain rfl := Frame.goaway.inj (Res.ok.inj hb')
        rw [h]
        conv => arg 4; rw [h4]
        exact .goaway _ h2 h3
  | windowUpdate h f hf =>
      by_cases hl : raw.length = 4
      · obtain ⟨g, h1, -, h2, h3, h4⟩ := (C49_window_update fh h raw table).2 hl
        rw [h1] at hb'
        obtain rfl := Frame.windowUpdate.inj (Res.ok.inj hb')
        rw [h]
        have h0 : g.reserved.toNat = 0 := by
          by_contra hne
          have h1 : g.reserved.toNat = 1 := by omega
          have hb := hw h
          rw [h4, h1] at hb
          have := hb _ (top_octet _ _)
          simp only [UInt8.toNat_ofNat'] at this
          omega
        have hg : g.getPayload = g.increment := by
          unfold WindowUpdateFrame.getPayload
          rw [h0, lowBits_eq, lowBits_eq, Nat.mod_eq_of_lt h3]
          simp
        show Carries _ _ 8 raw (.window g.getPayload)
        rw [hg]
        conv => arg 4; rw [h4]
        exact .windowUpdate _ _ h2 h3
      · rw [(C49_window_update fh h raw table).1 hl] at hb'; cases hb'
  | continuation h f hf =>
      rw [h]
      unfold ContinuationFrame.ofRaw at hf
      obtain ⟨es, h1, hf⟩ := Res.bind_eq_ok.1 hf
      obtain rfl := (Res.ok.inj hf).symm
      exact .continuation _ _ ((C121_accepts _ _ _).1 h1)

theorem built_header [Platform] {fh : FrameHeader} {raw : Bytes} {table : DynamicTable} {f : Frame}
    (h : Built fh raw table f) :
    f.header.flags = fh.flags ∧ f.header.streamId = fh.streamId ∧
      (fh.type ≠ 0 → fh.type ≠ 4 → f.header = fh) := by
  suffices hs : f.header = fh ∨ ((fh.type = 0 ∨ fh.type = 4) ∧ f.header.flags = fh.flags ∧
      f.header.streamId = fh.streamId) by
    rcases hs with hs | ⟨h1 | h1, h2, h3⟩
    · rw [hs]; exact ⟨rfl, rfl, fun _ _ => rfl⟩
    · exact ⟨h2, h3, fun h => absurd h1 h⟩
    · exact ⟨h2, h3, fun _ h => absurd h1 h⟩
  cases h with
  | data h => exact .inr ⟨.inl h, rfl, rfl⟩
  | headers h f hf => exact .inl (headers_entries hf).1
  | rawHeaders h e hf => exact .inl rfl
  | priority h f hf =>
      unfold PriorityFrame.ofRaw at hf
      obtain ⟨p, -, hf⟩ := Res.bind_eq_ok.1 hf
      obtain ⟨_, -, hf⟩ := Res.bind_eq_ok.1 hf
      obtain rfl := Res.ok.inj hf
      exact .inl rfl
  | rstStream h f hf =>
      unfold RstStreamFrame.ofRaw at hf
      split at hf
      · cases hf
      · obtain ⟨p, -, hf⟩ := Res.bind_eq_ok.1 hf
        obtain rfl := Res.ok.inj hf
        exact .inl rfl
  | settings h p hp => exact .inr ⟨.inr h, rfl, rfl⟩
  | pushPromise h f hf => exact .inl (pushPromise_entries hf).1
  | ping h f hf => obtain rfl := Res.ok.inj hf; exact .inl rfl
  | goaway h f hf =>
      by_cases hl : raw.length < 8
      · unfold GoawayFrame.ofRaw at hf
        rw [if_pos hl] at hf; cases hf
      · rw [goaway_ofRaw _ (by omega)] at hf
        obtain rfl := Res.ok.inj hf
        exact .inl rfl
  | windowUpdate h f hf =>
      by_cases hl : raw.length = 4
      · rw [windowUpdate_ofRaw _ hl] at hf
        obtain rfl := Res.ok.inj hf
        exact .inl rfl
      · have := (C49_window_update fh h raw table).1 hl
        rw [buildFrame_windowUpdate _ _ _ h, hf] at this
        cases this
  | continuation h f hf =>
      unfold ContinuationFrame.ofRaw at hf
      obtain ⟨es, -, hf⟩ := Res.bind_eq_ok.1 hf
      obtain rfl := Res.ok.inj hf
      exact .inl rfl

/-- A returned frame was built from these octets. -/
theorem returned_built [Platform] {c : Client} {f : Frame} (h : c.receiveFrame.1 = .ok f) :
    frameLength c.conn.incoming ≤ c.conn.incoming.length ∧
    ∃ fh, buildFrame fh ((c.conn.incoming.drop 9).take (announced c.conn.incoming))
        c.responseTable = .ok f ∧
      c.conn.incoming[3]? = some fh.type ∧ c.conn.incoming[4]? = some fh.flags ∧
      fh.length.toNat = announced c.conn.incoming ∧
      fh.streamId.toNat = beValue ((c.conn.incoming.drop 5).take 4) % 2 ^ 31 ∧
      fh.reserved.toNat = beValue ((c.conn.incoming.drop 5).take 4) / 2 ^ 31 := by
  obtain ⟨octets, rest, h1, h2, -, h4, -⟩ := C58_returned c f h
  have hl : frameLength c.conn.incoming ≤ c.conn.incoming.length := by
    rw [← h2, h1, List.length_append]; omega
  have h9 : 9 ≤ octets.length := by rw [h2]; unfold frameLength; omega
  refine ⟨hl, ?_⟩
  obtain ⟨fh, g1, g2⟩ := Res.bind_eq_ok.1 h4
  rw [buildFrameHeader_eq _ (by simp; omega)] at g1
  have hfh := Res.ok.inj g1
  have t3 : (octets.take 9).take 3 = c.conn.incoming.take 3 := by
    rw [h1, List.take_take, List.take_append_of_le_length (by omega)]; rfl
  have t4 : ((octets.take 9).drop 5).take 4 = (c.conn.incoming.drop 5).take 4 := by
    rw [h1, List.drop_append_of_le_length (by omega), List.take_append_of_le_length (by simp; omega),
      List.drop_take, List.take_take]; rfl
  have hd : octets.drop 9 = (c.conn.incoming.drop 9).take (announced c.conn.incoming) := by
    rw [h1, List.drop_append_of_le_length (by omega), ← h1]
    have : (octets.drop 9).length = announced c.conn.incoming := by
      rw [List.length_drop, h2]; unfold frameLength; omega
    rw [List.take_append_of_le_length (by omega), List.take_of_length_le (by omega)]
  have hi : ∀ k, k < 9 → c.conn.incoming[k]? = (octets.take 9)[k]? := by
    intro k hk
    rw [h1, List.getElem?_append_left (by omega), List.getElem?_take_of_lt hk]
  have hv : beValue ((c.conn.incoming.drop 5).take 4) < 2 ^ 32 := take_beValue_lt 4
  have hv3 : beValue (c.conn.incoming.take 3) < 2 ^ 24 := take_beValue_lt 3
  refine ⟨fh, hd ▸ g2, ?_, ?_, ?_, ?_, ?_⟩
  · rw [hi 3 (by omega), ← hfh, List.getElem?_eq_getElem]
  · rw [hi 4 (by omega), ← hfh, List.getElem?_eq_getElem]
  · rw [← hfh]
    show (UInt32.ofNat _).toNat = _
    rw [t3, UInt32.toNat_ofNat', Nat.mod_eq_of_lt (by omega)]; rfl
  · rw [← hfh]
    show (UInt32.ofNat _).toNat = _
    rw [t4, UInt32.toNat_ofNat', Nat.mod_eq_of_lt (by omega)]
  · rw [← hfh]
    show (UInt8.ofNat _).toNat = _
    rw [t4, UInt8.toNat_ofNat', Nat.mod_eq_of_lt (by omega)]

/-- C100. `get_header` of a received frame: type, flags and stream identifier are those on the wire;
so are the length and the reserved bit, except for DATA and SETTINGS, whose headers are made anew. -/
theorem C100_header [Platform] (c : Client) (f : Frame) (h : c.receiveFrame.1 = .ok f) :
    c.conn.incoming[3]? = some f.header.type ∧ c.conn.incoming[4]? = some f.header.flags ∧
    f.header.streamId.toNat = beValue ((c.conn.incoming.drop 5).take 4) % 2 ^ 31 ∧
    (f.header.type ≠ 0 → f.header.type ≠ 4 →
      f.header.length.toNat = beValue (c.conn.incoming.take 3) ∧
      f.header.reserved.toNat = beValue ((c.conn.incoming.drop 5).take 4) / 2 ^ 31) := by
  obtain ⟨-, fh, h1, h2, h3, h4, h5, h6⟩ := returned_built h
  have hb := built_of_ok h1
  obtain ⟨g1, g2, g3⟩ := built_header hb
  rw [hb.type, g1, g2]
  refine ⟨h2, h3, h5, fun a b => ?_⟩
  rw [g3 a b]
  exact ⟨h4, h6⟩

/-- C100. `get_payload` of a received frame is what RFC 7540 says the frame carries; header blocks
are those the response table gives. Missing: DATA frames with padding and WINDOW_UPDATE frames with
the reserved bit set, see below. -/
theorem C100_payload_partial [Platform] (c : Client) (f : Frame) (h : c.receiveFrame.1 = .ok f)
    (hd : f.header.type = 0 → ¬ hasPadded f.header.flags)
    (hw : f.header.type = 8 → ∀ b, c.conn.incoming[9]? = some b → b.toNat < 128) :
    Carries c.responseTable f.header.flags f.header.type
      ((c.conn.incoming.drop 9).take (announced c.conn.incoming)) f.getPayload := by
  obtain ⟨hl, fh, h1, h2, h3, h4, h5, h6⟩ := returned_built h
  have hb := built_of_ok h1
  rw [(built_header hb).1] at hd ⊢
  rw [hb.type] at hw hd ⊢
  refine carries h1 (fun g hg => C61_raw_never_delivered_violated c g (hg ▸ h)) hd fun h8 b hb => ?_
  refine hw h8 b ?_
  rw [← hb, List.getElem?_take, List.getElem?_drop]
  split
  · rfl
  · next hn =>
      rw [List.getElem?_take, if_neg hn] at hb
      cases hb

/-- C84, HEADERS, PUSH_PROMISE and CONTINUATION: such a frame is delivered as a frame of its type
exactly if padding and fixed fields leave a header block and the client can decode it. Missing: the
stream identifiers, which are not checked (`C84_stream_violated`). -/
theorem C84_blocks_partial [Platform] (fh : FrameHeader) (raw : Bytes) (table : DynamicTable)
    (ht : fh.type ∈ [1, 5, 9]) :
    (∃ f, buildFrame fh raw table = .ok f ∧ f.kind = some fh.type) ↔
      ∃ block es, CarriesBlock fh.flags fh.type raw block ∧ ReadsAs table.entries block es := by
  constructor
  · rintro ⟨f, hf, hk⟩
    have := carries hf (by rintro g rfl; cases hk)
      (by intro h0; rw [h0] at ht; exact absurd ht (by decide)) (by intro h8; rw [h8] at ht; exact absurd ht (by decide))
    simp only [List.mem_cons, List.not_mem_nil, or_false] at ht
    generalize fh.type = t at this ht
    generalize f.getPayload = pl at this
    rcases ht with rfl | rfl | rfl
    · cases this with
      | headers _ block es hc h => exact ⟨block, es, hc, h⟩
    · cases this with
      | pushPromise p block h1 h2 h3 h =>
          exact ⟨block, _, .pushPromise _ _ _ (withPadding_content _ _ _ h3) (by simp [bitAnd31]), h⟩
    · cases this with
      | continuation _ es h => exact ⟨raw, es, .continuation _, h⟩
  · intro h
    obtain ⟨block, es, h1, h2⟩ := h
    exact C84_legal_accepted fh raw table (.block _ _ block h1) fun _ => ⟨block, es, h1, h2⟩

attribute [local instance] x86 in
/-- Padded HEADERS with an index that exists, and with one that does not. -/
example : (∃ f, buildFrame ⟨4, 1, 12, 0, 1⟩ [2, 0x88, 7, 7] .default = .ok f ∧ f.kind = some 1) ∧
    (buildFrame ⟨4, 1, 12, 0, 1⟩ [2, 0xbe, 7, 7] .default) = .ok (.raw ⟨⟨4, 1, 12, 0, 1⟩, [2, 0xbe, 7, 7]⟩) :=
  ⟨(C84_blocks_partial _ _ _ (by decide)).2 ⟨[0x88], [⟨.indexed, .header (bstr ":status", bstr "200")⟩],
    .headers _ _ (by decide) (.padded 2 [0x88] [7, 7] (by decide) rfl),
    (C121_accepts _ DynamicTable.default _).1 (by decide +kernel)⟩,
    by decide +kernel⟩

/-- C100 is false of the code for DATA: `get_payload` of a frame with padding gives the whole payload,
pad length and padding included, never just the data. -/
theorem C100_padded_data_violated [Platform] (c : Client) (f : Frame) (h : c.receiveFrame.1 = .ok f)
    (h0 : f.header.type = 0) (hp : hasPadded f.header.flags) :
    f.getPayload = .octets ((c.conn.incoming.drop 9).take (announced c.conn.incoming)) ∧
    ¬ Carries c.responseTable f.header.flags 0
      ((c.conn.incoming.drop 9).take (announced c.conn.incoming)) f.getPayload := by
  obtain ⟨-, fh, h1, -⟩ := returned_built h
  have hbt := built_of_ok h1
  rw [hbt.type] at h0
  generalize (c.conn.incoming.drop 9).take (announced c.conn.incoming) = raw at h1 hbt ⊢
  have hpay : f.getPayload = .octets raw := by
    cases hbt with
    | data _ => rfl
    | headers ht => rw [h0] at ht; cases ht
    | rawHeaders ht => rw [h0] at ht; cases ht
    | _ =>
        rename_i ht _ _
        rw [h0] at ht
        cases ht
  refine ⟨hpay, fun hc => ?_⟩
  rw [hpay] at hc
  cases hc with
  | data _ _ hc =>
      generalize hr : raw = r at hc
      conv at hc => arg 2; rw [← hr]
      cases hc with
      | plain _ hn => exact hn hp
      | padded pad content padding _ hl =>
          have := congrArg List.length hr
          simp only [List.length_cons, List.length_append] at this
          omega

/-- C100 is false of the code for WINDOW_UPDATE: RFC 7540 6.9 has the receiver ignore the reserved
bit, but `get_payload` includes it, so the increment appears larger by 2^31. -/
theorem C100_window_violated [Platform] (c : Client) (f : Frame) (h : c.receiveFrame.1 = .ok f)
    (h8 : f.header.type = 8) (b : UInt8) (hb : c.conn.incoming[9]? = some b) (hr : 128 ≤ b.toNat) :
    ∃ w increment : UInt32, f.getPayload = .window w ∧ increment.toNat < 2 ^ 31 ∧
      w.toNat = 2 ^ 31 + increment.toNat ∧
      Carries c.responseTable f.header.flags 8
        ((c.conn.incoming.drop 9).take (announced c.conn.incoming)) (.window increment) := by
  obtain ⟨hl, fh, h1, h2, h3, h4, h5, h6⟩ := returned_built h
  have hbt := built_of_ok h1
  rw [hbt.type] at h8
  generalize hraw : (c.conn.incoming.drop 9).take (announced c.conn.incoming) = raw at h1 ⊢
  by_cases h4 : raw.length = 4
  · obtain ⟨g, e1, -, e2, e3, e4⟩ := (C49_window_update fh h8 raw c.responseTable).2 h4
    rw [h1] at e1
    obtain rfl := Res.ok.inj e1
    have hr1 : g.reserved.toNat = 1 := by
      by_contra hne
      have h0 : g.reserved.toNat = 0 := by omega
      have ht := top_octet g.reserved.toNat g.increment.toNat
      have hr0 : raw[0]? = some b := by
        rw [← hb, ← hraw, List.getElem?_take, List.getElem?_drop]
        rw [if_pos]
        by_contra hn
        rw [← hraw, List.length_take] at h4
        omega
      rw [← e4, hr0, h0] at ht
      rw [Option.some.inj ht, UInt8.toNat_ofNat'] at hr
      omega
    refine ⟨g.getPayload, g.increment, rfl, e3, ?_, ?_⟩
    · unfold WindowUpdateFrame.getPayload
      rw [hr1, lowBits_eq, lowBits_eq, Nat.mod_eq_of_lt e3, or_high_bit _ _ e3, UInt32.toNat_ofNat']
      omega
    · rw [e4]; exact .windowUpdate _ _ e2 e3
  · rw [(C49_window_update fh h8 raw c.responseTable).1 h4] at h1; cases h1

attribute [local instance] x86 in
/-- A WINDOW_UPDATE by 5 with the reserved bit set: `get_payload` says 2147483653. -/
example : ((Client.new ⟨[0, 0, 4, 8, 0, 0, 0, 0, 0, 0x80, 0, 0, 5], [], [9, 4], []⟩).receiveFrame.1.bind
    fun f => .ok (f.header.type, f.getPayload)) = .ok (8, .window 2147483653) := by decide +kernel

attribute [local instance] x86 in
/-- The same without it. -/
example : ((Client.new ⟨[0, 0, 4, 8, 0, 0, 0, 0, 0, 0, 0, 0, 5], [], [9, 4], []⟩).receiveFrame.1.bind
    fun f => .ok (f.header.type, f.getPayload)) = .ok (8, .window 5) := by decide +kernel

attribute [local instance] x86 in
/-- Padded DATA: `a` and one octet of padding. -/
example : ((Client.new ⟨[0, 0, 3, 0, 8, 0, 0, 0, 1, 1, 97, 0], [], [9, 3], []⟩).receiveFrame.1.bind
    fun f => .ok (f.header.type, f.header.flags, f.getPayload)) = .ok (0, 8, .octets [1, 97, 0]) ∧
    Carries .default 8 0 [1, 97, 0] (.octets [97]) :=
  ⟨by decide +kernel, .data _ _ (.padded 1 [97] [0] (by decide) rfl)⟩

attribute [local instance] x86 in
/-- Padded HEADERS. -/
example : ((Client.new ⟨[0, 0, 4, 1, 12, 0, 0, 0, 1, 2, 0x88, 7, 7], [], [9, 4], []⟩).receiveFrame.1.bind
    fun f => .ok (f.header.type, f.getPayload)) =
    .ok (1, .headers [⟨.indexed, .header (bstr ":status", bstr "200")⟩]) := by decide +kernel

end Mh2c
