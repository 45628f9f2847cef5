/-
C37, C41, C45 (frames with header blocks), C46, C48 (frame part), C50, C51, C54.
-/
import Verif.Proofs.HeaderFrames
import Verif.Proofs.Equality
import Verif.Props.Frames
import Verif.Props.HeaderCodec

namespace Mh2c

open Rfc

/-! ## C37: HEADERS -/

/-- C37. For every combination of the PADDED and PRIORITY flags: layout of RFC 7540 6.2, and the
receiver recovers header list, padding and priority. The received frame is equal (`operator==`) to
the sent one if headers found in a table were given the prefix INDEXED, as `make_header_block`
does for the static table. -/
theorem C37_headers_round_trip [Platform] (flags : UInt8) (streamId : UInt32) (block : HeaderBlock)
    (mode : EncodeMode) (table : DynamicTable) (padding : Bytes) (priority : PriorityOption)
    (hs : streamId.toNat < 2 ^ 31) (hb : ∀ e ∈ block, Sendable table mode e)
    (ht : table.entries.length ≤ 2 ^ 31 + 65) (hp : padding.length ≤ 255)
    (hnp : ¬ hasPadded flags → padding = []) (he : priority.exclusive.toNat ≤ 1)
    (hd : priority.streamDependency.toNat < 2 ^ 31)
    (hnz : ¬ hasPriority flags → priority = ⟨0, 0, 0⟩) :
    ∃ enc, encodeHeaderBlock block mode table = .ok enc ∧
      ∀ payload, payload = withPadding flags (withPriority flags priority enc) padding →
        payload.length < 2 ^ 24 →
        ∃ f g, HeadersFrame.new flags streamId block mode table padding priority = .ok f ∧
          f.serialize = .ok (frameOctets 1 flags streamId.toNat payload) ∧
          reparse (frameOctets 1 flags streamId.toNat payload) table = .ok (.headers g) ∧
          g.header = f.header ∧ f.padding = padding ∧ g.padding = padding ∧
          f.priority = priority ∧ g.priority = priority ∧
          f.headerBlock = block ∧ SameHeaders table block g.headerBlock ∧
          (Settled table block → f.same g = true) := by
  obtain ⟨enc, decoded, h1, h2, h3⟩ := C30_block_round_trip table mode block hb ht
  refine ⟨enc, h1, ?_⟩
  rintro payload rfl hlen
  have e1 := headers_encoded (flags := flags) (padding := padding) (fun _ => he) (fun _ => hd) h1
  have e2 := headers_decoded (fh := ⟨castToFhLength
    (withPadding flags (withPriority flags priority enc) padding).length, 1, flags, 0, streamId⟩)
    hp hnp he hd hnz h2
  refine ⟨⟨withPadding flags (withPriority flags priority enc) padding, ⟨castToFhLength
    (withPadding flags (withPriority flags priority enc) padding).length, 1, flags, 0, streamId⟩,
    padding, priority, block⟩, ⟨withPadding flags (withPriority flags priority enc) padding,
    ⟨castToFhLength (withPadding flags (withPriority flags priority enc) padding).length, 1, flags,
    0, streamId⟩, padding, priority, decoded⟩, ?_, ?_, ?_, rfl, rfl, rfl, rfl, rfl, rfl, h3,
    fun hset => ?_⟩
  · unfold HeadersFrame.new
    rw [e1]; rfl
  · unfold HeadersFrame.serialize
    simp only
    rw [header_frame _ _ _ _ hlen]
  · rw [reparse_frame _ _ _ _ hlen hs, buildFrame_headers _ _ _ rfl]
    unfold buildHeadersFrame
    rw [e2]
  · rw [HeadersFrame.same_iff]
    simp [settled_eq h3 hset]

attribute [local instance] x86 in
example : let f := HeadersFrame.new 0x2d 3 [⟨.indexed, .header (bstr ":method", bstr "GET")⟩,
      ⟨.neverIndexed, .header (bstr "x", bstr "y")⟩] .none sampleTable [0, 0, 0] ⟨1, 5, 9⟩
    (do HeadersFrame.serialize (← f)) = .ok ([0, 0, 15, 1, 0x2d, 0, 0, 0, 3] ++
      [3, 0x80, 0, 0, 5, 9, 0x82, 0x10, 1, 120, 1, 121, 0, 0, 0]) ∧
    (do let o ← HeadersFrame.serialize (← f); let g ← reparse o sampleTable; return some g) =
      (do return some (.headers (← f))) := by decide +kernel

/-! ## C41: PUSH_PROMISE -/

/-- C41. As C37, layout of RFC 7540 6.6. -/
theorem C41_push_promise_round_trip [Platform] (flags : UInt8) (streamId : UInt32)
    (p : PushPromisePayload) (mode : EncodeMode) (table : DynamicTable)
    (hs : streamId.toNat < 2 ^ 31) (hb : ∀ e ∈ p.headerBlock, Sendable table mode e)
    (ht : table.entries.length ≤ 2 ^ 31 + 65) (hp : p.padding.length ≤ 255)
    (hnp : ¬ hasPadded flags → p.padding = []) (hr : p.reserved.toNat ≤ 1)
    (hd : p.promisedStreamId.toNat < 2 ^ 31) :
    ∃ enc, encodeHeaderBlock p.headerBlock mode table = .ok enc ∧
      ∀ payload, payload = withPadding flags
          (bitAnd31 p.reserved.toNat p.promisedStreamId.toNat ++ enc) p.padding →
        payload.length < 2 ^ 24 →
        ∃ f g, PushPromiseFrame.new flags streamId p mode table = .ok f ∧
          f.serialize = .ok (frameOctets 5 flags streamId.toNat payload) ∧
          reparse (frameOctets 5 flags streamId.toNat payload) table = .ok (.pushPromise g) ∧
          g.header = f.header ∧ f.payload = p ∧ g.payload.reserved = p.reserved ∧
          g.payload.promisedStreamId = p.promisedStreamId ∧ g.payload.padding = p.padding ∧
          SameHeaders table p.headerBlock g.payload.headerBlock ∧
          (Settled table p.headerBlock → f.same g = true) := by
  obtain ⟨enc, decoded, h1, h2, h3⟩ := C30_block_round_trip table mode p.headerBlock hb ht
  refine ⟨enc, h1, ?_⟩
  intro payload hpay hlen
  have e1 := pushPromise_encoded (flags := flags) h1
  rw [Nat.mod_eq_of_lt (by omega : p.reserved.toNat < 2), Nat.mod_eq_of_lt hd, ← hpay] at e1
  have e2 := pushPromise_decoded (fh := ⟨castToFhLength payload.length, 5, flags, 0, streamId⟩)
    hp hnp hr hd h2
  simp only at e2
  rw [← hpay] at e2
  refine ⟨⟨payload, ⟨castToFhLength payload.length, 5, flags, 0, streamId⟩, p⟩,
    ⟨payload, ⟨castToFhLength payload.length, 5, flags, 0, streamId⟩,
      ⟨p.reserved, p.promisedStreamId, decoded, p.padding⟩⟩,
    ?_, ?_, ?_, rfl, rfl, rfl, rfl, rfl, h3, fun hset => ?_⟩
  · unfold PushPromiseFrame.new
    rw [e1]; rfl
  · unfold PushPromiseFrame.serialize
    simp only
    rw [header_frame _ _ _ _ hlen]
  · rw [reparse_frame _ _ _ _ hlen hs, buildFrame_pushPromise _ _ _ rfl, e2]
    rfl
  · rw [PushPromiseFrame.same_iff]
    simp [settled_eq h3 hset]

attribute [local instance] x86 in
example : (do PushPromiseFrame.serialize (← PushPromiseFrame.new 0x0c 3
      ⟨1, 8, [⟨.neverIndexed, .header (bstr "x", bstr "y")⟩], [7]⟩ .none sampleTable)) = .ok ([0, 0, 11, 5, 0x0c, 0, 0, 0, 3] ++
      [1, 0x80, 0, 0, 8, 0x10, 1, 120, 1, 121, 7]) := by decide +kernel

/-! ## C45: CONTINUATION -/

/-- C45. Layout of RFC 7540 6.10: nothing but the encoded block. -/
theorem C45_continuation_round_trip [Platform] (flags : UInt8) (streamId : UInt32)
    (block : HeaderBlock) (mode : EncodeMode) (table : DynamicTable)
    (hs : streamId.toNat < 2 ^ 31) (hb : ∀ e ∈ block, Sendable table mode e)
    (ht : table.entries.length ≤ 2 ^ 31 + 65) :
    ∃ payload, encodeHeaderBlock block mode table = .ok payload ∧
      (payload.length < 2 ^ 24 →
        ∃ f g, ContinuationFrame.new flags streamId block mode table = .ok f ∧
          f.serialize = .ok (frameOctets 9 flags streamId.toNat payload) ∧
          reparse (frameOctets 9 flags streamId.toNat payload) table = .ok (.continuation g) ∧
          g.header = f.header ∧ f.headerBlock = block ∧ SameHeaders table block g.headerBlock ∧
          (Settled table block → f.same g = true)) := by
  obtain ⟨payload, decoded, h1, h2, h3⟩ := C30_block_round_trip table mode block hb ht
  refine ⟨payload, h1, fun hlen => ?_⟩
  refine ⟨⟨payload, ⟨castToFhLength payload.length, 9, flags, 0, streamId⟩, block⟩,
    ⟨payload, ⟨castToFhLength payload.length, 9, flags, 0, streamId⟩, decoded⟩,
    ?_, ?_, ?_, rfl, rfl, h3, fun hset => ?_⟩
  · unfold ContinuationFrame.new
    rw [h1]; rfl
  · unfold ContinuationFrame.serialize
    simp only
    rw [header_frame _ _ _ _ hlen]
  · rw [reparse_frame _ _ _ _ hlen hs, buildFrame_continuation _ _ _ rfl]
    unfold ContinuationFrame.ofRaw
    rw [h2]
    rfl
  · rw [ContinuationFrame.same_iff]
    simp [settled_eq h3 hset]

attribute [local instance] strictBig in
example : Settled sampleTable [⟨.indexed, .header (bstr ":method", bstr "GET")⟩] ∧
    Sendable sampleTable .none ⟨.indexed, .header (bstr ":method", bstr "GET")⟩ :=
  ⟨by intro e he; simp at he; subst he; intros; rfl,
   by decide, Or.inl (Or.inl ⟨by decide, 2, by decide +kernel⟩)⟩

/-! ## C46 -/

/-- C46. Whatever the constructor and its arguments, the length field on the wire is the number of
payload octets that follow the header. -/
theorem C46_announced_length [Platform] (f : Frame) (hf : Constructed f) (octets : Bytes)
    (ho : f.serialize = .ok octets) (hl : octets.length < 9 + 2 ^ 24) :
    beValue (octets.take 3) + 9 = octets.length := by
  have key : ∀ (n : Nat) (type flags : UInt8) (sid : UInt32) (payload : Bytes),
      octets = (⟨castToFhLength n, type, flags, 0, sid⟩ : FrameHeader).serialize ++ payload →
      payload.length = n → beValue (octets.take 3) + 9 = octets.length := by
    rintro n type flags sid payload rfl rfl
    have h : payload.length < 2 ^ 24 := by
      rw [List.length_append, FrameHeader.serialize_length] at hl; omega
    rw [header_frame _ _ _ _ h]
    simp only [frameOctets, List.append_assoc]
    rw [List.take_left' (be_length _ _), beValue_be, Nat.mod_eq_of_lt (by norm_num; omega)]
    simp; omega
  cases hf with
  | data flags sid payload =>
      exact key _ _ _ _ payload (Res.ok.inj ho).symm rfl
  | headers flags sid block mode table padding priority f h =>
      unfold HeadersFrame.new at h
      obtain ⟨payload, -, h⟩ := Res.bind_eq_ok.1 h
      obtain rfl := Res.ok.inj h
      exact key _ _ _ _ payload (Res.ok.inj ho).symm rfl
  | priority sid p f h =>
      unfold PriorityFrame.new at h
      obtain ⟨_, -, h⟩ := Res.bind_eq_ok.1 h
      obtain rfl := Res.ok.inj h
      change PriorityFrame.serialize _ = _ at ho
      unfold PriorityFrame.serialize at ho
      rw [List.append_assoc] at ho
      exact key 5 _ _ _ _ (Res.ok.inj ho).symm (by simp [netBytes_eq])
  | rstStream sid code => exact key 4 _ _ _ _ (Res.ok.inj ho).symm (by simp [netBytes_eq])
  | settings flags sid payload hm =>
      refine key (6 * payload.length) _ _ _ _ (Res.ok.inj ho).symm ?_
      rw [← settingsOctets_length]
      congr 1
      unfold settingsOctets serializeSetting settingOctets
      simp only [netBytes_eq]
      rfl
  | pushPromise flags sid p mode table f h =>
      unfold PushPromiseFrame.new at h
      obtain ⟨payload, -, h⟩ := Res.bind_eq_ok.1 h
      obtain rfl := Res.ok.inj h
      exact key _ _ _ _ payload (Res.ok.inj ho).symm rfl
  | ping flags data f h =>
      unfold PingFrame.new at h
      obtain ⟨d, hd, h⟩ := Res.bind_eq_ok.1 h
      obtain rfl := Res.ok.inj h
      refine key 8 _ _ _ _ (Res.ok.inj ho).symm ?_
      unfold constructOpaqueData at hd
      split at hd
      · cases hd
      · rw [← Res.ok.inj hd]; simp; omega
  | goaway p =>
      change GoawayFrame.serialize _ = _ at ho
      unfold GoawayFrame.serialize at ho
      obtain ⟨r, -, ho⟩ := Res.bind_eq_ok.1 ho
      rw [List.append_assoc, List.append_assoc] at ho
      refine key _ _ _ _ _ (Res.ok.inj ho).symm ?_
      have : (if (GoawayFrame.new p).payload.debugData.length > 0 then
          (GoawayFrame.new p).payload.debugData else []) = p.debugData := by
        unfold GoawayFrame.new
        cases h : p.debugData <;> simp
      rw [this]
      simp [netBytes_eq]; omega
  | windowUpdate sid reserved increment f h =>
      unfold WindowUpdateFrame.new at h
      obtain ⟨_, -, h⟩ := Res.bind_eq_ok.1 h
      obtain rfl := Res.ok.inj h
      exact key 4 _ _ _ _ (Res.ok.inj ho).symm (by simp [netBytes_eq])
  | continuation flags sid block mode table f h =>
      unfold ContinuationFrame.new at h
      obtain ⟨payload, -, h⟩ := Res.bind_eq_ok.1 h
      obtain rfl := Res.ok.inj h
      exact key _ _ _ _ payload (Res.ok.inj ho).symm rfl

attribute [local instance] x86 in
example : Constructed (.goaway (GoawayFrame.new ⟨0, 5, 2, [1, 2, 3]⟩)) ∧
    (Frame.goaway (GoawayFrame.new ⟨0, 5, 2, [1, 2, 3]⟩)).serialize =
      .ok [0, 0, 11, 7, 0, 0, 0, 0, 0, 0, 0, 0, 5, 0, 0, 0, 2, 1, 2, 3] :=
  ⟨.goaway _, by decide⟩

/-! ## C50 -/

theorem parseSettings_malformed (raw : Bytes) (acc : SfPayload) (h : raw.length % 6 ≠ 0) :
    parseSettings raw acc = .ub .outOfBounds := by
  induction hn : raw.length using Nat.strong_induction_on generalizing raw acc with
  | _ n ih =>
    cases raw with
    | nil => simp at h
    | cons b bs =>
        rw [parseSettings]
        by_cases h2 : (b :: bs).length < 2
        · rw [bytes2integral_short (by omega) h2]; rfl
        · rw [bytes2integral_ok (by omega) (by omega), Res.ok_bind]
          by_cases h6 : (b :: bs).length < 6
          · simp only
            rw [bytes2integral_short (by omega) (by simp at h6 ⊢; omega)]; rfl
          · simp only
            rw [bytes2integral_ok (by omega) (by simp at h6 ⊢; omega), Res.ok_bind,
              @ih ((b :: bs).length - 6) (by simp at hn h6 ⊢; omega) _ _
                (by simp at h h6 ⊢; omega) (by simp)]

theorem settingsOctets_of_length (raw : Bytes) (h : raw.length % 6 = 0) :
    ∃ settings, raw = settingsOctets settings := by
  induction hn : raw.length using Nat.strong_induction_on generalizing raw with
  | _ n ih =>
    cases raw with
    | nil => exact ⟨[], rfl⟩
    | cons b bs =>
        have h6 : 6 ≤ (b :: bs).length := by simp at h ⊢; omega
        obtain ⟨s, hs⟩ := @ih ((b :: bs).length - 6) (by omega) ((b :: bs).drop 6)
          (by simp at h h6 ⊢; omega) (by simp)
        refine ⟨(UInt16.ofNat (beValue ((b :: bs).take 2)),
          UInt32.ofNat (beValue (((b :: bs).drop 2).take 4))) :: s, ?_⟩
        have v1 : beValue ((b :: bs).take 2) < 2 ^ 16 := take_beValue_lt 2
        have v2 : beValue (((b :: bs).drop 2).take 4) < 2 ^ 32 := take_beValue_lt 4
        have b1 := be_beValue ((b :: bs).take 2)
        rw [List.length_take, Nat.min_eq_left (by omega)] at b1
        have b2 := be_beValue (((b :: bs).drop 2).take 4)
        rw [List.length_take, List.length_drop, Nat.min_eq_left (by omega)] at b2
        unfold settingsOctets settingOctets
        rw [List.flatMap_cons]
        simp only [UInt16.toNat_ofNat', UInt32.toNat_ofNat']
        rw [Nat.mod_eq_of_lt v1, Nat.mod_eq_of_lt v2, b1, b2]
        unfold settingsOctets settingOctets at hs
        rw [← hs, List.append_assoc]
        conv_lhs => rw [← List.take_append_drop 2 (b :: bs),
          ← List.take_append_drop 4 ((b :: bs).drop 2)]
        rw [List.drop_drop]

/-- C50 is false of the code: a SETTINGS payload whose length is not a multiple of six is read past
its end, whatever its contents. -/
theorem C50_malformed_settings_violated [Platform] (fh : FrameHeader) (h : fh.type = 4) (raw : Bytes)
    (table : DynamicTable) (hl : raw.length % 6 ≠ 0) :
    buildFrame fh raw table = .ub .outOfBounds := by
  rw [buildFrame_settings _ _ _ h]
  unfold buildSettingsFrame
  rw [parseSettings_malformed _ _ hl]
  rfl

/-- C50, the part that holds: every payload of the right length is parsed (and holds some list of
settings). Missing: rejection of the other lengths, see `C50_malformed_settings_violated`. -/
theorem C50_well_formed_partial [Platform] (fh : FrameHeader) (h : fh.type = 4) (raw : Bytes)
    (table : DynamicTable) (hl : raw.length % 6 = 0) :
    ∃ settings f, raw = settingsOctets settings ∧
      buildFrame fh raw table = .ok (.settings f) ∧
      ∀ id, f.payload.lookup id = settings.lookup id := by
  obtain ⟨settings, rfl⟩ := settingsOctets_of_length raw hl
  obtain ⟨f, h1, -, h2, -⟩ := C52_first_value_partial fh h table settings
  exact ⟨settings, f, rfl, h1, h2⟩

attribute [local instance] x86 in
example : buildFrame ⟨7, 4, 0, 0, 0⟩ [0, 1, 0, 0, 16, 0, 0] sampleTable = .ub .outOfBounds := by
  decide +kernel

/-! ## C51 -/

/-- C51 is false of the code: in a padded HEADERS or PUSH_PROMISE frame such a payload makes
`build_frame` move iterators outside the buffer. -/
theorem C51_malformed_padding_violated [Platform] (fh : FrameHeader) (raw : Bytes)
    (table : DynamicTable) (ht : fh.type = 1 ∨ fh.type = 5) (hp : hasPadded fh.flags)
    (hb : PaddingTooLong raw) : (buildFrame fh raw table).IsUb := by
  obtain ⟨k, hk⟩ := extractPadding_bad hp hb
  rcases ht with ht | ht
  · rw [buildFrame_headers _ _ _ ht]
    unfold buildHeadersFrame HeadersFrame.ofRaw
    rw [hk]
    exact ⟨k, rfl⟩
  · rw [buildFrame_pushPromise _ _ _ ht]
    unfold PushPromiseFrame.ofRaw
    rw [hk]
    exact ⟨k, rfl⟩

theorem unpad_padded (fh : FrameHeader) : ¬ hasPadded (unpad fh).flags := by
  have := u8_all (p := fun b => !(b &&& 0xf7).toNat.testBit 3) (by decide +kernel) fh.flags
  unfold hasPadded unpad
  rw [Bool.not_eq_true'] at this
  simp only
  rw [this]
  decide

theorem unpad_priority (fh : FrameHeader) : hasPriority (unpad fh).flags ↔ hasPriority fh.flags := by
  have := u8_all (p := fun b => (b &&& 0xf7).toNat.testBit 5 == b.toNat.testBit 5)
    (by decide +kernel) fh.flags
  unfold hasPriority unpad
  rw [eq_of_beq this]

/-- C51, the part that holds: with a fitting pad length the padding is transparent. HEADERS: the
result is that of the unpadded content, with the padding octets recorded. Missing: rejection of bad
pad lengths, see `C51_malformed_padding_violated`. -/
theorem C51_headers_partial [Platform] (fh : FrameHeader) (pad : UInt8) (rest : Bytes)
    (table : DynamicTable) (ht : fh.type = 1) (hp : hasPadded fh.flags)
    (hl : pad.toNat ≤ rest.length) :
    (∀ f, buildFrame (unpad fh) (rest.take (rest.length - pad.toNat)) table = .ok (.headers f) →
      buildFrame fh (pad :: rest) table = .ok (.headers
        { f with header := fh, encodedPayload := pad :: rest
                 padding := rest.drop (rest.length - pad.toNat) })) ∧
    ((buildFrame fh (pad :: rest) table).IsUb ↔
      (buildFrame (unpad fh) (rest.take (rest.length - pad.toNat)) table).IsUb) := by
  rw [buildFrame_headers _ _ _ ht, buildFrame_headers _ _ _ (by exact ht)]
  unfold buildHeadersFrame HeadersFrame.ofRaw
  rw [extractPadding_good hp hl, extractPadding_unpadded (unpad_padded fh)]
  simp only [Res.ok_bind]
  have hx : ∀ raw, extractPriority (unpad fh).flags raw = extractPriority fh.flags raw := by
    intro raw
    by_cases h : hasPriority fh.flags
    · unfold extractPriority
      rw [priority_ite, priority_ite, if_pos h, if_pos ((unpad_priority fh).2 h)]
    · rw [extractPriority_none h, extractPriority_none (fun g => h ((unpad_priority fh).1 g))]
  rw [hx]
  cases hpr : extractPriority fh.flags (rest.take (rest.length - pad.toNat)) with
  | ok a =>
      obtain ⟨pr, raw'⟩ := a
      simp only [Res.ok_bind]
      cases hd : decodeHeaderBlock raw' table with
      | ok blk =>
          simp only [Res.ok_bind, Res.pure_eq]
          refine ⟨fun f hf => ?_, by simp [Res.IsUb]⟩
          have h0 := Res.ok.inj hf
          injection h0 with h0
          rw [← h0]
      | throw e => simp [Res.IsUb]
      | ub k => simp [Res.IsUb]
      | diverge => simp [Res.IsUb]
  | throw e => simp [Res.IsUb]
  | ub k => simp [Res.IsUb]
  | diverge => simp [Res.IsUb]

/-- C51, the part that holds, PUSH_PROMISE. Missing: rejection of bad pad lengths, see
`C51_malformed_padding_violated`. -/
theorem C51_push_promise_partial [Platform] (fh : FrameHeader) (pad : UInt8) (rest : Bytes)
    (table : DynamicTable) (ht : fh.type = 5) (hp : hasPadded fh.flags)
    (hl : pad.toNat ≤ rest.length) :
    (∀ f, buildFrame (unpad fh) (rest.take (rest.length - pad.toNat)) table =
        .ok (.pushPromise f) →
      buildFrame fh (pad :: rest) table = .ok (.pushPromise
        { header := fh, encodedPayload := pad :: rest
          payload := { f.payload with padding := rest.drop (rest.length - pad.toNat) } })) ∧
    ((buildFrame fh (pad :: rest) table).IsUb ↔
      (buildFrame (unpad fh) (rest.take (rest.length - pad.toNat)) table).IsUb) := by
  rw [buildFrame_pushPromise _ _ _ ht, buildFrame_pushPromise _ _ _ (by exact ht)]
  unfold PushPromiseFrame.ofRaw
  rw [extractPadding_good hp hl, extractPadding_unpadded (unpad_padded fh)]
  simp only [Res.ok_bind]
  generalize rest.take (rest.length - pad.toNat) = c
  cases h1 : readAt c 0 with
  | ok a =>
      simp only [Res.ok_bind]
      cases h2 : bytes2integral 4 c with
      | ok v =>
          simp only [Res.ok_bind]
          cases h3 : eraseFirst 4 c with
          | ok c' =>
              simp only [Res.ok_bind]
              cases hd : decodeHeaderBlock c' table with
              | ok blk =>
                  simp only [Res.ok_bind, Res.pure_eq]
                  refine ⟨fun f hf => ?_, by simp [Res.IsUb]⟩
                  have h0 := Res.ok.inj hf
                  injection h0 with h0
                  rw [← h0]
              | throw e => simp [Res.IsUb]
              | ub k => simp [Res.IsUb]
              | diverge => simp [Res.IsUb]
          | throw e => simp [Res.IsUb]
          | ub k => simp [Res.IsUb]
          | diverge => simp [Res.IsUb]
      | throw e => simp [Res.IsUb]
      | ub k => simp [Res.IsUb]
      | diverge => simp [Res.IsUb]
  | throw e => simp [Res.IsUb]
  | ub k => simp [Res.IsUb]
  | diverge => simp [Res.IsUb]

attribute [local instance] x86 in
example : buildFrame ⟨3, 1, 0x0c, 0, 1⟩ [3, 0x82, 0] sampleTable = .ub .badIterator ∧
    buildFrame ⟨3, 1, 0x0c, 0, 1⟩ [1, 0x82, 7] sampleTable =
      .ok (.headers ⟨[1, 0x82, 7], ⟨3, 1, 0x0c, 0, 1⟩, [7], .zero,
        [⟨.indexed, .header (bstr ":method", bstr "GET")⟩]⟩) := by decide +kernel
example : PaddingTooLong [3, 0x82, 0] ∧ hasPadded 0x0c := ⟨Or.inr ⟨3, [0x82, 0], rfl, by decide⟩, by decide⟩

/-! ## C54 -/

/-- C54, the part that holds. Frame header, PRIORITY, PUSH_PROMISE and WINDOW_UPDATE use the low
bit of the one-bit field only: the octets are those for `field mod 2` (PRIORITY rejects other
values). Missing: GOAWAY and HEADERS, see below. -/
theorem C54_low_bit_only_partial [Platform] :
    (∀ fh : FrameHeader, fh.serialize =
      ({ fh with reserved := UInt8.ofNat (fh.reserved.toNat % 2) } : FrameHeader).serialize) ∧
    (∀ (sid : UInt32) (r : UInt8) (inc : UInt32) (f : WindowUpdateFrame),
      WindowUpdateFrame.new sid r inc = .ok f → ∃ g,
        WindowUpdateFrame.new sid (UInt8.ofNat (r.toNat % 2)) inc = .ok g ∧
        f.serialize = g.serialize) ∧
    (∀ (flags : UInt8) (sid : UInt32) (p : PushPromisePayload) (mode : EncodeMode)
      (table : DynamicTable) (f : PushPromiseFrame),
      PushPromiseFrame.new flags sid p mode table = .ok f → ∃ g,
        PushPromiseFrame.new flags sid { p with reserved := UInt8.ofNat (p.reserved.toNat % 2) }
          mode table = .ok g ∧ f.serialize = g.serialize) ∧
    (∀ (sid : UInt32) (p : PriorityOption) (f : PriorityFrame),
      PriorityFrame.new sid p = .ok f → p.exclusive.toNat < 2) := by
  have hm : ∀ r : UInt8, lowBits 1 (UInt8.ofNat (r.toNat % 2)).toNat = lowBits 1 r.toNat := by
    intro r
    have := u8_all (p := fun r => lowBits 1 (UInt8.ofNat (r.toNat % 2)).toNat == lowBits 1 r.toNat)
      (by decide +kernel) r
    exact eq_of_beq this
  refine ⟨fun fh => ?_, fun sid r inc f hf => ?_, fun flags sid p mode table f hf => ?_,
    fun sid p f hf => ?_⟩
  · unfold FrameHeader.serialize
    simp only [hm]
  · unfold WindowUpdateFrame.new at hf ⊢
    obtain ⟨u, h1, h2⟩ := Res.bind_eq_ok.1 hf
    rw [h1]
    refine ⟨_, rfl, ?_⟩
    obtain rfl := Res.ok.inj h2
    unfold WindowUpdateFrame.serialize
    simp only [hm]
  · unfold PushPromiseFrame.new at hf ⊢
    obtain ⟨enc, h1, h2⟩ := Res.bind_eq_ok.1 hf
    have h1' : PushPromiseFrame.constructEncodedPayload flags
        { p with reserved := UInt8.ofNat (p.reserved.toNat % 2) } mode table = .ok enc := by
      unfold PushPromiseFrame.constructEncodedPayload at h1 ⊢
      simp only [hm]
      exact h1
    rw [h1']
    refine ⟨_, rfl, ?_⟩
    obtain rfl := Res.ok.inj h2
    rfl
  · have := (C53_constructors sid p 0 0 0 []).1.1
    by_contra hc
    rw [this.2 (Or.inl (by omega))] at hf
    cases hf

/-- C54 is false of GOAWAY: serializing a frame with a reserved field of 2 or more is an undefined
shift. -/
theorem C54_goaway_reserved_violated [Platform] (p : GoawayPayload) (h : 2 ≤ p.reserved.toNat) :
    (GoawayFrame.new p).serialize = .ub .badShift := by
  unfold GoawayFrame.serialize GoawayFrame.new shlInt
  simp only
  rw [if_neg (by omega)]
  rfl

/-- C54 is false of HEADERS: constructing a frame with PRIORITY and an exclusive field of 2 or more
is an undefined shift. -/
theorem C54_headers_exclusive_violated (flags : UInt8) (sid : UInt32) (block : HeaderBlock)
    (mode : EncodeMode) (table : DynamicTable) (padding : Bytes) (p : PriorityOption)
    (hp : hasPriority flags) (h : 2 ≤ p.exclusive.toNat) :
    HeadersFrame.new flags sid block mode table padding p = .ub .badShift := by
  unfold HeadersFrame.new HeadersFrame.constructEncodedPayload encodePriority shlInt
  rw [priority_ite, if_pos hp, if_neg (by omega)]
  rfl

example : ∃ f g, WindowUpdateFrame.new 1 0xfe 5 = .ok f ∧ WindowUpdateFrame.new 1 0 5 = .ok g ∧
    @WindowUpdateFrame.serialize x86 f = @WindowUpdateFrame.serialize x86 g := ⟨_, _, rfl, rfl, rfl⟩
example : hasPriority 0x20 ∧ 2 ≤ (⟨2, 0, 0⟩ : PriorityOption).exclusive.toNat := by decide

end Mh2c
