/-
C36-C45 (frames without header blocks), C49, C52, C53.
-/
import Verif.Proofs.Frames
import Verif.Proofs.Settings

namespace Mh2c

open Rfc

/-! ## C36: DATA -/

/-- C36. Layout of RFC 7540 6.1 (payload as given), and the frame comes back equal. -/
theorem C36_data_round_trip [Platform] (flags : UInt8) (streamId : UInt32) (payload : Bytes)
    (table : DynamicTable) (hs : streamId.toNat < 2 ^ 31) (hp : payload.length < 2 ^ 24) :
    (DataFrame.new flags streamId payload).serialize =
      .ok (frameOctets 0 flags streamId.toNat payload) ∧
    reparse (frameOctets 0 flags streamId.toNat payload) table =
      .ok (.data (DataFrame.new flags streamId payload)) := by
  constructor
  · unfold DataFrame.serialize DataFrame.new
    rw [header_frame _ _ _ _ hp]; rfl
  · rw [reparse_frame _ _ _ _ hp hs, buildFrame_data _ _ _ rfl]; rfl

example : @DataFrame.serialize x86 (DataFrame.new 9 3 [1, 65, 0]) =
    .ok [0, 0, 3, 0, 9, 0, 0, 0, 3, 1, 65, 0] := by decide

/-! ## C38: PRIORITY -/

/-- C38. Every constructed frame has the layout of RFC 7540 6.3 and comes back equal. -/
theorem C38_priority_round_trip [Platform] (streamId : UInt32) (p : PriorityOption)
    (f : PriorityFrame) (table : DynamicTable) (hs : streamId.toNat < 2 ^ 31)
    (hf : PriorityFrame.new streamId p = .ok f) :
    f.serialize = .ok (frameOctets 2 0 streamId.toNat
      (priorityOctets p.exclusive.toNat p.streamDependency.toNat p.weight)) ∧
    reparse (frameOctets 2 0 streamId.toNat
      (priorityOctets p.exclusive.toNat p.streamDependency.toNat p.weight)) table =
        .ok (.priority f) ∧ f.payload = p := by
  obtain ⟨e, d, w⟩ := p
  unfold PriorityFrame.new validatePriority at hf
  simp only at hf
  by_cases h1 : e.toNat > 1
  · rw [if_pos h1] at hf; cases hf
  by_cases h2 : d.toNat > 0x7fffffff
  · rw [if_neg h1, if_pos h2] at hf; cases hf
  rw [if_neg h1, if_neg h2] at hf
  obtain rfl := Res.ok.inj hf
  simp only
  have hl : (priorityOctets e.toNat d.toNat w).length = 5 := by
    simp [priorityOctets, bitAnd31_length]
  have hv : beValue ((priorityOctets e.toNat d.toNat w).take 4) = e.toNat * 2 ^ 31 + d.toNat := by
    rw [priorityOctets, List.take_left' (bitAnd31_length _ _),
      beValue_bitAnd31 (by omega) (by omega)]
  refine ⟨?_, ?_, trivial⟩
  · unfold PriorityFrame.serialize
    rw [← header_frame _ _ _ _ (by omega), hl]
    simp only [priorityOctets, netBytes_eq, or_high_bit _ _ (by omega : d.toNat < 2 ^ 31),
      lowBits_eq, Nat.mod_eq_of_lt (by omega : e.toNat < 2 ^ 1), bitAnd31, List.append_assoc]
    rfl
  · rw [reparse_frame _ _ _ _ (by omega) hs, buildFrame_priority _ _ _ rfl,
      priority_ofRaw _ (by omega), hv]
    have e1 : (e.toNat * 2 ^ 31 + d.toNat) / 2 ^ 31 = e.toNat := by omega
    have e2 : (e.toNat * 2 ^ 31 + d.toNat) % 2 ^ 31 = d.toNat := by omega
    have e3 : (priorityOctets e.toNat d.toNat w)[4] = w := by
      simp [priorityOctets, List.getElem_append_right, bitAnd31_length]
    rw [e1, e2, e3, hl]
    simp [castToFhLength]
    rfl

example : ∃ f, PriorityFrame.new 5 ⟨1, 0x7ffffffe, 200⟩ = .ok f ∧
    @PriorityFrame.serialize x86 f = .ok [0, 0, 5, 2, 0, 0, 0, 0, 5, 0xff, 0xff, 0xff, 0xfe, 200] :=
  ⟨_, rfl, by decide⟩

/-! ## C39: RST_STREAM -/

/-- C39. Layout of RFC 7540 6.4; any 32-bit error code, known or not, is preserved. -/
theorem C39_rst_stream_round_trip [Platform] (streamId errorCode : UInt32) (table : DynamicTable)
    (hs : streamId.toNat < 2 ^ 31) :
    (RstStreamFrame.new streamId errorCode).serialize =
      .ok (frameOctets 3 0 streamId.toNat (be 4 errorCode.toNat)) ∧
    reparse (frameOctets 3 0 streamId.toNat (be 4 errorCode.toNat)) table =
      .ok (.rstStream (RstStreamFrame.new streamId errorCode)) ∧
    (RstStreamFrame.new streamId errorCode).errorCode = errorCode := by
  have hl := be_length 4 errorCode.toNat
  refine ⟨?_, ?_, rfl⟩
  · unfold RstStreamFrame.serialize RstStreamFrame.new
    rw [← header_frame _ _ _ _ (by omega), hl]
    simp only [netBytes_eq]
    rfl
  · rw [reparse_frame _ _ _ _ (by omega) hs, buildFrame_rstStream _ _ _ rfl,
      rstStream_ofRaw _ (by omega), List.take_of_length_le (by omega), beValue_be, hl,
      Nat.mod_eq_of_lt (b := 256 ^ 4) (errorCode.toNat_lt)]
    simp [castToFhLength, RstStreamFrame.new]
    rfl

example : @RstStreamFrame.serialize x86 (RstStreamFrame.new 7 0xdeadbeef) =
    .ok [0, 0, 4, 3, 0, 0, 0, 0, 7, 0xde, 0xad, 0xbe, 0xef] := by decide

/-! ## C40, C52: SETTINGS -/

/-- C40. Layout of RFC 7540 6.5.1: the settings in increasing order of identifier; the frame comes
back equal. -/
theorem C40_settings_round_trip [Platform] (flags : UInt8) (streamId : UInt32) (payload : SfPayload)
    (table : DynamicTable) (hs : streamId.toNat < 2 ^ 31) (hm : IsMap payload) :
    (SettingsFrame.new flags streamId payload).serialize =
      .ok (frameOctets 4 flags streamId.toNat (settingsOctets payload)) ∧
    reparse (frameOctets 4 flags streamId.toNat (settingsOctets payload)) table =
      .ok (.settings (SettingsFrame.new flags streamId payload)) ∧
    (SettingsFrame.new flags streamId payload).payload = payload := by
  have h1 := isMap_length hm
  have hl := settingsOctets_length payload
  refine ⟨?_, ?_, rfl⟩
  · rw [← header_frame _ _ _ _ (by omega), hl]
    unfold SettingsFrame.serialize SettingsFrame.new
    congr 2
    unfold settingsOctets serializeSetting settingOctets
    simp only [netBytes_eq]
  · rw [reparse_frame _ _ _ _ (by omega) hs, buildFrame_settings _ _ _ rfl]
    unfold buildSettingsFrame
    rw [parseSettings_ok, Res.ok_bind]
    have : payload.foldl (fun m p => SfPayload.insert p.1 p.2 m) [] = payload :=
      isMap_ext (foldl_isMap payload List.Pairwise.nil) hm
        (fun k => by rw [foldl_lookup payload List.Pairwise.nil]; simp)
    rw [this]
    rfl

/-- C40. The map a caller builds with `make_sf_payload` is in order and holds the first value given
for each identifier, nothing else. -/
theorem C40_make_payload (ps : List (UInt16 × UInt32)) :
    IsMap (makeSfPayload ps) ∧ ∀ k, (makeSfPayload ps).lookup k = ps.lookup k :=
  ⟨foldl_isMap ps List.Pairwise.nil, fun k => by
    unfold makeSfPayload; rw [foldl_lookup ps List.Pairwise.nil]; simp⟩

example : makeSfPayload [(4, 100), (1, 4096), (4, 7)] = [(1, 4096), (4, 100)] ∧
    @SettingsFrame.serialize x86 (SettingsFrame.new 0 0 [(1, 4096), (4, 100)]) =
      .ok [0, 0, 12, 4, 0, 0, 0, 0, 0, 0, 1, 0, 0, 16, 0, 0, 4, 0, 0, 0, 100] := by decide
example : IsMap [(1, 4096), (4, 100)] := by unfold IsMap; decide

/-- C52, what the code does: the parsed frame holds exactly the first value of each identifier.
Missing: the last one, as RFC 7540 6.5.3 asks (see `C52_last_value_violated`). They agree if no
identifier is repeated. -/
theorem C52_first_value_partial [Platform] (fh : FrameHeader) (hfh : fh.type = 4)
    (table : DynamicTable) (settings : List (UInt16 × UInt32)) :
    ∃ f, buildFrame fh (settingsOctets settings) table = .ok (.settings f) ∧
      IsMap f.payload ∧ (∀ id, f.payload.lookup id = settings.lookup id) ∧
      ((settings.map (·.1)).Nodup → ∀ id, f.payload.lookup id = settings.reverse.lookup id) := by
  rw [buildFrame_settings _ _ _ hfh]
  unfold buildSettingsFrame
  rw [parseSettings_ok, Res.ok_bind]
  refine ⟨_, rfl, (C40_make_payload settings).1, (C40_make_payload settings).2, fun hn id => ?_⟩
  refine ((C40_make_payload settings).2 id).trans ?_
  have hex : ∀ (l : List (UInt16 × UInt32)), (l.map (·.1)).Nodup → ∀ (v : UInt32),
      l.lookup id = some v ↔ (id, v) ∈ l := by
    intro l
    induction l with
    | nil => simp
    | cons a l ih =>
        obtain ⟨k, w⟩ := a
        intro hnd v
        simp only [List.map_cons, List.nodup_cons] at hnd
        by_cases hk : id = k
        · subst hk
          rw [List.lookup_cons_self]
          constructor
          · intro h; rw [Option.some.inj h]; simp
          · intro h
            rcases List.mem_cons.1 h with h | h
            · injection h with _ h; rw [h]
            · exact absurd (List.mem_map_of_mem (f := (·.1)) h) hnd.1
        · have hb : (id == k) = false := by simp [hk]
          rw [List.lookup, hb]
          simp only [List.mem_cons, Prod.mk.injEq, hk, false_and, false_or]
          exact ih hnd.2 v
  have hr : (settings.reverse.map (·.1)).Nodup := by
    rw [List.map_reverse]; exact (List.reverse_perm _).nodup_iff.2 hn
  cases h1 : settings.lookup id with
  | some v =>
      have := (hex settings hn v).1 h1
      exact ((hex settings.reverse hr v).2 (List.mem_reverse.2 this)).symm
  | none =>
      cases h2 : settings.reverse.lookup id with
      | none => rfl
      | some v =>
          have := List.mem_reverse.1 ((hex settings.reverse hr v).1 h2)
          rw [(hex settings hn v).2 this] at h1
          cases h1

/-- C52 is false of the code: with INITIAL_WINDOW_SIZE first 1, then 2, the client records 1. -/
theorem C52_last_value_violated [Platform] (fh : FrameHeader) (hfh : fh.type = 4)
    (table : DynamicTable) :
    ∃ (settings : List (UInt16 × UInt32)) (f : SettingsFrame),
      buildFrame fh (settingsOctets settings) table = .ok (.settings f) ∧
      f.payload.lookup 4 ≠ settings.reverse.lookup 4 := by
  obtain ⟨f, h1, -, h2, -⟩ := C52_first_value_partial fh hfh table [(4, 1), (4, 2)]
  exact ⟨_, f, h1, by rw [h2]; decide⟩

attribute [local instance] x86 in
example : buildFrame ⟨18, 4, 0, 0, 0⟩ (settingsOctets [(4, 1), (1, 9), (4, 2)]) ⟨[], 0, 10⟩ =
    .ok (.settings ⟨⟨12, 4, 0, 0, 0⟩, [(1, 9), (4, 1)]⟩) := by decide +kernel

/-! ## C42: PING -/

/-- C42. Data of at most eight octets is padded with zeros to eight and comes back equal; longer
data is rejected. Layout of RFC 7540 6.7. -/
theorem C42_ping_round_trip [Platform] (flags : UInt8) (data : Bytes) (table : DynamicTable) :
    (data.length ≤ 8 → ∃ f, PingFrame.new flags data = .ok f ∧
      f.opaqueData = data ++ List.replicate (8 - data.length) 0 ∧ f.opaqueData.length = 8 ∧
      f.serialize = .ok (frameOctets 6 flags 0 f.opaqueData) ∧
      reparse (frameOctets 6 flags 0 f.opaqueData) table = .ok (.ping f)) ∧
    (8 < data.length → PingFrame.new flags data = .throw .invalidArgument) := by
  constructor
  · intro h
    have hl : (data ++ List.replicate (8 - data.length) 0).length = 8 := by simp; omega
    refine ⟨⟨⟨8, 6, flags, 0, 0⟩, data ++ List.replicate (8 - data.length) 0⟩, ?_, rfl, hl, ?_, ?_⟩
    · unfold PingFrame.new constructOpaqueData
      rw [if_neg (by omega)]; rfl
    · have := header_frame (data ++ List.replicate (8 - data.length) 0) 6 flags 0 (by omega)
      rw [hl] at this
      unfold PingFrame.serialize
      exact congrArg Res.ok this
    · have := reparse_frame (data ++ List.replicate (8 - data.length) 0) 6 flags 0 (by omega)
        (by decide) table
      refine this.trans ?_
      rw [buildFrame_ping _ _ _ rfl, hl]
      rfl
  · intro h
    unfold PingFrame.new constructOpaqueData
    rw [if_pos h]; rfl

example : ∃ f, PingFrame.new 1 [1, 2, 3] = .ok f ∧
    @PingFrame.serialize x86 f = .ok [0, 0, 8, 6, 1, 0, 0, 0, 0, 1, 2, 3, 0, 0, 0, 0, 0] :=
  ⟨_, rfl, by decide⟩

/-! ## C43: GOAWAY -/

/-- C43. Layout of RFC 7540 6.8; the frame comes back equal. -/
theorem C43_goaway_round_trip [Platform] (p : GoawayPayload) (table : DynamicTable)
    (hr : p.reserved.toNat ≤ 1) (hl : p.lastStreamId.toNat < 2 ^ 31)
    (hd : p.debugData.length < 2 ^ 24 - 8) :
    (GoawayFrame.new p).serialize = .ok (frameOctets 7 0 0
      (goawayOctets p.reserved.toNat p.lastStreamId.toNat p.errorCode p.debugData)) ∧
    reparse (frameOctets 7 0 0
      (goawayOctets p.reserved.toNat p.lastStreamId.toNat p.errorCode p.debugData)) table =
        .ok (.goaway (GoawayFrame.new p)) ∧ (GoawayFrame.new p).payload = p := by
  obtain ⟨r, l, c, d⟩ := p
  simp only at hr hl hd
  have hlen : (goawayOctets r.toNat l.toNat c d).length = 4 + 4 + d.length := by
    simp [goawayOctets, bitAnd31_length]; omega
  have h0 : (0 : UInt32).toNat = 0 := rfl
  refine ⟨?_, ?_, rfl⟩
  · have := header_frame (goawayOctets r.toNat l.toNat c d) 7 0 0 (by omega)
    rw [h0] at this
    rw [← this]
    unfold GoawayFrame.serialize GoawayFrame.new shlInt
    simp only
    rw [if_pos (by omega), Res.ok_bind, hlen]
    have hif : (if d.length > 0 then d else []) = d := by
      cases d <;> simp
    have hor : lowBits 31 l.toNat ||| r.toNat * 2 ^ 31 = r.toNat * 2 ^ 31 + l.toNat := by
      rw [lowBits_eq, Nat.mod_eq_of_lt hl, Nat.or_comm, ← or_high_bit _ _ hl,
        Nat.shiftLeft_eq]
    rw [hif, hor, netBytes_eq, netBytes_eq]
    simp only [goawayOctets, bitAnd31, List.append_assoc]
    rfl
  · have := reparse_frame (goawayOctets r.toNat l.toNat c d) 7 0 0 (by omega) (by decide) table
    refine this.trans ?_
    rw [buildFrame_goaway _ _ _ rfl, goaway_ofRaw _ (by omega)]
    have e1 : (goawayOctets r.toNat l.toNat c d).take 4 = bitAnd31 r.toNat l.toNat := by
      rw [goawayOctets, List.append_assoc, List.take_left' (bitAnd31_length _ _)]
    have e2 : (goawayOctets r.toNat l.toNat c d).drop 4 = be 4 c.toNat ++ d := by
      rw [goawayOctets, List.append_assoc, List.drop_left' (bitAnd31_length _ _)]
    have e3 : (goawayOctets r.toNat l.toNat c d).drop 8 = d := by
      rw [goawayOctets, List.drop_left' (by simp [bitAnd31_length])]
    rw [e1, e2, e3, List.take_left' (be_length _ _), beValue_be, beValue_bitAnd31 (by omega) hl,
      hlen, Nat.mod_eq_of_lt (b := 256 ^ 4) (c.toNat_lt),
      (by omega : (r.toNat * 2 ^ 31 + l.toNat) / 2 ^ 31 = r.toNat),
      (by omega : (r.toNat * 2 ^ 31 + l.toNat) % 2 ^ 31 = l.toNat)]
    simp [GoawayFrame.new]
    rfl

example : @GoawayFrame.serialize x86 (GoawayFrame.new ⟨1, 5, 0x99, [104, 105]⟩) =
    .ok [0, 0, 10, 7, 0, 0, 0, 0, 0, 0x80, 0, 0, 5, 0, 0, 0, 0x99, 104, 105] := by decide

/-! ## C44: WINDOW_UPDATE -/

/-- C44. Layout of RFC 7540 6.9; the frame comes back equal; too large increments are rejected. -/
theorem C44_window_update_round_trip [Platform] (streamId : UInt32) (reserved : UInt8)
    (increment : UInt32) (table : DynamicTable) (hs : streamId.toNat < 2 ^ 31)
    (hr : reserved.toNat ≤ 1) :
    (increment.toNat < 2 ^ 31 → ∃ f, WindowUpdateFrame.new streamId reserved increment = .ok f ∧
      f.reserved = reserved ∧ f.increment = increment ∧
      f.serialize = .ok (frameOctets 8 0 streamId.toNat (bitAnd31 reserved.toNat increment.toNat)) ∧
      reparse (frameOctets 8 0 streamId.toNat (bitAnd31 reserved.toNat increment.toNat)) table =
        .ok (.windowUpdate f)) ∧
    (2 ^ 31 ≤ increment.toNat →
      WindowUpdateFrame.new streamId reserved increment = .throw .invalidArgument) := by
  have hl := bitAnd31_length reserved.toNat increment.toNat
  constructor
  · intro h
    refine ⟨⟨⟨4, 8, 0, 0, streamId⟩, reserved, increment⟩, ?_, rfl, rfl, ?_, ?_⟩
    · unfold WindowUpdateFrame.new validateWindowSize
      rw [if_neg (by omega)]; rfl
    · rw [← header_frame _ _ _ _ (by omega), hl]
      unfold WindowUpdateFrame.serialize
      simp only [netBytes_eq, lowBits_eq, Nat.mod_eq_of_lt h,
        Nat.mod_eq_of_lt (by omega : reserved.toNat < 2 ^ 1), or_high_bit _ _ h, bitAnd31]
      rfl
    · rw [reparse_frame _ _ _ _ (by omega) hs, buildFrame_windowUpdate _ _ _ rfl,
        windowUpdate_ofRaw _ hl, hl, beValue_bitAnd31 (by omega) h,
        (by omega : (reserved.toNat * 2 ^ 31 + increment.toNat) / 2 ^ 31 = reserved.toNat),
        (by omega : (reserved.toNat * 2 ^ 31 + increment.toNat) % 2 ^ 31 = increment.toNat)]
      simp
      rfl
  · intro h
    unfold WindowUpdateFrame.new validateWindowSize
    rw [if_pos (by omega)]; rfl

example : ∃ f, WindowUpdateFrame.new 3 1 0x12345678 = .ok f ∧
    @WindowUpdateFrame.serialize x86 f = .ok [0, 0, 4, 8, 0, 0, 0, 0, 3, 0x92, 0x34, 0x56, 0x78] :=
  ⟨_, rfl, by decide⟩

/-! ## C49 -/

/-- C49, PRIORITY. Fewer than five octets: `invalid_argument`. Otherwise a frame with the fields of
RFC 7540 6.3. -/
theorem C49_priority [Platform] (fh : FrameHeader) (h : fh.type = 2) (raw : Bytes)
    (table : DynamicTable) :
    (raw.length < 5 → buildFrame fh raw table = .throw .invalidArgument) ∧
    (∀ hl : 5 ≤ raw.length, ∃ f, buildFrame fh raw table = .ok (.priority f) ∧ f.header = fh ∧
      f.payload.exclusive.toNat ≤ 1 ∧ f.payload.streamDependency.toNat < 2 ^ 31 ∧
      raw.take 4 = bitAnd31 f.payload.exclusive.toNat f.payload.streamDependency.toNat ∧
      f.payload.weight = raw[4]) := by
  rw [buildFrame_priority _ _ _ h]
  constructor
  · intro hl
    unfold PriorityFrame.ofRaw PriorityFrame.constructPayload
    rw [if_pos hl]; rfl
  · intro hl
    have hv : beValue (raw.take 4) < 2 ^ 32 := take_beValue_lt 4
    rw [priority_ofRaw _ hl]
    refine ⟨_, rfl, rfl, ?_, ?_, ?_, rfl⟩
    · simp only [UInt8.toNat_ofNat']; omega
    · simp only [UInt32.toNat_ofNat']; omega
    · simp only [UInt8.toNat_ofNat', UInt32.toNat_ofNat', bitAnd31]
      have e : beValue (raw.take 4) / 2 ^ 31 % 2 ^ 8 * 2 ^ 31 + beValue (raw.take 4) % 2 ^ 31 % 2 ^ 32
        = beValue (raw.take 4) := by omega
      rw [e]
      conv_lhs => rw [← be_beValue (raw.take 4)]
      rw [List.length_take, Nat.min_eq_left (by omega)]

/-- C49, RST_STREAM. -/
theorem C49_rst_stream [Platform] (fh : FrameHeader) (h : fh.type = 3) (raw : Bytes)
    (table : DynamicTable) :
    (raw.length < 4 → buildFrame fh raw table = .throw .invalidArgument) ∧
    (4 ≤ raw.length → ∃ f, buildFrame fh raw table = .ok (.rstStream f) ∧ f.header = fh ∧
      raw.take 4 = be 4 f.errorCode.toNat) := by
  rw [buildFrame_rstStream _ _ _ h]
  constructor
  · intro hl
    unfold RstStreamFrame.ofRaw
    rw [if_pos hl]; rfl
  · intro hl
    have hv : beValue (raw.take 4) < 2 ^ 32 := take_beValue_lt 4
    rw [rstStream_ofRaw _ hl]
    refine ⟨_, rfl, rfl, ?_⟩
    simp only [UInt32.toNat_ofNat', Nat.mod_eq_of_lt hv]
    conv_lhs => rw [← be_beValue (raw.take 4)]
    rw [List.length_take, Nat.min_eq_left (by omega)]

/-- C49, GOAWAY. -/
theorem C49_goaway [Platform] (fh : FrameHeader) (h : fh.type = 7) (raw : Bytes)
    (table : DynamicTable) :
    (raw.length < 8 → buildFrame fh raw table = .throw .invalidArgument) ∧
    (8 ≤ raw.length → ∃ f, buildFrame fh raw table = .ok (.goaway f) ∧ f.header = fh ∧
      f.payload.reserved.toNat ≤ 1 ∧ f.payload.lastStreamId.toNat < 2 ^ 31 ∧
      raw = goawayOctets f.payload.reserved.toNat f.payload.lastStreamId.toNat
        f.payload.errorCode f.payload.debugData) := by
  rw [buildFrame_goaway _ _ _ h]
  constructor
  · intro hl
    unfold GoawayFrame.ofRaw
    rw [if_pos hl]; rfl
  · intro hl
    have hv : beValue (raw.take 4) < 2 ^ 32 := take_beValue_lt 4
    have hw : beValue ((raw.drop 4).take 4) < 2 ^ 32 := take_beValue_lt 4
    rw [goaway_ofRaw _ hl]
    refine ⟨_, rfl, rfl, ?_, ?_, ?_⟩
    · simp only [UInt8.toNat_ofNat']; omega
    · simp only [UInt32.toNat_ofNat']; omega
    · simp only [UInt8.toNat_ofNat', UInt32.toNat_ofNat', bitAnd31, goawayOctets]
      have e : beValue (raw.take 4) / 2 ^ 31 % 2 ^ 8 * 2 ^ 31 + beValue (raw.take 4) % 2 ^ 31 % 2 ^ 32
        = beValue (raw.take 4) := by omega
      rw [e, Nat.mod_eq_of_lt hw]
      have b1 := be_beValue (raw.take 4)
      rw [List.length_take, Nat.min_eq_left (by omega)] at b1
      have b2 := be_beValue ((raw.drop 4).take 4)
      rw [List.length_take, List.length_drop, Nat.min_eq_left (by omega)] at b2
      rw [b1, b2, List.append_assoc]
      conv_lhs => rw [← List.take_append_drop 4 raw, ← List.take_append_drop 4 (raw.drop 4)]
      rw [List.drop_drop]

/-- C49, WINDOW_UPDATE. -/
theorem C49_window_update [Platform] (fh : FrameHeader) (h : fh.type = 8) (raw : Bytes)
    (table : DynamicTable) :
    (raw.length ≠ 4 → buildFrame fh raw table = .throw .invalidArgument) ∧
    (raw.length = 4 → ∃ f, buildFrame fh raw table = .ok (.windowUpdate f) ∧ f.header = fh ∧
      f.reserved.toNat ≤ 1 ∧ f.increment.toNat < 2 ^ 31 ∧
      raw = bitAnd31 f.reserved.toNat f.increment.toNat) := by
  rw [buildFrame_windowUpdate _ _ _ h]
  constructor
  · intro hl
    unfold WindowUpdateFrame.ofRaw constructReserved constructWindowSize
    rw [if_pos hl]
    split
    · rfl
    · rw [readAt_ok (by omega)]; rfl
  · intro hl
    have hv : beValue raw < 2 ^ 32 := by
      have := beValue_lt raw
      rw [hl] at this
      exact this
    rw [windowUpdate_ofRaw _ hl]
    refine ⟨_, rfl, rfl, ?_, ?_, ?_⟩
    · simp only [UInt8.toNat_ofNat']; omega
    · simp only [UInt32.toNat_ofNat']; omega
    · simp only [UInt8.toNat_ofNat', UInt32.toNat_ofNat', bitAnd31]
      have e : beValue raw / 2 ^ 31 % 2 ^ 8 * 2 ^ 31 + beValue raw % 2 ^ 31 % 2 ^ 32
        = beValue raw := by omega
      rw [e]
      conv_lhs => rw [← be_beValue raw]
      rw [hl]

attribute [local instance] x86 in
example : buildFrame ⟨4, 2, 0, 0, 1⟩ [0x80, 0, 0, 3] ⟨[], 0, 10⟩ = .throw .invalidArgument ∧
    buildFrame ⟨6, 2, 0, 0, 1⟩ [0x80, 0, 0, 3, 16, 99] ⟨[], 0, 10⟩ =
      .ok (.priority ⟨⟨6, 2, 0, 0, 1⟩, ⟨1, 3, 16⟩⟩) ∧
    buildFrame ⟨5, 8, 0, 0, 1⟩ [0x80, 0, 0, 3, 16] ⟨[], 0, 10⟩ = .throw .invalidArgument ∧
    buildFrame ⟨3, 3, 0, 0, 1⟩ [0, 0, 0] ⟨[], 0, 10⟩ = .throw .invalidArgument ∧
    buildFrame ⟨8, 7, 0, 0, 0⟩ [0xff, 0xff, 0xff, 0xff, 0, 0, 0, 1] ⟨[], 0, 10⟩ =
      .ok (.goaway ⟨⟨8, 7, 0, 0, 0⟩, ⟨1, 0x7fffffff, 1, []⟩⟩) := by decide +kernel

/-! ## C53 -/

/-- C53. Exactly when the constructors reject their arguments; in all other cases they return a
frame. (The other constructors of fixed layout frames are total functions in the model.) -/
theorem C53_constructors (streamId : UInt32) (p : PriorityOption) (reserved : UInt8)
    (increment : UInt32) (flags : UInt8) (data : Bytes) :
    ((PriorityFrame.new streamId p = .throw .invalidArgument ↔
      1 < p.exclusive.toNat ∨ 2 ^ 31 - 1 < p.streamDependency.toNat) ∧
     (PriorityFrame.new streamId p = .throw .invalidArgument ∨
      ∃ f, PriorityFrame.new streamId p = .ok f)) ∧
    ((WindowUpdateFrame.new streamId reserved increment = .throw .invalidArgument ↔
      2 ^ 31 - 1 < increment.toNat) ∧
     (WindowUpdateFrame.new streamId reserved increment = .throw .invalidArgument ∨
      ∃ f, WindowUpdateFrame.new streamId reserved increment = .ok f)) ∧
    ((PingFrame.new flags data = .throw .invalidArgument ↔ 8 < data.length) ∧
     (PingFrame.new flags data = .throw .invalidArgument ∨
      ∃ f, PingFrame.new flags data = .ok f)) := by
  refine ⟨?_, ?_, ?_⟩
  · unfold PriorityFrame.new validatePriority
    by_cases h1 : p.exclusive.toNat > 1
    · rw [if_pos h1]; simp; omega
    · rw [if_neg h1]
      by_cases h2 : p.streamDependency.toNat > 0x7fffffff
      · rw [if_pos h2]; simp; omega
      · rw [if_neg h2]; simp; omega
  · unfold WindowUpdateFrame.new validateWindowSize
    by_cases h1 : increment.toNat > 0x7fffffff
    · rw [if_pos h1]; simp; omega
    · rw [if_neg h1]; simp; omega
  · unfold PingFrame.new constructOpaqueData
    by_cases h1 : data.length > 8
    · rw [if_pos h1]; simp; omega
    · rw [if_neg h1]; simp; omega

example : PriorityFrame.new 1 ⟨2, 0, 0⟩ = .throw .invalidArgument ∧
    PriorityFrame.new 1 ⟨1, 0x80000000, 0⟩ = .throw .invalidArgument ∧
    WindowUpdateFrame.new 1 0 0x80000000 = .throw .invalidArgument := by decide

end Mh2c
