import Verif.Proofs.Makeable
import Verif.Props.Relay

/-! C119: which frames a program can make and send. -/

namespace Mh2c
open Rfc

/-- C119. Every sequence of nine or more octets is a frame that can be made and sent, legal or not:
there is a `raw_frame` that is serialized as these octets, and sending it is sending them. -/
theorem C119_any_octets [Platform] (octets : Bytes) (h : 9 ≤ octets.length) :
    ∃ f : RawFrame, f.serialize = .ok octets ∧ f.header.type.toNat = octets[3].toNat ∧
      f.header.flags.toNat = octets[4].toNat ∧ f.payload = octets.drop 9 ∧
      ∀ c : Client, c.sendFrame (.raw f) = c.sendRawData octets := by
  obtain ⟨fh, h1, -, -, -, h2⟩ := (C05_parse_lossless octets).1 h
  have hs : (⟨fh, octets.drop 9⟩ : RawFrame).serialize = .ok octets := by
    show Res.ok (fh.serialize ++ octets.drop 9) = _
    rw [h2, List.take_append_drop]
  rw [buildFrameHeader_eq _ h] at h1
  have hfh := Res.ok.inj h1
  refine ⟨⟨fh, octets.drop 9⟩, hs, by rw [← hfh], by rw [← hfh], rfl, fun c => ?_⟩
  unfold Client.sendFrame
  have : (Frame.raw ⟨fh, octets.drop 9⟩).serialize = .ok octets := hs
  rw [this]

/-- C119, DATA: exactly the frames of type 0 whose length field counts the payload can be made with
`data_frame`; flags, stream identifier, reserved bit and payload are free. -/
theorem C119_data [Platform] (octets : Bytes) :
    (∃ flags sid payload, (DataFrame.new flags sid payload).serialize = .ok octets) ↔
      FrameOf 0 octets := by
  have e : ∀ flags sid payload, (DataFrame.new flags sid payload).serialize = .ok octets ↔
      FrameHeader.serialize ⟨castToFhLength payload.length, 0, flags, 0, sid⟩ ++ payload = octets :=
    fun _ _ _ => ⟨fun h => Res.ok.inj h, fun h => congrArg Res.ok h⟩
  simp only [e, made_iff]
  constructor
  · rintro ⟨flags, sid, payload, h1, h2, h3, h4, h5, rfl⟩
    refine ⟨h1, ?_, h3⟩
    rw [h2, castToFhLength, UInt32.toNat_ofNat', List.length_drop]
    omega
  · rintro ⟨h1, h2, h3⟩
    refine ⟨octets[4], UInt32.ofNat (streamField octets), octets.drop 9, h1, ?_, h3,
      List.getElem?_eq_getElem _, ?_, rfl⟩
    · rw [h2, castToFhLength, UInt32.toNat_ofNat', List.length_drop]
      omega
    · have := streamField_lt octets
      rw [UInt32.toNat_ofNat']
      omega

/-- C119, PRIORITY: exactly the frames of type 2 with clear flags and five octets of payload. -/
theorem C119_priority [Platform] (octets : Bytes) :
    (∃ sid p f, PriorityFrame.new sid p = .ok f ∧ f.serialize = .ok octets) ↔
      FrameOf 2 octets ∧ octets[4]? = some 0 ∧ octets.length = 9 + 5 := by
  constructor
  · rintro ⟨sid, p, f, hf, hs⟩
    obtain ⟨-, -, hf⟩ := Res.bind_eq_ok.1 hf
    obtain rfl := Res.ok.inj hf
    have hs' := Res.ok.inj hs
    simp only [List.append_assoc] at hs'
    obtain ⟨h1, h2, h3, h4, h5, h6⟩ := (made_iff _ _ _ _ _ _).1 hs'
    have hl := congrArg List.length h6
    simp only [netBytes_eq, List.length_append, be_length, List.length_drop, List.length_cons,
      List.length_nil] at hl
    have hlen : octets.length = 9 + 5 := by omega
    refine ⟨⟨h1, ?_, h3⟩, h4, hlen⟩
    rw [h2, hlen]; rfl
  · rintro ⟨⟨h1, h2, h3⟩, h4, h5⟩
    have hv : beValue ((octets.drop 9).take 4) < 2 ^ 32 := take_beValue_lt 4
    have hd : (octets.drop 9).length = 5 := by simp; omega
    have hlo : beValue ((octets.drop 9).take 4) % 2 ^ 31 < 2 ^ 31 := Nat.mod_lt _ (by norm_num)
    refine ⟨UInt32.ofNat (streamField octets),
      ⟨UInt8.ofNat (beValue ((octets.drop 9).take 4) / 2 ^ 31),
        UInt32.ofNat (beValue ((octets.drop 9).take 4) % 2 ^ 31), (octets.drop 9)[4]⟩,
      ⟨⟨5, 2, 0, 0, UInt32.ofNat (streamField octets)⟩,
        ⟨UInt8.ofNat (beValue ((octets.drop 9).take 4) / 2 ^ 31),
          UInt32.ofNat (beValue ((octets.drop 9).take 4) % 2 ^ 31), (octets.drop 9)[4]⟩⟩, ?_,
      congrArg Res.ok ?_⟩
    · unfold PriorityFrame.new validatePriority
      simp only [UInt8.toNat_ofNat', UInt32.toNat_ofNat']
      rw [if_neg (by omega), if_neg (by omega)]
      rfl
    · simp only [List.append_assoc]
      refine (made_iff _ _ _ _ _ _).2 ⟨h1, ?_, h3, h4, ?_, ?_⟩
      · rw [h2, h5]; rfl
      · have := streamField_lt octets
        rw [UInt32.toNat_ofNat']
        omega
      · simp only [netBytes_eq, lowBits_eq, UInt8.toNat_ofNat', UInt32.toNat_ofNat']
        rw [Nat.mod_eq_of_lt (a := beValue _ % 2 ^ 31) (by omega),
          Nat.mod_eq_of_lt (a := beValue _ / 2 ^ 31) (by omega),
          Nat.mod_eq_of_lt (a := beValue _ / 2 ^ 31) (by omega),
          or_high_bit _ _ (by omega), be_word _ (by simp; omega), octets_eta5 _ hd,
          List.take_append_drop]

/-- C119, RST_STREAM: exactly the frames of type 3 with clear flags and four octets of payload. -/
theorem C119_rst_stream [Platform] (octets : Bytes) :
    (∃ sid code, (RstStreamFrame.new sid code).serialize = .ok octets) ↔
      FrameOf 3 octets ∧ octets[4]? = some 0 ∧ octets.length = 9 + 4 := by
  constructor
  · rintro ⟨sid, code, hs⟩
    obtain ⟨h1, h2, h3, h4, h5, h6⟩ := (made_iff _ _ _ _ _ _).1 (Res.ok.inj hs)
    have hl := congrArg List.length h6
    simp only [netBytes_eq, be_length, List.length_drop] at hl
    have hlen : octets.length = 9 + 4 := by omega
    refine ⟨⟨h1, ?_, h3⟩, h4, hlen⟩
    rw [h2, hlen]; rfl
  · rintro ⟨⟨h1, h2, h3⟩, h4, h5⟩
    have hd : (octets.drop 9).length = 4 := by simp; omega
    have hv := beValue_lt (octets.drop 9)
    rw [hd] at hv
    refine ⟨UInt32.ofNat (streamField octets), UInt32.ofNat (beValue (octets.drop 9)),
      congrArg Res.ok ((made_iff _ _ _ _ _ _).2 ⟨h1, ?_, h3, h4, ?_, ?_⟩)⟩
    · rw [h2, h5]; rfl
    · have := streamField_lt octets
      rw [UInt32.toNat_ofNat']
      omega
    · show _ = netBytes 4 (UInt32.ofNat _).toNat
      rw [netBytes_eq, UInt32.toNat_ofNat', Nat.mod_eq_of_lt (by omega), ← hd, be_beValue]

/-- C119, SETTINGS: exactly the frames of type 4 whose settings are in increasing order of
identifiers, none repeated; flags, stream identifier and reserved bit are free. -/
theorem C119_settings [Platform] (octets : Bytes) :
    (∃ flags sid parameters,
      (SettingsFrame.new flags sid (makeSfPayload parameters)).serialize = .ok octets) ↔
      FrameOf 4 octets ∧ ∃ settings : List (UInt16 × UInt32),
        octets.drop 9 = settingsOctets settings ∧ settings.Pairwise fun a b => a.1 < b.1 := by
  have hser : ∀ p : SfPayload, p.flatMap serializeSetting = settingsOctets p := by
    intro p
    unfold settingsOctets serializeSetting settingOctets
    simp only [netBytes_eq]
  constructor
  · rintro ⟨flags, sid, ps, hs⟩
    have hs' := Res.ok.inj hs
    rw [show (SettingsFrame.new flags sid (makeSfPayload ps)).payload = makeSfPayload ps from rfl,
      hser] at hs'
    obtain ⟨h1, h2, h3, h4, h5, h6⟩ := (made_iff _ _ _ _ _ _).1 hs'
    have hl := congrArg List.length h6
    rw [settingsOctets_length, List.length_drop] at hl
    refine ⟨⟨h1, ?_, h3⟩, _, h6, foldl_isMap ps List.Pairwise.nil⟩
    rw [h2, castToFhLength, UInt32.toNat_ofNat']
    omega
  · rintro ⟨⟨h1, h2, h3⟩, ps, h4, h5⟩
    have hfold : makeSfPayload ps = ps :=
      isMap_ext (foldl_isMap ps List.Pairwise.nil) h5
        (fun k => by rw [makeSfPayload, foldl_lookup ps List.Pairwise.nil]; simp)
    have hl := congrArg List.length h4
    rw [settingsOctets_length, List.length_drop] at hl
    refine ⟨octets[4], UInt32.ofNat (streamField octets), ps, congrArg Res.ok ?_⟩
    rw [hfold]
    show FrameHeader.serialize _ ++ List.flatMap serializeSetting ps = _
    rw [hser]
    refine (made_iff _ _ _ _ _ _).2 ⟨h1, ?_, h3, List.getElem?_eq_getElem _, ?_, h4⟩
    · rw [h2, castToFhLength, UInt32.toNat_ofNat']
      omega
    · have := streamField_lt octets
      rw [UInt32.toNat_ofNat']
      omega

/-- C119, PING: exactly the frames of type 6 with eight octets of payload on stream 0; the flags are
free. -/
theorem C119_ping [Platform] (octets : Bytes) :
    (∃ flags data f, PingFrame.new flags data = .ok f ∧ f.serialize = .ok octets) ↔
      FrameOf 6 octets ∧ streamField octets = 0 ∧ octets.length = 9 + 8 := by
  constructor
  · rintro ⟨flags, data, f, hf, hs⟩
    obtain ⟨d, hd, hf⟩ := Res.bind_eq_ok.1 hf
    obtain rfl := Res.ok.inj hf
    obtain ⟨h1, h2, h3, h4, h5, h6⟩ := (made_iff _ _ _ _ _ _).1 (Res.ok.inj hs)
    have hl := congrArg List.length h6
    have hdl : d.length = 8 := by
      unfold constructOpaqueData at hd
      split at hd
      · cases hd
      · rw [← Res.ok.inj hd]; simp; omega
    rw [List.length_drop] at hl
    simp only at hl
    have hlen : octets.length = 9 + 8 := by omega
    refine ⟨⟨h1, ?_, h3⟩, h5, hlen⟩
    rw [h2, hlen]; rfl
  · rintro ⟨⟨h1, h2, h3⟩, h4, h5⟩
    have hd : (octets.drop 9).length = 8 := by simp; omega
    refine ⟨octets[4], octets.drop 9, ⟨⟨8, 6, octets[4], 0, 0⟩, octets.drop 9⟩, ?_,
      congrArg Res.ok ((made_iff _ _ _ _ _ _).2
        ⟨h1, ?_, h3, List.getElem?_eq_getElem _, h4, rfl⟩)⟩
    · unfold PingFrame.new constructOpaqueData
      rw [if_neg (by omega), hd]
      simp only [Nat.sub_self, List.replicate_zero, List.append_nil]
      rfl
    · rw [h2, h5]; rfl

/-- C119, GOAWAY: exactly the frames of type 7 with clear flags and at least eight octets of payload,
on stream 0. -/
theorem C119_goaway [Platform] (octets : Bytes) :
    (∃ payload, (GoawayFrame.new payload).serialize = .ok octets) ↔
      FrameOf 7 octets ∧ octets[4]? = some 0 ∧ streamField octets = 0 ∧
        9 + 8 ≤ octets.length := by
  have hif : ∀ l : Bytes, (if l.length > 0 then l else []) = l := by
    intro l; cases l <;> simp
  constructor
  · rintro ⟨p, hs⟩
    obtain ⟨r, hr, hs⟩ := Res.bind_eq_ok.1 hs
    have hs' := Res.ok.inj hs
    simp only [List.append_assoc, hif] at hs'
    obtain ⟨h1, h2, h3, h4, h5, h6⟩ := (made_iff _ _ _ _ _ _).1 hs'
    have hl := congrArg List.length h6
    simp only [netBytes_eq, List.length_append, be_length, List.length_drop] at hl
    have hdl : (GoawayFrame.new p).payload = p := rfl
    rw [hdl] at hl
    refine ⟨⟨h1, ?_, h3⟩, h4, h5, by omega⟩
    rw [h2, castToFhLength, UInt32.toNat_ofNat']
    omega
  · rintro ⟨⟨h1, h2, h3⟩, h4, h5, h6⟩
    have hv : beValue ((octets.drop 9).take 4) < 2 ^ 32 := take_beValue_lt 4
    have hw : beValue (((octets.drop 9).drop 4).take 4) < 2 ^ 32 := take_beValue_lt 4
    refine ⟨⟨UInt8.ofNat (beValue ((octets.drop 9).take 4) / 2 ^ 31),
      UInt32.ofNat (beValue ((octets.drop 9).take 4) % 2 ^ 31),
      UInt32.ofNat (beValue (((octets.drop 9).drop 4).take 4)), octets.drop 17⟩, ?_⟩
    unfold GoawayFrame.serialize shlInt GoawayFrame.new
    simp only [UInt8.toNat_ofNat', UInt32.toNat_ofNat', netBytes_eq, lowBits_eq]
    rw [Nat.mod_eq_of_lt (a := beValue _ / 2 ^ 31) (by omega), if_pos (by omega), Res.ok_bind,
      Nat.mod_eq_of_lt (a := beValue _ % 2 ^ 31) (by omega),
      Nat.mod_eq_of_lt (a := beValue _ % 2 ^ 31) (by omega),
      Nat.mod_eq_of_lt (a := beValue (List.take 4 (List.drop 4 _))) (by omega)]
    refine congrArg Res.ok ?_
    have hor : ∀ a b : Nat, b < 2 ^ 31 → b ||| a * 2 ^ 31 = a * 2 ^ 31 + b := by
      intro a b hb
      rw [Nat.or_comm, ← or_high_bit _ _ hb, Nat.shiftLeft_eq]
    have hw4 : (((octets.drop 9).drop 4).take 4).length = 4 := by simp; omega
    have hbe := be_beValue (((octets.drop 9).drop 4).take 4)
    rw [hw4] at hbe
    rw [hor _ _ (by omega), be_word _ (by simp; omega), hbe, hif]
    simp only [List.append_assoc]
    refine (made_iff _ _ _ _ _ _).2 ⟨h1, ?_, h3, h4, h5, ?_⟩
    · rw [h2, castToFhLength, UInt32.toNat_ofNat', List.length_drop]
      omega
    · conv_lhs => rw [← List.take_append_drop 4 (octets.drop 9),
        ← List.take_append_drop 4 ((octets.drop 9).drop 4)]
      simp only [List.drop_drop]

/-- C119, WINDOW_UPDATE: exactly the frames of type 8 with clear flags and four octets of payload. -/
theorem C119_window_update [Platform] (octets : Bytes) :
    (∃ sid reserved increment f, WindowUpdateFrame.new sid reserved increment = .ok f ∧
      f.serialize = .ok octets) ↔
      FrameOf 8 octets ∧ octets[4]? = some 0 ∧ octets.length = 9 + 4 := by
  constructor
  · rintro ⟨sid, r, i, f, hf, hs⟩
    obtain ⟨-, -, hf⟩ := Res.bind_eq_ok.1 hf
    obtain rfl := Res.ok.inj hf
    obtain ⟨h1, h2, h3, h4, h5, h6⟩ := (made_iff _ _ _ _ _ _).1 (Res.ok.inj hs)
    have hl := congrArg List.length h6
    simp only [netBytes_eq, be_length, List.length_drop] at hl
    have hlen : octets.length = 9 + 4 := by omega
    refine ⟨⟨h1, ?_, h3⟩, h4, hlen⟩
    rw [h2, hlen]; rfl
  · rintro ⟨⟨h1, h2, h3⟩, h4, h5⟩
    have hd : (octets.drop 9).length = 4 := by simp; omega
    have hv := beValue_lt (octets.drop 9)
    rw [hd] at hv
    refine ⟨UInt32.ofNat (streamField octets), UInt8.ofNat (beValue (octets.drop 9) / 2 ^ 31),
      UInt32.ofNat (beValue (octets.drop 9) % 2 ^ 31),
      ⟨⟨4, 8, 0, 0, UInt32.ofNat (streamField octets)⟩,
        UInt8.ofNat (beValue (octets.drop 9) / 2 ^ 31),
        UInt32.ofNat (beValue (octets.drop 9) % 2 ^ 31)⟩, ?_,
      congrArg Res.ok ((made_iff _ _ _ _ _ _).2 ⟨h1, ?_, h3, h4, ?_, ?_⟩)⟩
    · unfold WindowUpdateFrame.new validateWindowSize
      simp only [UInt32.toNat_ofNat']
      rw [if_neg (by omega)]
      rfl
    · rw [h2, h5]; rfl
    · have := streamField_lt octets
      rw [UInt32.toNat_ofNat']
      omega
    · simp only [netBytes_eq, lowBits_eq, UInt8.toNat_ofNat', UInt32.toNat_ofNat']
      rw [Nat.mod_eq_of_lt (a := beValue _ % 2 ^ 31) (by omega),
        Nat.mod_eq_of_lt (a := beValue _ % 2 ^ 31) (by omega),
        Nat.mod_eq_of_lt (a := beValue _ / 2 ^ 31) (by omega),
        Nat.mod_eq_of_lt (a := beValue _ / 2 ^ 31) (by omega),
        or_high_bit _ _ (by omega), be_word _ hd]

/-- A frame no class makes, with a length field that lies: type 0x2a, length 65536, one octet. -/
example [Platform] : ∃ f : RawFrame,
    f.serialize = .ok [1, 0, 0, 0x2a, 0xff, 0x80, 0, 0, 7, 0x41] :=
  (C119_any_octets _ (by decide)).imp fun _ h => h.1

/-- A padded DATA frame with the reserved bit set; a DATA frame whose length field is wrong. -/
example : FrameOf 0 [0, 0, 3, 0, 9, 0x80, 0, 0, 1, 1, 0x41, 0] := ⟨by decide, by decide, rfl⟩
example [Platform] : ¬ ∃ flags sid payload,
    (DataFrame.new flags sid payload).serialize = .ok [0, 0, 4, 0, 9, 0, 0, 0, 1, 1, 0x41, 0] := by
  rw [C119_data]
  rintro ⟨-, h, -⟩
  exact absurd h (by decide)

/-- PRIORITY, exclusively dependent on stream 3, with weight 255. -/
example : FrameOf 2 [0, 0, 5, 2, 0, 0, 0, 0, 1, 0x80, 0, 0, 3, 255] := ⟨by decide, by decide, rfl⟩

/-- RST_STREAM with an error code that has no name. -/
example : FrameOf 3 [0, 0, 4, 3, 0, 0, 0, 0, 1, 0xff, 0, 0, 0] := ⟨by decide, by decide, rfl⟩

/-- SETTINGS on a stream other than 0, with an identifier that has no name; and a repeated identifier,
which no `settings_frame` has. -/
example [Platform] : ∃ flags sid parameters, (SettingsFrame.new flags sid
    (makeSfPayload parameters)).serialize =
      .ok [0, 0, 12, 4, 1, 0, 0, 0, 9, 0, 1, 0, 0, 0, 0, 0, 99, 0, 0, 0, 7] :=
  (C119_settings _).2 ⟨⟨by decide, by decide, rfl⟩, [(1, 0), (99, 7)], rfl, by decide⟩
example [Platform] : ¬ ∃ flags sid parameters, (SettingsFrame.new flags sid
    (makeSfPayload parameters)).serialize =
      .ok [0, 0, 12, 4, 0, 0, 0, 0, 0, 0, 1, 0, 0, 0, 0, 0, 1, 0, 0, 0, 7] := by
  rw [C119_settings]
  rintro ⟨-, ps, h1, h2⟩
  have hl := congrArg List.length h1
  rw [settingsOctets_length] at hl
  match ps, hl with
  | [(i, a), (j, b)], _ =>
      have hij : i < j := by simpa using h2
      have hi := beValue_be 2 i.toNat
      have hj := beValue_be 2 j.toNat
      have hi' : be 2 i.toNat = [0, 1] := congrArg (List.take 2) h1.symm
      have hj' : be 2 j.toNat = [0, 1] := congrArg (fun l => (List.drop 6 l).take 2) h1.symm
      have := i.toNat_lt
      have := j.toNat_lt
      rw [hi'] at hi
      rw [hj'] at hj
      have hij' : i.toNat < j.toNat := hij
      omega

/-- PING with its reserved flags set, a GOAWAY frame with debug data, WINDOW_UPDATE by nothing. -/
example : FrameOf 6 [0, 0, 8, 6, 0xfe, 0, 0, 0, 0, 1, 2, 3, 4, 5, 6, 7, 8] ∧
    FrameOf 7 [0, 0, 10, 7, 0, 0, 0, 0, 0, 0x80, 0, 0, 1, 0, 0, 0, 2, 66, 67] ∧
    FrameOf 8 [0, 0, 4, 8, 0, 0, 0, 0, 5, 0, 0, 0, 0] :=
  ⟨⟨by decide, by decide, rfl⟩, ⟨by decide, by decide, rfl⟩, ⟨by decide, by decide, rfl⟩⟩

end Mh2c
